import Verif.Model.Basic
/-!
# The two processes of the transparent egress

`/repo/src/qos_core/src/egress.rs`: the process in the enclave, the process on the host, and whoever keeps restarting each.
What a pump does with bytes is in `Model/Egress.lean`; here a pump only runs or has ended. The enclave's own processes other
than this one do not occur.
-/
namespace Qos.Tunnel

/-- What a panic of a thread does: ends the thread, or the process. `Cargo.toml:124-127`: profile `release-panic-abort`. The image
of the enclave is built with it (`images/qos_enclave_egress/Containerfile:35`), the images of the host with the ordinary release
profile (`images/common/Containerfile:39`, `images/qos_bridge_egress/Containerfile:9-11`). -/
inductive Mode where
  | unwind
  | abort
  deriving DecidableEq

/-- Where a process is (egress.rs:27-76, 140-178). `ready`: in `accept` in the enclave, in the loop of `connect` on the host. `up`: in
`copy_bidirectional` on a connection, with the two flags saying whether the pump from the interface to the connection
(`raw_to_vsock`) and the one back (`vsock_to_raw`) still run. -/
inductive Stage where
  | down
  | ready
  | up (conn : Nat) (outward inward : Bool)
  deriving DecidableEq

/-- The connection a process has an end of; it is closed only when the process ends, since the pumps borrow it (egress.rs:140-178). -/
def Stage.conn : Stage → Option Nat
  | .up c _ _ => some c
  | _ => none

/-- After a pump has ended, with what is left. With `abort` the process is gone. With `unwind` the main thread panics within
200 ms (egress.rs:163-172), but inside `std::thread::scope`, which waits for the other pump before the panic goes on
(documentation of `scope`); so the process ends when no pump is left. The 200 ms are left out. -/
def afterFailure (mode : Mode) (c : Nat) (outward inward : Bool) : Stage :=
  match mode with
  | .abort => .down
  | .unwind => if outward || inward then .up c outward inward else .down

/-- Both processes. `queue`: connections made but not yet accepted; the listener stays open while the process in the enclave
lives, also after its only `accept` (egress.rs:35-47). -/
structure Sys where
  enclave : Stage
  queue : List Nat
  host : Stage
  /-- Next number for a connection. -/
  next : Nat

/-- Neither process has been started yet. -/
def Sys.start : Sys := ⟨.down, [], .down, 0⟩

/-- The connections that the enclave's side has an end of. -/
def Sys.held (σ : Sys) : List Nat := σ.enclave.conn.toList ++ σ.queue

/-- The enclave's process moves on; if it ends, its listener is closed and with it what was not accepted. -/
def Sys.setEnclave (σ : Sys) (st : Stage) : Sys :=
  { σ with enclave := st, queue := if st = .down then [] else σ.queue }

/-- Why something happens: the programs do it by themselves; a packet comes in at an interface; something fails that need not. -/
inductive Kind where
  | own
  | packet
  | fault
  deriving DecidableEq

/-- Steps. `room`: what the backlog takes (egress.rs:42: 1, rounded by the kernel). -/
inductive Step (enclaveMode hostMode : Mode) (room : Nat) : Sys → Kind → Sys → Prop where
  /-- `run_looping` starts it again (egress.rs:275-300, reaper.rs:118-126); up to `accept`: egress.rs:29-44. -/
  | startEnclave (σ : Sys) : σ.enclave = .down → Step enclaveMode hostMode room σ .own { σ with enclave := .ready }
  /-- The same on the host (bridge/host.rs:107-122); egress.rs:57-63. -/
  | startHost (σ : Sys) : σ.host = .down → Step enclaveMode hostMode room σ .own { σ with host := .ready }
  /-- `connect` (egress.rs:64-76) succeeds if the other side listens and there is room. -/
  | connect (σ : Sys) : σ.host = .ready → σ.enclave ≠ .down → σ.queue.length ≤ room →
      Step enclaveMode hostMode room σ .own { σ with host := .up σ.next true true, queue := σ.queue ++ [σ.next], next := σ.next + 1 }
  /-- `accept`, once per process. egress.rs:46-51. -/
  | accept (σ : Sys) (c : Nat) (q : List Nat) : σ.enclave = .ready → σ.queue = c :: q →
      Step enclaveMode hostMode room σ .own { σ with enclave := .up c true true, queue := q }
  /-- The pump that reads the connection finds it closed. egress.rs:233-234, 157-159. -/
  | enclaveReads (σ : Sys) (c : Nat) (o : Bool) : σ.enclave = .up c o true → σ.host.conn ≠ some c →
      Step enclaveMode hostMode room σ .own (σ.setEnclave (afterFailure enclaveMode c o false))
  | hostReads (σ : Sys) (c : Nat) (o : Bool) : σ.host = .up c o true → c ∉ σ.held →
      Step enclaveMode hostMode room σ .own { σ with host := afterFailure hostMode c o false }
  /-- A packet is to be written to a closed connection. egress.rs:191-197, 149-151. -/
  | enclavePacket (σ : Sys) (c : Nat) (i : Bool) : σ.enclave = .up c true i → σ.host.conn ≠ some c →
      Step enclaveMode hostMode room σ .packet (σ.setEnclave (afterFailure enclaveMode c false i))
  | hostPacket (σ : Sys) (c : Nat) (i : Bool) : σ.host = .up c true i → c ∉ σ.held →
      Step enclaveMode hostMode room σ .packet { σ with host := afterFailure hostMode c false i }
  /-- A pump fails for another reason: an interface that gives an error, a packet that is not understood. -/
  | enclaveOutward (σ : Sys) (c : Nat) (i : Bool) : σ.enclave = .up c true i →
      Step enclaveMode hostMode room σ .fault (σ.setEnclave (afterFailure enclaveMode c false i))
  | enclaveInward (σ : Sys) (c : Nat) (o : Bool) : σ.enclave = .up c o true →
      Step enclaveMode hostMode room σ .fault (σ.setEnclave (afterFailure enclaveMode c o false))
  | hostOutward (σ : Sys) (c : Nat) (i : Bool) : σ.host = .up c true i →
      Step enclaveMode hostMode room σ .fault { σ with host := afterFailure hostMode c false i }
  | hostInward (σ : Sys) (c : Nat) (o : Bool) : σ.host = .up c o true →
      Step enclaveMode hostMode room σ .fault { σ with host := afterFailure hostMode c o false }
  /-- A process ends for any other reason, at any moment: the `expect`s before the pumps run, a signal. -/
  | enclaveEnds (σ : Sys) : Step enclaveMode hostMode room σ .fault (σ.setEnclave .down)
  | hostEnds (σ : Sys) : Step enclaveMode hostMode room σ .fault { σ with host := .down }

/-- Runs of steps of some kinds, with their number. -/
inductive Run (enclaveMode hostMode : Mode) (room : Nat) (allowed : Kind → Prop) : Nat → Sys → Sys → Prop where
  | refl (σ : Sys) : Run enclaveMode hostMode room allowed 0 σ σ
  | tail {n : Nat} {σ σ' σ'' : Sys} {k : Kind} : Run enclaveMode hostMode room allowed n σ σ' → allowed k →
      Step enclaveMode hostMode room σ' k σ'' → Run enclaveMode hostMode room allowed (n + 1) σ σ''

end Qos.Tunnel
