import Verif.Spec.Net
/-!
# What "the system keeps going" means

Vocabulary of C82. `Work` lists what the tasks that are already under way do by themselves when nothing fails: no new
call, nothing done by other clients, no time-out and no I/O error; every read and write moves at least one byte. The only
failures among them are the ones the code decides on itself: a message above the size limit, and the end of a closed
stream.
-/
namespace Qos.Net
open Stream (maxPayloadSize)

variable {S : Type}

inductive Work (P : Processor S) : Sys S → Sys S → Prop
  /-- a call gets a free stream -/
  | get (σ : Sys S) (k i : Nat) (c : Call) (h : Handle) : σ.calls[k]? = some c → c.st = .waiting →
      σ.handles[i]? = some h → h.holder = none →
      Work P σ ((σ.setHandle i { h with holder := some k }).setCall k c (.got i))
  /-- connects -/
  | connect (σ : Sys S) (k i : Nat) (c : Call) (h : Handle) : σ.calls[k]? = some c → c.st = .got i →
      σ.handles[i]? = some h → Work P σ (σ.connectCall k c i h)
  /-- begins to send -/
  | begin (σ : Sys S) (k i j : Nat) (c : Call) : σ.calls[k]? = some c → c.st = .ready i j →
      c.req.length ≤ maxPayloadSize → Work P σ (σ.setCall k c (.sending i j (encode c.req)))
  /-- or returns an error, its request being too long -/
  | tooLong (σ : Sys S) (k i j : Nat) (c : Call) : σ.calls[k]? = some c → c.st = .ready i j →
      maxPayloadSize < c.req.length → Work P σ ((σ.release c.st).setCall k c (.finished none))
  /-- writes at least one byte -/
  | write (σ : Sys S) (k i j n : Nat) (c : Call) (d : Conn S) (rest : Bytes) : σ.calls[k]? = some c →
      c.st = .sending i j rest → σ.conns[j]? = some d → 0 < n → n ≤ rest.length →
      Work P σ ((σ.setConn j { d with inp := d.inp ++ rest.take n }).setCall k c (.sending i j (rest.drop n)))
  /-- has written everything -/
  | await (σ : Sys S) (k i j : Nat) (c : Call) : σ.calls[k]? = some c → c.st = .sending i j [] →
      Work P σ (σ.setCall k c (.receiving i j []))
  /-- reads at least one byte -/
  | read (σ : Sys S) (k i j n m : Nat) (c : Call) (d : Conn S) (buf : Bytes) : σ.calls[k]? = some c →
      c.st = .receiving i j buf → σ.conns[j]? = some d → progress buf = .more m → 0 < n → n ≤ m →
      d.outRead + n ≤ d.out.length →
      Work P σ ((σ.setConn j { d with outRead := d.outRead + n }).setCall k c
        (.receiving i j (buf ++ (d.out.drop d.outRead).take n)))
  /-- returns the response -/
  | finish (σ : Sys S) (k i j : Nat) (c : Call) (buf resp : Bytes) : σ.calls[k]? = some c → c.st = .receiving i j buf →
      progress buf = .done resp → Work P σ ((σ.release c.st).setCall k c (.finished (some resp)))
  /-- or an error, the announced response being too long -/
  | badReply (σ : Sys S) (k i j : Nat) (c : Call) (buf : Bytes) : σ.calls[k]? = some c → c.st = .receiving i j buf →
      progress buf = .oversized → Work P σ ((σ.release c.st).setCall k c (.finished none))
  /-- or an error, the server having closed the connection and everything it wrote having been read -/
  | eof (σ : Sys S) (k i j m : Nat) (c : Call) (d : Conn S) (buf : Bytes) : σ.calls[k]? = some c →
      c.st = .receiving i j buf → σ.conns[j]? = some d → progress buf = .more m → d.serve = .closed →
      d.out.length ≤ d.outRead → Work P σ ((σ.release c.st).setCall k c (.finished none))
  /-- the accept loop of a listener gets a permit -/
  | permit (σ : Sys S) (l : Nat) (g : Gate) (n : Nat) : σ.gates[l]? = some g → g.held = false → g.permits = n + 1 →
      Work P σ (σ.setGate l ⟨n, true⟩)
  /-- and accepts a connection -/
  | accept (σ : Sys S) (l j : Nat) (g : Gate) (d : Conn S) : σ.gates[l]? = some g → g.held = true →
      σ.conns[j]? = some d → d.listener = l → d.serve = .queued →
      Work P σ ((σ.setGate l ⟨g.permits, false⟩).setConn j { d with serve := .reading [] })
  /-- the server reads at least one byte -/
  | serverRead (σ : Sys S) (j n m : Nat) (d : Conn S) (buf : Bytes) : σ.conns[j]? = some d → d.serve = .reading buf →
      progress buf = .more m → 0 < n → n ≤ m → d.inpRead + n ≤ d.inp.length →
      Work P σ (σ.setConn j { d with inpRead := d.inpRead + n, serve := .reading (buf ++ (d.inp.drop d.inpRead).take n) })
  /-- has a request -/
  | serverReceived (σ : Sys S) (j : Nat) (d : Conn S) (buf req : Bytes) : σ.conns[j]? = some d →
      d.serve = .reading buf → progress buf = .done req → Work P σ (σ.setConn j { d with serve := .received req })
  /-- ends the connection, the announced request being too long -/
  | refuse (σ : Sys S) (j : Nat) (d : Conn S) (buf : Bytes) (g : Gate) : σ.conns[j]? = some d →
      d.serve = .reading buf → progress buf = .oversized → σ.gates[d.listener]? = some g →
      Work P σ ((σ.setConn j { d with serve := .closed }).setGate d.listener ⟨g.permits + 1, g.held⟩)
  /-- ends the connection, the client having closed it and everything it wrote having been read -/
  | hangup (σ : Sys S) (j m : Nat) (d : Conn S) (buf : Bytes) (g : Gate) : σ.conns[j]? = some d →
      d.serve = .reading buf → progress buf = .more m → d.clientOpen = false → d.inp.length ≤ d.inpRead →
      σ.gates[d.listener]? = some g →
      Work P σ ((σ.setConn j { d with serve := .closed }).setGate d.listener ⟨g.permits + 1, g.held⟩)
  /-- answers a request without the state -/
  | answerDirect (σ : Sys S) (j : Nat) (d : Conn S) (req resp : Bytes) : σ.conns[j]? = some d →
      d.serve = .received req → P.direct req = some resp →
      Work P σ { σ.setConn j { d with serve := .replying resp } with log := σ.log ++ [⟨j, req, resp⟩] }
  /-- or takes the lock -/
  | lock (σ : Sys S) (j : Nat) (d : Conn S) (req : Bytes) : σ.conns[j]? = some d → d.serve = .received req →
      P.direct req = none → σ.lock = none →
      Work P σ { σ.setConn j { d with serve := .handling req (P.locked σ.state req).1 (P.locked σ.state req).2 } with
        lock := some j }
  /-- and gives it back -/
  | unlock (σ : Sys S) (j : Nat) (d : Conn S) (req resp : Bytes) (s' : S) : σ.conns[j]? = some d →
      d.serve = .handling req resp s' →
      Work P σ { σ.setConn j { d with serve := .replying resp } with
        lock := none, state := s', log := σ.log ++ [⟨j, req, resp⟩] }
  /-- begins to reply -/
  | replyBegin (σ : Sys S) (j : Nat) (d : Conn S) (resp : Bytes) : σ.conns[j]? = some d → d.serve = .replying resp →
      resp.length ≤ maxPayloadSize → Work P σ (σ.setConn j { d with serve := .writing (encode resp) })
  /-- or ends the connection, the response being too long -/
  | refuseReply (σ : Sys S) (j : Nat) (d : Conn S) (resp : Bytes) (g : Gate) : σ.conns[j]? = some d →
      d.serve = .replying resp → maxPayloadSize < resp.length → σ.gates[d.listener]? = some g →
      Work P σ ((σ.setConn j { d with serve := .closed }).setGate d.listener ⟨g.permits + 1, g.held⟩)
  /-- writes at least one byte -/
  | serverWrite (σ : Sys S) (j n : Nat) (d : Conn S) (rest : Bytes) : σ.conns[j]? = some d → d.serve = .writing rest →
      0 < n → n ≤ rest.length →
      Work P σ (σ.setConn j { d with out := d.out ++ rest.take n, serve := .writing (rest.drop n) })
  /-- has replied -/
  | serverNext (σ : Sys S) (j : Nat) (d : Conn S) : σ.conns[j]? = some d → d.serve = .writing [] →
      Work P σ (σ.setConn j { d with serve := .reading [] })

/-- Nobody under way can do anything more. -/
def Settled (P : Processor S) (σ : Sys S) : Prop := ∀ σ', ¬ Work P σ σ'

/-- Any number of such steps. -/
inductive Works (P : Processor S) (σ : Sys S) : Sys S → Prop
  | refl : Works P σ σ
  | tail {σ1 σ2 : Sys S} : Works P σ σ1 → Work P σ1 σ2 → Works P σ σ2

/-- The permits of a listener taken by connections that are not the pool's. -/
def Sys.takenByOthers (σ : Sys S) (l : Nat) : Nat :=
  σ.conns.countP fun d => d.listener = l && d.serve.active && d.opener.isNone

end Qos.Net
