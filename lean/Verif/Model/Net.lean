import Verif.Model.Stream
/-!
# Clients, pooled connections and the socket server

`/repo/src/qos_core/src/client.rs` (`SocketClient::call`), `io/pool.rs` (`PoolGuard`, `StreamPool::get`, `expand_to`),
`io/stream.rs` (`Stream::call`, `reset`), `server.rs` (`PermittedStream::accept`, `accept_loop`) and
`protocol/processor.rs` (the write lock around the state), as one transition system. Every interleaving of the tokio tasks,
every split of the byte streams, every time-out, cancellation and I/O error is a run of it.

Simplifications: a step of a task between two `await`s that does not touch shared data is one transition; a time-out, a
cancelled future and an I/O error of a call are the same transition (`abort`), possible at any time before the call has
finished; fairness is not modelled: a run may stop anywhere (C82 says what a run left to itself comes to).
-/
namespace Qos.Net

/-- What a request does. `direct`: answered without looking at the shared state (processor.rs:26-41); `locked`: answered
with the write lock held (processor.rs:43-50). -/
structure Processor (S : Type) where
  direct : Bytes → Option Bytes
  locked : S → Bytes → Bytes × S

/-- What `send` (stream.rs:191-223) puts on the wire for a message it accepts: see `Stream.send`. -/
def encode (m : Bytes) : Bytes := leBytes 8 m.length ++ m

/-- Progress of a `recv` (stream.rs:225-254) that has read `buf` so far. -/
inductive Progress where
  /-- waits for up to `n` more bytes -/
  | more (n : Nat)
  /-- fails: announced length too large -/
  | oversized
  /-- returns this message -/
  | done (m : Bytes)
  deriving DecidableEq

/-- `recv` (stream.rs:225-254). -/
def progress (buf : Bytes) : Progress :=
  if buf.length < 8 then .more (8 - buf.length)
  else if leNat (buf.take 8) > Stream.maxPayloadSize then .oversized
  else if buf.length < 8 + leNat (buf.take 8) then .more (8 + leNat (buf.take 8) - buf.length)
  else .done (buf.drop 8)

/-- A connection task of the server (server.rs:226-250). -/
inductive Serve (S : Type) where
  /-- connected, not yet accepted -/
  | queued
  /-- in `stream.recv()`, with the bytes read so far -/
  | reading (buf : Bytes)
  /-- in `processor.process`, before the lock -/
  | received (req : Bytes)
  /-- in `processor.process`, with the lock and a result computed from the state at the time the lock was taken -/
  | handling (req resp : Bytes) (state' : S)
  /-- in `stream.send`, nothing written yet -/
  | replying (resp : Bytes)
  /-- in `stream.send`, these bytes left -/
  | writing (rest : Bytes)
  /-- ended, its permit returned -/
  | closed

/-- The task is running. server.rs:198-247. -/
def Serve.active {S : Type} : Serve S → Bool
  | .queued | .closed => false
  | _ => true

/-- A connection: all bytes written by the client and how many the server has read; all bytes written by the server and
how many the client has read. `opener` (who opened it: a call of the pooled client, or anybody else) is only used to state
properties. stream.rs:21-40, the two directions of a socket. -/
structure Conn (S : Type) where
  listener : Nat
  opener : Option Nat
  inp : Bytes
  inpRead : Nat
  out : Bytes
  outRead : Nat
  clientOpen : Bool
  serve : Serve S

/-- A connection just made (stream.rs:66-84). -/
def Conn.fresh {S : Type} (listener : Nat) (opener : Option Nat) : Conn S := ⟨listener, opener, [], 0, [], 0, true, .queued⟩

/-- A pooled stream behind its mutex (pool.rs:25-28, stream.rs:36-39): its address, who holds the guard, and `inner`. -/
structure Handle where
  address : Nat
  holder : Option Nat
  inner : Option Nat
  deriving DecidableEq

/-- `PoolGuard::drop` (pool.rs:35-40): `Stream::reset` (stream.rs:176-178), then the mutex is released. -/
def Handle.dropGuard (h : Handle) : Handle := { h with holder := none, inner := none }

/-- A call (client.rs:70-86). -/
inductive CallSt where
  /-- waits for a free stream (`pool.get()`) -/
  | waiting
  /-- has stream `h`, not yet connected (stream.rs:149-158) -/
  | got (h : Nat)
  /-- connected through `h` to connection `c`, nothing sent yet -/
  | ready (h c : Nat)
  /-- sending -/
  | sending (h c : Nat) (rest : Bytes)
  /-- receiving -/
  | receiving (h c : Nat) (buf : Bytes)
  /-- returned a response, or an error (time-out, cancelled, I/O error) -/
  | finished (resp : Option Bytes)
  deriving DecidableEq

/-- The stream a call holds. client.rs:70-86. -/
def CallSt.stream : CallSt → Option Nat
  | .waiting => none
  | .got h => some h
  | .ready h _ => some h
  | .sending h _ _ => some h
  | .receiving h _ _ => some h
  | .finished _ => none

/-- A call has returned. client.rs:70-86. -/
def CallSt.isFinished : CallSt → Bool
  | .finished _ => true
  | _ => false

/-- client.rs:70-86. -/
structure Call where
  req : Bytes
  st : CallSt

/-- A listener (server.rs:207-213): free permits of its semaphore, and whether the accept loop holds one. -/
structure Gate where
  permits : Nat
  held : Bool
  deriving DecidableEq

/-- A processed request; only used to state properties. One `process` of server.rs:198-247. -/
structure Entry where
  conn : Nat
  req : Bytes
  resp : Bytes
  deriving DecidableEq

/-- The whole system.
The tasks and objects of client.rs:32-118, pool.rs:19-240, stream.rs:21-254 and server.rs:52-247. -/
structure Sys (S : Type) where
  handles : List Handle
  calls : List Call
  conns : List (Conn S)
  gates : List Gate
  /-- the connection whose task holds the write lock -/
  lock : Option Nat
  state : S
  log : List Entry

namespace Sys
variable {S : Type}

/-- Start: a pool for some addresses, a server on some listeners with `max` permits each (server.rs:72-90, 213). -/
def start (addresses : List Nat) (listeners max : Nat) (s : S) : Sys S where
  handles := addresses.map fun a => ⟨a, none, none⟩
  calls := []
  conns := []
  gates := List.replicate listeners ⟨max, false⟩
  lock := none
  state := s
  log := []

/-- Replace a connection. State passing for the `&mut self` of stream.rs:36-190 and pool.rs:19-240. -/
def setConn (σ : Sys S) (i : Nat) (c : Conn S) : Sys S := { σ with conns := σ.conns.set i c }

/-- Replace a handle. State passing for the `&mut self` of stream.rs:36-190 and pool.rs:19-240. -/
def setHandle (σ : Sys S) (i : Nat) (h : Handle) : Sys S := { σ with handles := σ.handles.set i h }

/-- Replace the state of a call. State passing for the `&mut self` of stream.rs:36-190 and pool.rs:19-240. -/
def setCall (σ : Sys S) (i : Nat) (c : Call) (st : CallSt) : Sys S := { σ with calls := σ.calls.set i { c with st } }

/-- Replace a listener. State passing for the `&mut self` of stream.rs:36-190 and pool.rs:19-240. -/
def setGate (σ : Sys S) (i : Nat) (g : Gate) : Sys S := { σ with gates := σ.gates.set i g }

/-- A new connection, not yet accepted. State passing for the `&mut self` of stream.rs:36-190 and pool.rs:19-240. -/
def addConn (σ : Sys S) (c : Conn S) : Sys S := { σ with conns := σ.conns ++ [c] }

/-- The client end of the connection of a stream goes away if the stream no longer refers to it.
pool.rs:35-40, stream.rs:179-183. -/
def closeIfDropped (σ : Sys S) (before after : Handle) : Sys S :=
  match before.inner with
  | none => σ
  | some i => if after.inner = some i then σ else match σ.conns[i]? with
    | none => σ
    | some c => σ.setConn i { c with clientOpen := false }

/-- A call gives back its stream, if it has one. pool.rs:35-40, stream.rs:179-183. -/
def release (σ : Sys S) (st : CallSt) : Sys S :=
  match st.stream with
  | none => σ
  | some i => match σ.handles[i]? with
    | none => σ
    | some h => (σ.setHandle i h.dropGuard).closeIfDropped h h.dropGuard

/-- `Stream::call` before `send` (stream.rs:149-158): connect unless connected. -/
def connectCall (σ : Sys S) (k : Nat) (c : Call) (i : Nat) (h : Handle) : Sys S :=
  match h.inner with
  | some j => σ.setCall k c (.ready i j)
  | none => ((σ.addConn (.fresh h.address (some k))).setHandle i { h with inner := some σ.conns.length }).setCall k c
      (.ready i σ.conns.length)

end Sys

/-- The transitions.
client.rs:70-118, pool.rs:154-175, 196-215, stream.rs:74-168, server.rs:152-247, as cited at each transition. -/
inductive Step {S : Type} (P : Processor S) : Sys S → Sys S → Prop
  /-- `SocketClient::call` is called (client.rs:70) -/
  | call (σ : Sys S) (req : Bytes) : Step P σ { σ with calls := σ.calls ++ [⟨req, .waiting⟩] }
  /-- `pool.get()` gets the mutex of a stream (pool.rs:157-176) -/
  | get (σ : Sys S) (k i : Nat) (c : Call) (h : Handle) : σ.calls[k]? = some c → c.st = .waiting →
      σ.handles[i]? = some h → h.holder = none →
      Step P σ ((σ.setHandle i { h with holder := some k }).setCall k c (.got i))
  /-- `connect` if needed (stream.rs:149-158) -/
  | connect (σ : Sys S) (k i : Nat) (c : Call) (h : Handle) : σ.calls[k]? = some c → c.st = .got i →
      σ.handles[i]? = some h → Step P σ (σ.connectCall k c i h)
  /-- `send` accepts the request (stream.rs:199-206) -/
  | begin (σ : Sys S) (k i j : Nat) (c : Call) : σ.calls[k]? = some c → c.st = .ready i j →
      c.req.length ≤ Stream.maxPayloadSize → Step P σ (σ.setCall k c (.sending i j (encode c.req)))
  /-- some bytes are written (stream.rs:209-220) -/
  | write (σ : Sys S) (k i j n : Nat) (c : Call) (d : Conn S) (rest : Bytes) : σ.calls[k]? = some c →
      c.st = .sending i j rest → σ.conns[j]? = some d →
      Step P σ ((σ.setConn j { d with inp := d.inp ++ rest.take n }).setCall k c (.sending i j (rest.drop n)))
  /-- everything is written, `recv` begins (stream.rs:161-162) -/
  | await (σ : Sys S) (k i j : Nat) (c : Call) : σ.calls[k]? = some c → c.st = .sending i j [] →
      Step P σ (σ.setCall k c (.receiving i j []))
  /-- some bytes are read -/
  | read (σ : Sys S) (k i j n m : Nat) (c : Call) (d : Conn S) (buf : Bytes) : σ.calls[k]? = some c →
      c.st = .receiving i j buf → σ.conns[j]? = some d → progress buf = .more m → n ≤ m → d.outRead + n ≤ d.out.length →
      Step P σ ((σ.setConn j { d with outRead := d.outRead + n }).setCall k c
        (.receiving i j (buf ++ (d.out.drop d.outRead).take n)))
  /-- `call` returns the response; the guard is dropped (client.rs:74-85) -/
  | finish (σ : Sys S) (k i j : Nat) (c : Call) (buf resp : Bytes) : σ.calls[k]? = some c → c.st = .receiving i j buf →
      progress buf = .done resp → Step P σ ((σ.release c.st).setCall k c (.finished (some resp)))
  /-- time-out, cancellation or I/O error at any point; the guard is dropped -/
  | abort (σ : Sys S) (k : Nat) (c : Call) : σ.calls[k]? = some c → c.st.isFinished = false →
      Step P σ ((σ.release c.st).setCall k c (.finished none))
  /-- `expand_to` needs the pool's write lock, so no call is under way (client.rs:98-105, pool.rs:196-212) -/
  | expand (σ : Sys S) (address : Nat) : (∀ c ∈ σ.calls, c.st.isFinished = true) →
      Step P σ { σ with handles := σ.handles ++ [⟨address, none, none⟩] }
  /-- anybody else connects to the server -/
  | openOther (σ : Sys S) (listener : Nat) : Step P σ (σ.addConn (.fresh listener none))
  /-- and writes any bytes -/
  | writeOther (σ : Sys S) (j : Nat) (d : Conn S) (bytes : Bytes) : σ.conns[j]? = some d → d.opener = none →
      d.clientOpen = true → Step P σ (σ.setConn j { d with inp := d.inp ++ bytes })
  /-- and reads -/
  | readOther (σ : Sys S) (j n : Nat) (d : Conn S) : σ.conns[j]? = some d → d.opener = none →
      d.outRead + n ≤ d.out.length → Step P σ (σ.setConn j { d with outRead := d.outRead + n })
  /-- and closes -/
  | closeOther (σ : Sys S) (j : Nat) (d : Conn S) : σ.conns[j]? = some d → d.opener = none →
      Step P σ (σ.setConn j { d with clientOpen := false })
  /-- the accept loop gets a permit (server.rs:160-163) -/
  | permit (σ : Sys S) (l : Nat) (g : Gate) (n : Nat) : σ.gates[l]? = some g → g.held = false → g.permits = n + 1 →
      Step P σ (σ.setGate l ⟨n, true⟩)
  /-- and accepts a connection, which takes the permit along (server.rs:165-167, 226) -/
  | accept (σ : Sys S) (l j : Nat) (g : Gate) (d : Conn S) : σ.gates[l]? = some g → g.held = true →
      σ.conns[j]? = some d → d.listener = l → d.serve = .queued →
      Step P σ ((σ.setGate l ⟨g.permits, false⟩).setConn j { d with serve := .reading [] })
  /-- or fails to accept; the permit is returned (server.rs:217-222) -/
  | acceptFailed (σ : Sys S) (l : Nat) (g : Gate) : σ.gates[l]? = some g → g.held = true →
      Step P σ (σ.setGate l ⟨g.permits + 1, false⟩)
  /-- the server reads some bytes -/
  | serverRead (σ : Sys S) (j n m : Nat) (d : Conn S) (buf : Bytes) : σ.conns[j]? = some d → d.serve = .reading buf →
      progress buf = .more m → n ≤ m → d.inpRead + n ≤ d.inp.length →
      Step P σ (σ.setConn j { d with inpRead := d.inpRead + n, serve := .reading (buf ++ (d.inp.drop d.inpRead).take n) })
  /-- a request has been received (server.rs:228-229) -/
  | serverReceived (σ : Sys S) (j : Nat) (d : Conn S) (buf req : Bytes) : σ.conns[j]? = some d →
      d.serve = .reading buf → progress buf = .done req → Step P σ (σ.setConn j { d with serve := .received req })
  /-- it is answered without the state (processor.rs:26-41) -/
  | answerDirect (σ : Sys S) (j : Nat) (d : Conn S) (req resp : Bytes) : σ.conns[j]? = some d →
      d.serve = .received req → P.direct req = some resp →
      Step P σ { σ.setConn j { d with serve := .replying resp } with log := σ.log ++ [⟨j, req, resp⟩] }
  /-- or the write lock is taken and the handler starts from the state it finds (processor.rs:43-45) -/
  | lock (σ : Sys S) (j : Nat) (d : Conn S) (req : Bytes) : σ.conns[j]? = some d → d.serve = .received req →
      P.direct req = none → σ.lock = none →
      Step P σ { σ.setConn j { d with serve := .handling req (P.locked σ.state req).1 (P.locked σ.state req).2 } with
        lock := some j }
  /-- the handler has finished: its state is in place and the lock is released -/
  | unlock (σ : Sys S) (j : Nat) (d : Conn S) (req resp : Bytes) (s' : S) : σ.conns[j]? = some d →
      d.serve = .handling req resp s' →
      Step P σ { σ.setConn j { d with serve := .replying resp } with
        lock := none, state := s', log := σ.log ++ [⟨j, req, resp⟩] }
  /-- `send` accepts the response (stream.rs:199-206) -/
  | replyBegin (σ : Sys S) (j : Nat) (d : Conn S) (resp : Bytes) : σ.conns[j]? = some d → d.serve = .replying resp →
      resp.length ≤ Stream.maxPayloadSize → Step P σ (σ.setConn j { d with serve := .writing (encode resp) })
  /-- the server writes some bytes -/
  | serverWrite (σ : Sys S) (j n : Nat) (d : Conn S) (rest : Bytes) : σ.conns[j]? = some d → d.serve = .writing rest →
      Step P σ (σ.setConn j { d with out := d.out ++ rest.take n, serve := .writing (rest.drop n) })
  /-- the reply is out; back to `recv` (server.rs:232-233) -/
  | serverNext (σ : Sys S) (j : Nat) (d : Conn S) : σ.conns[j]? = some d → d.serve = .writing [] →
      Step P σ (σ.setConn j { d with serve := .reading [] })
  /-- `recv` or `send` fails (closed, oversized, I/O error): the task ends and its permit is returned
  (server.rs:234-249, 137-141) -/
  | serverClose (σ : Sys S) (j : Nat) (d : Conn S) (g : Gate) : σ.conns[j]? = some d →
      ((∃ buf, d.serve = .reading buf) ∨ (∃ resp, d.serve = .replying resp) ∨ ∃ rest, d.serve = .writing rest) →
      σ.gates[d.listener]? = some g →
      Step P σ ((σ.setConn j { d with serve := .closed }).setGate d.listener ⟨g.permits + 1, g.held⟩)

/-- The states reachable from a start.
client.rs:70-118, pool.rs:154-175, 196-215, stream.rs:74-168, server.rs:152-247, as cited at each transition. -/
inductive Reachable {S : Type} (P : Processor S) (σ0 : Sys S) : Sys S → Prop
  | refl : Reachable P σ0 σ0
  | tail {σ σ' : Sys S} : Reachable P σ0 σ → Step P σ σ' → Reachable P σ0 σ'

end Qos.Net
