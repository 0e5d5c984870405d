import Verif.Model.Basic
/-!
# One connection through the bridge

`/repo/src/qos_core/src/io/host_bridge.rs`: the task `tcp_to_vsock` on the host and the task `vsock_to_tcp` in the enclave
spawn for each accepted connection a task that connects onward and copies bytes both ways. A connection from the outside to
the application is: the client, a TCP connection, the task on the host, a vsock connection, the task in the enclave, a TCP
connection, the application. All interleavings of the four, all splits of the streams, all I/O errors are runs of the
transition system below.

Simplifications: the buffer of `copy_bidirectional` has no bound; an I/O error can happen at any time; nothing is claimed
to happen eventually; TCP and vsock deliver bytes in order (their contract).
-/
namespace Qos.Relay

/-- One direction of a connection: what was written, how much of it was read, whether the writer has shut it down or closed.
The sockets of host_bridge.rs:119-152, 160-187. -/
structure Pipe where
  written : Bytes
  taken : Nat
  ended : Bool
  deriving DecidableEq

/-- A connection: towards the application and back. host_bridge.rs:119-152, 160-187. -/
structure Socket where
  toApp : Pipe
  toClient : Pipe
  deriving DecidableEq

/-- A connection just made. host_bridge.rs:119-152, 160-187. -/
def Socket.fresh : Socket := ⟨⟨[], 0, false⟩, ⟨[], 0, false⟩⟩

/-- One direction of `tokio::io::copy_bidirectional` (host_bridge.rs:145-149, 181-185): bytes read and not yet written,
whether the end of the input was read, whether the output was shut down after it. -/
structure Half where
  pending : Bytes
  eof : Bool
  done : Bool
  deriving DecidableEq

/-- Nothing copied yet. host_bridge.rs:145-149, 181-185. -/
def Half.start : Half := ⟨[], false, false⟩

/-- How a task has ended. host_bridge.rs:132-151, 170-186. -/
inductive End where
  /-- the onward connection was not made -/
  | refused
  /-- `copy_bidirectional` returned `Ok` -/
  | finished
  /-- `copy_bidirectional` returned an error -/
  | broken
  deriving DecidableEq

/-- A task. host_bridge.rs:119-152, 160-187. -/
inductive Task where
  /-- the connection is not accepted yet -/
  | idle
  /-- accepted, connecting onward -/
  | dialing
  /-- copying: towards the application and back -/
  | piping (fwd back : Half)
  | ended (e : End)
  deriving DecidableEq

/-- The task's connections are dropped: both peers see the end. host_bridge.rs:132-151, 170-186. -/
def dropLeft (s : Socket) : Socket := { s with toClient := { s.toClient with ended := true } }
/-- The other one. host_bridge.rs:132-151, 170-186. -/
def dropRight (s : Socket) : Socket := { s with toApp := { s.toApp with ended := true } }

/-- The steps of a task between the connection on its client side and the one on its application side. Both directions of
`copy_bidirectional` are the same code; host_bridge.rs:119-152, 160-187. -/
inductive TaskStep : Socket → Task → Socket → Socket → Task → Socket → Prop
  /-- accepted -/
  | accept (l r : Socket) : TaskStep l .idle r l .dialing r
  /-- connected onward -/
  | connected (l r : Socket) : TaskStep l .dialing r l (.piping .start .start) r
  /-- could not connect -/
  | refused (l r : Socket) : TaskStep l .dialing r (dropLeft l) (.ended .refused) r
  /-- bytes from the client side are read -/
  | readFwd (l r : Socket) (f b : Half) (n : Nat) : f.eof = false → l.toApp.taken + n ≤ l.toApp.written.length →
      TaskStep l (.piping f b) r
        { l with toApp := { l.toApp with taken := l.toApp.taken + n } }
        (.piping { f with pending := f.pending ++ (l.toApp.written.drop l.toApp.taken).take n } b) r
  /-- and written to the application side -/
  | writeFwd (l r : Socket) (f b : Half) (n : Nat) : f.done = false →
      TaskStep l (.piping f b) r l (.piping { f with pending := f.pending.drop n } b)
        { r with toApp := { r.toApp with written := r.toApp.written ++ f.pending.take n } }
  /-- the end is read -/
  | eofFwd (l r : Socket) (f b : Half) : l.toApp.ended = true → l.toApp.taken = l.toApp.written.length →
      TaskStep l (.piping f b) r l (.piping { f with eof := true } b) r
  /-- everything is written: the application side is told -/
  | doneFwd (l r : Socket) (f b : Half) : f.eof = true → f.pending = [] →
      TaskStep l (.piping f b) r l (.piping { f with done := true } b) { r with toApp := { r.toApp with ended := true } }
  /-- bytes from the application side are read -/
  | readBack (l r : Socket) (f b : Half) (n : Nat) : b.eof = false → r.toClient.taken + n ≤ r.toClient.written.length →
      TaskStep l (.piping f b) r l
        (.piping f { b with pending := b.pending ++ (r.toClient.written.drop r.toClient.taken).take n })
        { r with toClient := { r.toClient with taken := r.toClient.taken + n } }
  /-- and written to the client side -/
  | writeBack (l r : Socket) (f b : Half) (n : Nat) : b.done = false →
      TaskStep l (.piping f b) r { l with toClient := { l.toClient with written := l.toClient.written ++ b.pending.take n } }
        (.piping f { b with pending := b.pending.drop n }) r
  /-- the end is read -/
  | eofBack (l r : Socket) (f b : Half) : r.toClient.ended = true → r.toClient.taken = r.toClient.written.length →
      TaskStep l (.piping f b) r l (.piping f { b with eof := true }) r
  /-- everything is written: the client side is told -/
  | doneBack (l r : Socket) (f b : Half) : b.eof = true → b.pending = [] →
      TaskStep l (.piping f b) r { l with toClient := { l.toClient with ended := true } } (.piping f { b with done := true }) r
  /-- both directions are done -/
  | finish (l r : Socket) (f b : Half) : f.done = true → b.done = true →
      TaskStep l (.piping f b) r (dropLeft l) (.ended .finished) (dropRight r)
  /-- an I/O error -/
  | break (l r : Socket) (f b : Half) : TaskStep l (.piping f b) r (dropLeft l) (.ended .broken) (dropRight r)

/-- A connection through the bridge: the client's connection to the host, the host's task, its connection into the enclave,
the enclave's task, its connection to the application. host_bridge.rs:110-188. -/
structure Line where
  outer : Socket
  host : Task
  middle : Socket
  enclave : Task
  inner : Socket
  deriving DecidableEq

/-- At the start: the client has connected. host_bridge.rs:119-130. -/
def Line.start : Line := ⟨.fresh, .idle, .fresh, .idle, .fresh⟩

/-- The onward connection of a task exists. host_bridge.rs:132-151, 170-186. -/
def Task.hasConnected : Task → Bool
  | .piping _ _ | .ended .finished | .ended .broken => true
  | _ => false

/-- All steps. host_bridge.rs:110-188, and the two ends, which write and close as they like. -/
inductive Step : Line → Line → Prop
  /-- the client writes -/
  | clientWrite (x : Line) (bytes : Bytes) : x.outer.toApp.ended = false →
      Step x { x with outer := { x.outer with toApp := { x.outer.toApp with written := x.outer.toApp.written ++ bytes } } }
  /-- the client has no more to say -/
  | clientClose (x : Line) : Step x { x with outer := { x.outer with toApp := { x.outer.toApp with ended := true } } }
  /-- the application writes -/
  | appWrite (x : Line) (bytes : Bytes) : x.enclave.hasConnected = true → x.inner.toClient.ended = false →
      Step x { x with inner := { x.inner with toClient := { x.inner.toClient with written := x.inner.toClient.written ++ bytes } } }
  /-- the application has no more to say -/
  | appClose (x : Line) : x.enclave.hasConnected = true →
      Step x { x with inner := { x.inner with toClient := { x.inner.toClient with ended := true } } }
  /-- the task on the host goes on -/
  | host (x : Line) (l r : Socket) (t : Task) : TaskStep x.outer x.host x.middle l t r →
      Step x { x with outer := l, host := t, middle := r }
  /-- the task in the enclave goes on; there is none before the host has connected -/
  | enclave (x : Line) (l r : Socket) (t : Task) : x.host.hasConnected = true → TaskStep x.middle x.enclave x.inner l t r →
      Step x { x with middle := l, enclave := t, inner := r }

/-- The states reachable by a connection. host_bridge.rs:110-188. -/
inductive Reachable : Line → Prop
  | start : Reachable .start
  | step {x y : Line} : Reachable x → Step x y → Reachable y

end Qos.Relay
