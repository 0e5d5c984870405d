import Verif.Model.Basic
/-!
# Model of the framing in `/repo/src/qos_core/src/io/stream.rs` (lines 191-254)

The transport (tokio `UnixStream` / `VsockStream`) is modelled by a *schedule*:
* writing: a list of outcomes, one per `write` call – how many of the offered bytes the transport
  takes, or an I/O error. When the list ends the call is still pending (or was cancelled there);
* reading: the list of chunks the transport delivers; a `read` of up to `n` bytes returns at most the
  first chunk; the end of the list is end-of-stream.
Timeouts and wake-ups are not modelled; a cancelled call is a schedule that ends early.
-/
namespace Qos.Stream

/-- The `IOError` values produced here (io/mod.rs). `StdIoError` payload dropped. -/
inductive IOError where
  | stdIo | oversizedPayload (n : Nat) | recvConnectionClosed
  deriving DecidableEq, Repr

/-- `MAX_PAYLOAD_SIZE` (stream.rs:18-18). -/
def maxPayloadSize : Nat := 128 * (1024 * 1024)

/-- `MAX_WRITE_SIZE` (stream.rs:197). -/
def maxWriteSize : Nat := 31234

/-- Outcome of one transport `write`: it takes `min n offered` bytes, or fails. stream.rs:191-223. -/
inductive WriteOutcome where
  | accept (n : Nat) | fail
  deriving DecidableEq, Repr

/-- State of a send: finished, failed, or still waiting for the transport (or cancelled). stream.rs:191-223. -/
inductive SendStatus where
  | done | failed (e : IOError) | pending
  deriving DecidableEq, Repr

/-- What a send did: the buffers offered to the transport, one per `write` call, the bytes it took,
how the send ended, and the unused part of the schedule. stream.rs:191-223. -/
structure SendRun where
  offers : List Bytes
  sent : Bytes
  status : SendStatus
  rest : List WriteOutcome

/-- tokio's `write_all` (used at stream.rs:209): write until everything is taken; a write that takes
0 bytes of a non-empty buffer is a `WriteZero` error. -/
def writeAll (buf : Bytes) : List WriteOutcome → SendRun
  | [] => ⟨[], [], if buf = [] then .done else .pending, []⟩
  | o :: outs =>
    if buf = [] then ⟨[], [], .done, o :: outs⟩
    else match o with
      | .fail => ⟨[buf], [], .failed .stdIo, outs⟩
      | .accept n =>
        if min n buf.length = 0 then ⟨[buf], [], .failed .stdIo, outs⟩
        else
          let r := writeAll (buf.drop n) outs
          ⟨buf :: r.offers, buf.take n ++ r.sent, r.status, r.rest⟩

/-- `&buf[total .. min(buf.len(), total + MAX_WRITE_SIZE)]` (stream.rs:217). -/
def bodyOffer (buf : Bytes) (total : Nat) : Bytes :=
  (buf.take (min buf.length (total + maxWriteSize))).drop total

/-- The body loop (stream.rs:212-220): `total` bytes are already sent. A write that takes 0 bytes
is retried (the code does not treat it as an error). -/
def sendBody (buf : Bytes) (total : Nat) : List WriteOutcome → SendRun
  | [] => ⟨[], [], if total < buf.length then .pending else .done, []⟩
  | o :: outs =>
    if total < buf.length then
      match o with
      | .fail => ⟨[bodyOffer buf total], [], .failed .stdIo, outs⟩
      | .accept n =>
        let took := min n (bodyOffer buf total).length
        let r := sendBody buf (total + took) outs
        ⟨bodyOffer buf total :: r.offers, (bodyOffer buf total).take took ++ r.sent, r.status, r.rest⟩
    else ⟨[], [], .done, o :: outs⟩

/-- `send` (stream.rs:191-223). -/
def send (buf : Bytes) (outs : List WriteOutcome) : SendRun :=
  if buf.length > maxPayloadSize then ⟨[], [], .failed (.oversizedPayload buf.length), outs⟩
  else
    let h := writeAll (leBytes 8 buf.length) outs
    match h.status with
    | .done =>
      let b := sendBody buf 0 h.rest
      ⟨h.offers ++ b.offers, h.sent ++ b.sent, b.status, b.rest⟩
    | _ => h

/-- tokio's `read_exact` (used at stream.rs:231, 248): read until `n` bytes are there; each `read`
returns at most the first delivered chunk; a read of 0 bytes is end-of-stream. -/
def readExact : Nat → List Bytes → Except IOError Bytes × List Bytes
  | n, [] => if n = 0 then (.ok [], []) else (.error .recvConnectionClosed, [])
  | n, c :: cs =>
    if n = 0 then (.ok [], c :: cs)
    else if c = [] then (.error .recvConnectionClosed, cs)
    else if c.length ≤ n then
      match readExact (n - c.length) cs with
      | (.ok r, cs') => (.ok (c ++ r), cs')
      | (.error e, cs') => (.error e, cs')
    else (.ok (c.take n), c.drop n :: cs)

/-- `recv` (stream.rs:225-254). The `u64 → usize` conversion (lines 236-239) cannot fail on the
64-bit targets of the project. -/
def recv (cs : List Bytes) : Except IOError Bytes × List Bytes :=
  match readExact 8 cs with
  | (.error e, cs) => (.error e, cs)
  | (.ok hdr, cs) =>
    let length := leNat hdr
    if length > maxPayloadSize then (.error (.oversizedPayload length), cs)
    else readExact length cs

/-- Up to `k` successive `recv` calls on one connection, stopping at the first error, as the server
loop does (`/repo/src/qos_core/src/server.rs`, connection task). -/
def recvMany : Nat → List Bytes → List Bytes × Option IOError
  | 0, _ => ([], none)
  | k + 1, cs =>
    match recv cs with
    | (.error e, _) => ([], some e)
    | (.ok m, cs) =>
      let (ms, e) := recvMany k cs
      (m :: ms, e)

/-- Successive `send`s on one connection, stopping at the first one that does not finish.
Callers of stream.rs:122-132. -/
def sendMany : List Bytes → List WriteOutcome → Bytes × SendStatus
  | [], _ => ([], .done)
  | m :: ms, outs =>
    let r := send m outs
    match r.status with
    | .done => let (b, st) := sendMany ms r.rest; (r.sent ++ b, st)
    | st => (r.sent, st)

end Qos.Stream
