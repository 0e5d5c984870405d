import Verif.Model.Basic
/-!
# Transparent egress

`/repo/src/qos_core/src/egress.rs`: the two byte pumps between the tun interface and the vsock connection. Each pump is a
machine with one step per system call or loop turn; what `read` and `write` return is an input of the step. The array
`buf` of 32000 bytes is a list of `cap` bytes. Creating sockets and running programs is not modelled.
-/
namespace Qos.Egress

/-- Size of the array `buf` (egress.rs:188, 227). -/
def bufferSize : Nat := 32000

/-- A 16-bit number in network byte order, as `etherparse` reads it (egress.rs:208-211). -/
def be16 (hi lo : UInt8) : Nat := hi.toNat * 256 + lo.toNat

/-- `etherparse::LaxIpSlice::from_slice(buf)` followed by `header().total_len()` or `header().payload_length()`
(egress.rs:204-211). Errors: no bytes, other version, header not complete, IPv4 header length below 20. Wrong lengths in the
header are no errors. The addition of 40 is in `u16`: with overflow checks it panics (`none` inside), otherwise it wraps. -/
def declaredSize (overflowChecks : Bool) (buf : Bytes) : Option (Option Nat) :=
  match buf with
  | [] => none
  | b :: _ =>
    if b.toNat / 16 = 4 then
      if buf.length < 20 ∨ b.toNat % 16 < 5 ∨ buf.length < b.toNat % 16 * 4 then none
      else some (some (be16 (buf.getD 2 0) (buf.getD 3 0)))
    else if b.toNat / 16 = 6 then
      if buf.length < 40 then none
      else
        let sum := be16 (buf.getD 4 0) (buf.getD 5 0) + 40
        if sum < 65536 then some (some sum) else some (if overflowChecks then none else some (sum % 65536))
    else none

/-- What `next_frame` returns (egress.rs:203-218): nothing yet, a size, or a panic. -/
inductive Next where
  | none
  | frame (size : Nat)
  | panic
  deriving DecidableEq

/-- `next_frame` (egress.rs:203-218). -/
def nextFrame (overflowChecks : Bool) (buf : Bytes) : Next :=
  match declaredSize overflowChecks buf with
  | .none => .none
  | .some .none => .panic
  | .some (.some size) => if buf.length < size then .none else .frame size

/-- Where a pump is. Both pumps: egress.rs:185-199, 221-262. -/
inductive At where
  | reading
  | writing
  | panicked
  deriving DecidableEq

/-- Variables of a pump (egress.rs:188-197, 227-229, 243). `frameSize` is unused by `pipe_all`, where it is `received`. -/
structure Pump where
  buf : Bytes
  received : Nat
  sent : Nat
  frameSize : Nat
  pc : At

/-- At the start (egress.rs:188, 227-229). -/
def Pump.start : Pump := ⟨List.replicate bufferSize 0, 0, 0, 0, .reading⟩

/-- What a system call gives: `read` returned these bytes, `write` took that many. -/
inductive Call where
  | read (bytes : Bytes)
  | wrote (n : Nat)
  /-- No system call: the loop goes round. -/
  | turn

/-- The array after `read(fd, &mut buf[at..])`. egress.rs:191, 233. -/
def fill (buf : Bytes) (pos : Nat) (bytes : Bytes) : Bytes := buf.take pos ++ bytes ++ buf.drop (pos + bytes.length)

/-- `buf.rotate_left(n)`. egress.rs:256. -/
def rotateLeft (buf : Bytes) (n : Nat) : Bytes := buf.drop n ++ buf.take n

/-- After the first complete frame was looked for (egress.rs:237-243). -/
def afterRead (p : Pump) : Next → Pump
  | .none => p
  | .panic => { p with pc := .panicked }
  | .frame size => { p with frameSize := size, sent := 0, pc := .writing }

/-- The tail goes to the front of the array (egress.rs:252-259). -/
def tailToFront (p : Pump) : Pump :=
  { p with buf := if p.sent < p.received then rotateLeft p.buf p.sent else p.buf, received := p.received - p.sent, pc := .reading }

/-- After the next frame was looked for (egress.rs:249-260). -/
def afterFrame (p : Pump) : Next → Pump
  | .none => tailToFront p
  | .panic => { p with pc := .panicked }
  | .frame size =>
    if p.sent + size ≤ p.buf.length then { p with frameSize := p.sent + size } else { p with pc := .panicked }

/-- One step of `pipe_frames` (egress.rs:221-262), with the bytes given to `write` and taken by it; `none` if the call is
not one the pump makes now, or not a possible result. -/
def frameStep (overflowChecks : Bool) (p : Pump) : Call → Option (Pump × List Bytes)
  | .read bytes =>
    if p.pc = .reading ∧ bytes.length ≤ p.buf.length - p.received then
      if bytes.length = 0 then some ({ p with pc := .panicked }, [])
      else
        let p' := { p with buf := fill p.buf p.received bytes, received := p.received + bytes.length }
        some (afterRead p' (nextFrame overflowChecks (p'.buf.take p'.received)), [])
    else none
  | .wrote n =>
    if p.pc = .writing ∧ p.sent < p.frameSize ∧ n ≤ p.frameSize - p.sent then
      some ({ p with sent := p.sent + n }, [(p.buf.drop p.sent).take n])
    else none
  | .turn =>
    if p.pc = .writing ∧ ¬ p.sent < p.frameSize then
      some (afterFrame p (nextFrame overflowChecks ((p.buf.take p.received).drop p.sent)), [])
    else none

/-- One step of `pipe_all` (egress.rs:185-199). -/
def allStep (p : Pump) : Call → Option (Pump × List Bytes)
  | .read bytes =>
    if p.pc = .reading ∧ bytes.length ≤ p.buf.length then
      if bytes.length = 0 then some ({ p with pc := .panicked }, [])
      else some ({ p with buf := fill p.buf 0 bytes, received := bytes.length, sent := 0, pc := .writing }, [])
    else none
  | .wrote n =>
    if p.pc = .writing ∧ p.sent < p.received ∧ n ≤ p.received - p.sent then
      some ({ p with sent := p.sent + n }, [(p.buf.drop p.sent).take n])
    else none
  | .turn => if p.pc = .writing ∧ ¬ p.sent < p.received then some ({ p with pc := .reading }, []) else none

/-- Runs of a pump: the calls made, all bytes read, and the pieces `write` took, in order. The loops of egress.rs:185-199
and 221-262. -/
inductive Run (step : Pump → Call → Option (Pump × List Bytes)) : Bytes → List Bytes → Pump → Prop where
  | start : Run step [] [] Pump.start
  | step {input : Bytes} {output : List Bytes} {p p' : Pump} {c : Call} {out : List Bytes} : Run step input output p →
      step p c = some (p', out) →
      Run step (input ++ (match c with | .read b => b | _ => [])) (output ++ out) p'

end Qos.Egress
