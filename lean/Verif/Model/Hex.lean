import Verif.Model.Basic
/-!
# Model of `/repo/src/qos_hex/src/lib.rs`

Strings are their UTF-8 bytes. Every function is total; the two `expect`s of the code (lines 102 and
158: ASCII pair is UTF-8, line 191: table lookup) cannot fire and do not appear.
-/
namespace Qos.Hex

/-- `HexError` (lib.rs:21-41). The `ParseIntError` / `FromUtf8Error` payloads are dropped.
`NotHexChar` is declared in the code but never produced. -/
inductive HexError where
  | lengthOne | oddLength | notHexChar | parseInt | exceedsMaxLength | nonAsciiChar
  | invalidUtf8 | stringDoesNotMatchBufferLength
  deriving DecidableEq, Repr

/-- `STR_MAX_LENGTH` (lib.rs:6-6). -/
def strMaxLength : Nat := 256 * (1024 * 1024)

/-- One character of the table `HEX_BYTES` (lib.rs:10-17): lower-case hex digit of a nibble. -/
def nibbleChar (n : UInt8) : UInt8 := if n < 10 then 48 + n else 87 + n

/-- The pair of table characters at index `2*b` (lib.rs:190-194). The 512 character literal is
the concatenation of the two-digit lower-case hex of 0..=255, modelled by its defining formula. -/
def byteChars (b : UInt8) : Bytes := [nibbleChar (b >>> 4), nibbleChar (b &&& 15)]

/-- `encode` (lib.rs:186-196) and `encode_to_vec` (lib.rs:200-202). -/
def encode (bs : Bytes) : Bytes := bs.flatMap byteChars

/-- `char::to_digit(16)` as used by `u8::from_str_radix(_, 16)` (lib.rs:106, 161). -/
def digitVal (c : UInt8) : Option UInt8 :=
  if 48 ≤ c ∧ c ≤ 57 then some (c - 48)
  else if 97 ≤ c ∧ c ≤ 102 then some (c - 87)
  else if 65 ≤ c ∧ c ≤ 70 then some (c - 55)
  else none

/-- `u8::from_str_radix(s, 16)` on a two character ASCII string `s` (lib.rs:106, 161), following
the documented behaviour of the standard library: an optional leading `+` is skipped; two hex
digits never overflow a `u8`. -/
def fromStrRadix16 (a b : UInt8) : Option UInt8 :=
  if a = 43 then digitVal b
  else match digitVal a, digitVal b with
    | some x, some y => some (x * 16 + y)
    | _, _ => none

/-- One iteration of the decode loops (lib.rs:97-107 and 155-161). -/
def decodePair (a b : UInt8) : Except HexError UInt8 :=
  if a ≥ 128 then .error .nonAsciiChar
  else if b ≥ 128 then .error .nonAsciiChar
  else match fromStrRadix16 a b with
    | some v => .ok v
    | none => .error .parseInt

/-- The `step_by(2) … collect()` loop (lib.rs:95-108): first error wins. -/
def decodePairs : Bytes → Except HexError Bytes
  | a :: b :: rest =>
    match decodePair a b with
    | .error e => .error e
    | .ok v => match decodePairs rest with
      | .error e => .error e
      | .ok vs => .ok (v :: vs)
  | _ => .ok []

/-- Strip an `0x` prefix (lib.rs:81-85, 137-141). -/
def stripPrefix : Bytes → Bytes
  | 48 :: 120 :: rest => rest
  | s => s

/-- `decode` (lib.rs:76-113). -/
def decode (raw : Bytes) : Except HexError Bytes :=
  if raw.length = 0 then .ok []
  else if raw.length = 1 then .error .lengthOne
  else
    let s := stripPrefix raw
    if s.length < strMaxLength then
      if s.length % 2 = 0 then decodePairs s else .error .oddLength
    else .error .exceedsMaxLength

/-- `decode_to_buf` (lib.rs:127-165) with a buffer of `n` bytes. On error the partially written
buffer is not modelled (callers discard it). -/
def decodeToBuf (raw : Bytes) (n : Nat) : Except HexError Bytes :=
  if raw.length = 0 then
    if n = 0 then .ok [] else .error .stringDoesNotMatchBufferLength
  else if raw.length = 1 then .error .lengthOne
  else
    let s := stripPrefix raw
    if s.length % 2 ≠ 0 then .error .oddLength
    else if s.length / 2 ≠ n then .error .stringDoesNotMatchBufferLength
    else decodePairs s

end Qos.Hex
