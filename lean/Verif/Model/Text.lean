import Verif.Model.Basic
/-!
# Text: UTF-8, UTF-16 and decimal text

Rust `String`/`&str` are Lean `String`s (both are sequences of Unicode scalar values).
-/
namespace Qos

/-- UTF-8 bytes of a Rust string (`str::as_bytes`).
Standard library; e.g. qos_json/src/lib.rs:72-76, qos_p256/src/lib.rs:303-317. -/
def utf8 (s : String) : Bytes := s.toList.flatMap String.utf8EncodeChar

/-- `String::from_utf8` / `core::str::from_utf8`: `none` when the bytes are not valid UTF-8.
Standard library; e.g. qos_json/src/lib.rs:72-76, qos_p256/src/lib.rs:303-317. -/
def utf8Decode (bs : Bytes) : Option String :=
  (ByteArray.utf8Decode? bs.toByteArray).map fun cs => String.ofList cs.toList

/-- UTF-16 code units of one scalar value (`char::encode_utf16`). Standard library; qos_json/src/lib.rs:134-161. -/
def utf16Char (c : Char) : List Nat :=
  if c.toNat < 0x10000 then [c.toNat]
  else [0xD800 + (c.toNat - 0x10000) / 0x400, 0xDC00 + (c.toNat - 0x10000) % 0x400]

/-- `str::encode_utf16`. Standard library; qos_json/src/lib.rs:134-161. -/
def utf16 (s : String) : List Nat := s.toList.flatMap utf16Char

/-- Decimal digit character. Standard library; qos_json/src/lib.rs:102-106, 181-193. -/
def digitChar (n : Nat) : Char := Char.ofNat (48 + n)

/-- Decimal text, most significant digit first; `fuel` bounds the number of digits.
Standard library; qos_json/src/lib.rs:102-106, 181-193. -/
def natTextAux : Nat → Nat → List Char
  | 0, _ => []
  | fuel + 1, n => if n < 10 then [digitChar n] else natTextAux fuel (n / 10) ++ [digitChar (n % 10)]

/-- `u64::to_string`. Standard library; qos_json/src/lib.rs:102-106, 181-193. -/
def natText (n : Nat) : List Char := natTextAux (n + 1) n

/-- `Number::to_string` of an integer JSON number. Standard library; qos_json/src/lib.rs:102-106, 181-193. -/
def intText : Int → List Char
  | .ofNat n => natText n
  | .negSucc n => '-' :: natText (n + 1)

/-- Value of a decimal digit character.
Standard library; qos_json/src/lib.rs:305-317, qos_client/src/cli/services.rs:2263-2270. -/
def digitNat (c : Char) : Option Nat :=
  if 48 ≤ c.toNat ∧ c.toNat ≤ 57 then some (c.toNat - 48) else none

/-- Value of a string of decimal digits, continuing from `acc`.
Standard library; qos_json/src/lib.rs:305-317, qos_client/src/cli/services.rs:2263-2270. -/
def digitsNat : Nat → List Char → Option Nat
  | acc, [] => some acc
  | acc, c :: cs => match digitNat c with
    | some d => digitsNat (10 * acc + d) cs
    | none => none

/-- Skip one leading `+`. Standard library; qos_json/src/lib.rs:305-317, qos_client/src/cli/services.rs:2263-2270. -/
def stripPlus : List Char → List Char
  | '+' :: r => r
  | r => r

/-- `uN::from_str` for an unsigned type with `bound` values: optional `+`, at least one decimal
digit, no overflow (documented behaviour of the standard library).
Standard library; qos_json/src/lib.rs:305-317, qos_client/src/cli/services.rs:2263-2270. -/
def parseUnsigned (bound : Nat) (cs : List Char) : Option Nat :=
  if (stripPlus cs).isEmpty then none
  else match digitsNat 0 (stripPlus cs) with
    | some n => if n < bound then some n else none
    | none => none

end Qos
