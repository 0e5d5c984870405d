import Verif.Model.Text
import Mathlib.Data.List.Sort
/-!
# JSON values, the serde_json writer and parser, and canonical QOS JSON

Models `/repo/src/qos_json/src/lib.rs` and the parts of `serde_json` it uses. Objects are association
lists in textual order; the Rust `Map` has unique keys, expressed by `Json.WF`.
-/
namespace Qos

/-- `serde_json::Value`. A number is an integer (`is_u64() || is_i64()`, lib.rs:104) or any other
number, of which only the source text is kept (its value is never used by the modelled code). -/
inductive Json where
  | null
  | bool (b : Bool)
  | int (i : Int)
  | float (text : List Char)
  | str (s : String)
  | arr (vs : List Json)
  | obj (kvs : List (String × Json))

namespace Json

mutual
/-- Boolean equality of JSON values.
`PartialEq` of `serde_json::Value`; used nowhere by the code, only by decidable examples. -/
def beq : Json → Json → Bool
  | .null, .null => true
  | .bool a, .bool b => a == b
  | .int a, .int b => a == b
  | .float a, .float b => a == b
  | .str a, .str b => a == b
  | .arr a, .arr b => beqArr a b
  | .obj a, .obj b => beqObj a b
  | _, _ => false
/-- Boolean equality of arrays.
`PartialEq` of `serde_json::Value`; used nowhere by the code, only by decidable examples. -/
def beqArr : List Json → List Json → Bool
  | [], [] => true
  | a :: as, b :: bs => beq a b && beqArr as bs
  | _, _ => false
/-- Boolean equality of objects, in textual order.
`PartialEq` of `serde_json::Value`; used nowhere by the code, only by decidable examples. -/
def beqObj : List (String × Json) → List (String × Json) → Bool
  | [], [] => true
  | (k, a) :: as, (l, b) :: bs => k == l && beq a b && beqObj as bs
  | _, _ => false
end

/-- Is this `Value::Null`? qos_json/src/lib.rs:134-161. -/
def isNull : Json → Bool
  | .null => true
  | _ => false

/-- Lookup of a key (first occurrence) in an object's entries.
External crate `serde_json`, behind boot/manifest.rs:55-67. -/
def lookup (k : String) : List (String × Json) → Option Json
  | [] => none
  | (k', v) :: rest => if k = k' then some v else lookup k rest

/-- `Value::get(key)` (used by boot/manifest.rs:55-67). Rust objects built by the parser keep the
last of duplicated keys, so this looks from the end. -/
def get (v : Json) (k : String) : Option Json :=
  match v with
  | .obj kvs => lookup k kvs.reverse
  | _ => none

/-! ## Writing -/

/-- Lower-case hex digit character of a nibble. External crate `serde_json`, called at qos_json/src/lib.rs:163-168. -/
def hexChar (n : Nat) : Char := if n < 10 then Char.ofNat (48 + n) else Char.ofNat (87 + n)

/-- One character of a JSON string literal as written by `serde_json` (`format_escaped_str`).
External crate `serde_json`, called at qos_json/src/lib.rs:163-168. -/
def escapeChar (c : Char) : List Char :=
  if c = '"' then ['\\', '"']
  else if c = '\\' then ['\\', '\\']
  else if c.toNat = 8 then ['\\', 'b']
  else if c.toNat = 9 then ['\\', 't']
  else if c.toNat = 10 then ['\\', 'n']
  else if c.toNat = 12 then ['\\', 'f']
  else if c.toNat = 13 then ['\\', 'r']
  else if c.toNat < 32 then ['\\', 'u', '0', '0', hexChar (c.toNat / 16), hexChar (c.toNat % 16)]
  else [c]

/-- `write_string` (lib.rs:163-168): `serde_json` string literal. -/
def writeString (s : String) : List Char := '"' :: (s.toList.flatMap escapeChar ++ ['"'])

/-- Texts joined by commas. qos_json/src/lib.rs:117-161. -/
def commaSep : List (List Char) → List Char
  | [] => []
  | [t] => t
  | t :: ts => t ++ ',' :: commaSep ts

mutual
/-- `serde_json::to_vec` of a value (compact form), used for V1/V0 storage and for the JSON-bytes
wrapper. External crate `serde_json`, called e.g. at qos_client/src/cli/services.rs:1052, 1566. -/
def write : Json → List Char
  | .null => ['n', 'u', 'l', 'l']
  | .bool true => ['t', 'r', 'u', 'e']
  | .bool false => ['f', 'a', 'l', 's', 'e']
  | .int i => intText i
  | .float t => t
  | .str s => writeString s
  | .arr vs => '[' :: (commaSep (writeArr vs) ++ [']'])
  | .obj kvs => '{' :: (commaSep (writeObj kvs) ++ ['}'])
/-- The elements of an array. External crate `serde_json`, called e.g. at qos_client/src/cli/services.rs:1052, 1566. -/
def writeArr : List Json → List (List Char)
  | [] => []
  | v :: vs => write v :: writeArr vs
/-- The members of an object. External crate `serde_json`, called e.g. at qos_client/src/cli/services.rs:1052, 1566. -/
def writeObj : List (String × Json) → List (List Char)
  | [] => []
  | (k, v) :: kvs => (writeString k ++ ':' :: write v) :: writeObj kvs
end

/-- Key order of canonical JSON: `left.encode_utf16().cmp(right.encode_utf16())` (lib.rs:145-147). -/
def keyLe (a b : String) : Prop := utf16 a ≤ utf16 b

instance : DecidableRel keyLe := fun a b => inferInstanceAs (Decidable (utf16 a ≤ utf16 b))

/-- Sort entries by key (stable, as `sort_by`, lib.rs:145-147). -/
def sortEntries {α : Type} (l : List (String × α)) : List (String × α) :=
  l.insertionSort fun a b => keyLe a.1 b.1

mutual
/-- `write_value` (lib.rs:89-115): canonical text, `none` for the "forbids non-integer" error. -/
def canon : Json → Option (List Char)
  | .null => some ['n', 'u', 'l', 'l']
  | .bool true => some ['t', 'r', 'u', 'e']
  | .bool false => some ['f', 'a', 'l', 's', 'e']
  | .int i => some (writeString (String.ofList (intText i)))
  | .float _ => none
  | .str s => some (writeString s)
  | .arr vs => match canonArr vs with
    | some ts => some ('[' :: (commaSep ts ++ [']']))
    | none => none
  | .obj kvs => match canonObj kvs with
    | some ts =>
      some ('{' :: (commaSep ((sortEntries ts).map fun kt => writeString kt.1 ++ ':' :: kt.2) ++ ['}']))
    | none => none
/-- `write_array` (lib.rs:117-132), element texts. -/
def canonArr : List Json → Option (List (List Char))
  | [] => some []
  | v :: vs => match canon v, canonArr vs with
    | some t, some ts => some (t :: ts)
    | _, _ => none
/-- `write_object` (lib.rs:134-161): drop null members and write each value; the entries are
sorted afterwards (in the code before), which is the same because sorting only looks at keys. -/
def canonObj : List (String × Json) → Option (List (String × List Char))
  | [] => some []
  | (k, v) :: kvs =>
    if v.isNull then canonObj kvs
    else match canon v, canonObj kvs with
      | some t, some ts => some ((k, t) :: ts)
      | _, _ => none
end

/-- `qos_json::to_vec` of a value already converted by `serde_json::to_value` (lib.rs:22-25). -/
def canonBytes (v : Json) : Option Bytes := (canon v).map fun t => t.flatMap String.utf8EncodeChar

/-- `serde_json::to_vec` bytes.
External crate `serde_json`, called e.g. at qos_client/src/cli/services.rs:1052, 1566. -/
def writeBytes (v : Json) : Bytes := (write v).flatMap String.utf8EncodeChar

/-! ## Parsing (`serde_json::from_slice`) -/

/-- JSON white space.
External crate `serde_json`, called at qos_json/src/lib.rs:44-46, protocol/msg.rs:291-305, boot/manifest.rs:55-67. -/
def isWs (c : Char) : Bool := c = ' ' || c = '\n' || c = '\t' || c = '\r'

/-- Skip white space.
External crate `serde_json`, called at qos_json/src/lib.rs:44-46, protocol/msg.rs:291-305, boot/manifest.rs:55-67. -/
def skipWs : List Char → List Char
  | [] => []
  | c :: cs => if isWs c then skipWs cs else c :: cs

/-- Hex digit value.
External crate `serde_json`, called at qos_json/src/lib.rs:44-46, protocol/msg.rs:291-305, boot/manifest.rs:55-67. -/
def hexDigit (c : Char) : Option Nat :=
  let n := c.toNat
  if 48 ≤ n ∧ n ≤ 57 then some (n - 48)
  else if 97 ≤ n ∧ n ≤ 102 then some (n - 87)
  else if 65 ≤ n ∧ n ≤ 70 then some (n - 55)
  else none

/-- Four hex digits of a `\u` escape.
External crate `serde_json`, called at qos_json/src/lib.rs:44-46, protocol/msg.rs:291-305, boot/manifest.rs:55-67. -/
def hex4 (a b c d : Char) : Option Nat :=
  match hexDigit a, hexDigit b, hexDigit c, hexDigit d with
  | some a, some b, some c, some d => some (4096 * a + 256 * b + 16 * c + d)
  | _, _, _, _ => none

/-- One-character escapes.
External crate `serde_json`, called at qos_json/src/lib.rs:44-46, protocol/msg.rs:291-305, boot/manifest.rs:55-67. -/
def simpleEscape (c : Char) : Option Char :=
  if c = '"' then some '"' else if c = '\\' then some '\\' else if c = '/' then some '/'
  else if c = 'b' then some (Char.ofNat 8) else if c = 'f' then some (Char.ofNat 12)
  else if c = 'n' then some '\n' else if c = 'r' then some '\r' else if c = 't' then some '\t'
  else none

/-- Body of a string literal, after the opening quote; returns the characters and the rest after
the closing quote. Control characters and lone surrogates are errors.
External crate `serde_json`, called at qos_json/src/lib.rs:44-46, protocol/msg.rs:291-305, boot/manifest.rs:55-67. -/
def parseStr : List Char → Option (List Char × List Char)
  | [] => none
  | c :: cs =>
    if c = '"' then some ([], cs)
    else if c = '\\' then
      match cs with
      | 'u' :: a :: b :: d :: e :: cs' =>
        match hex4 a b d e with
        | none => none
        | some n =>
          if 0xD800 ≤ n ∧ n < 0xDC00 then
            match cs' with
            | '\\' :: 'u' :: a' :: b' :: d' :: e' :: cs'' =>
              match hex4 a' b' d' e' with
              | none => none
              | some m =>
                if 0xDC00 ≤ m ∧ m < 0xE000 then
                  match parseStr cs'' with
                  | some (r, rest) =>
                    some (Char.ofNat (0x10000 + (n - 0xD800) * 0x400 + (m - 0xDC00)) :: r, rest)
                  | none => none
                else none
            | _ => none
          else if 0xDC00 ≤ n ∧ n < 0xE000 then none
          else match parseStr cs' with
            | some (r, rest) => some (Char.ofNat n :: r, rest)
            | none => none
      | e :: cs' => match simpleEscape e with
        | some x => match parseStr cs' with
          | some (r, rest) => some (x :: r, rest)
          | none => none
        | none => none
      | [] => none
    else if c.toNat < 32 then none
    else match parseStr cs with
      | some (r, rest) => some (c :: r, rest)
      | none => none

/-- Split off the leading decimal digits.
External crate `serde_json`, called at qos_json/src/lib.rs:44-46, protocol/msg.rs:291-305, boot/manifest.rs:55-67. -/
def takeDigits : List Char → List Char × List Char
  | [] => ([], [])
  | c :: cs => if (digitNat c).isSome then
      let (d, r) := takeDigits cs
      (c :: d, r)
    else ([], c :: cs)

/-- Optional fraction: its text and the rest; `none` when a `.` is not followed by a digit.
External crate `serde_json`, called at qos_json/src/lib.rs:44-46, protocol/msg.rs:291-305, boot/manifest.rs:55-67. -/
def parseFrac : List Char → Option (List Char × List Char)
  | '.' :: cs => let (d, r) := takeDigits cs
    if d.isEmpty then none else some ('.' :: d, r)
  | cs => some ([], cs)

/-- Optional exponent.
External crate `serde_json`, called at qos_json/src/lib.rs:44-46, protocol/msg.rs:291-305, boot/manifest.rs:55-67. -/
def parseExp : List Char → Option (List Char × List Char)
  | c :: cs =>
    if c = 'e' ∨ c = 'E' then
      match cs with
      | s :: cs' =>
        if s = '+' ∨ s = '-' then
          let (d, r) := takeDigits cs'
          if d.isEmpty then none else some (c :: s :: d, r)
        else let (d, r) := takeDigits (s :: cs')
          if d.isEmpty then none else some (c :: d, r)
      | [] => none
    else some ([], c :: cs)
  | [] => some ([], [])

/-- Classify an integer literal: integers outside `i64::MIN ..= u64::MAX` and `-0` become floats
(serde_json `parse_number`).
External crate `serde_json`, called at qos_json/src/lib.rs:44-46, protocol/msg.rs:291-305, boot/manifest.rs:55-67. -/
def mkInt (neg : Bool) (n : Nat) (text : List Char) : Json :=
  if neg then
    if n = 0 ∨ n > 2 ^ 63 then .float text else .int (-(n : Int))
  else if n < 2 ^ 64 then .int n else .float text

/-- Optional minus sign.
External crate `serde_json`, called at qos_json/src/lib.rs:44-46, protocol/msg.rs:291-305, boot/manifest.rs:55-67. -/
def splitSign : List Char → Bool × List Char
  | '-' :: r => (true, r)
  | r => (false, r)

/-- A JSON number. (Exponents so large that the value is out of range of `f64` are errors in
serde_json and accepted here; no modelled code accepts a float.)
External crate `serde_json`, called at qos_json/src/lib.rs:44-46, protocol/msg.rs:291-305, boot/manifest.rs:55-67. -/
def parseNumber (cs : List Char) : Option (Json × List Char) :=
  let (neg, cs) := splitSign cs
  let (d, r) := takeDigits cs
  if d.isEmpty then none
  else if d.head? = some '0' ∧ d.length > 1 then none
  else match parseFrac r with
    | none => none
    | some (f, r) => match parseExp r with
      | none => none
      | some (e, r) =>
        let text := (if neg then ['-'] else []) ++ d ++ f ++ e
        if f.isEmpty ∧ e.isEmpty then
          match digitsNat 0 d with
          | some n => some (mkInt neg n text, r)
          | none => none
        else some (.float text, r)

/-- Match a literal word.
External crate `serde_json`, called at qos_json/src/lib.rs:44-46, protocol/msg.rs:291-305, boot/manifest.rs:55-67. -/
def expect (w : List Char) (cs : List Char) : Option (List Char) :=
  if w.isPrefixOf cs then some (cs.drop w.length) else none

mutual
/-- A JSON value, leading white space allowed. `depth` is serde_json's remaining recursion depth
(128 at the start; reaching 0 is an error). `fuel` only makes the recursion structural.
External crate `serde_json`, called at qos_json/src/lib.rs:44-46, protocol/msg.rs:291-305, boot/manifest.rs:55-67. -/
def parseValue : (fuel : Nat) → (depth : Nat) → List Char → Option (Json × List Char)
  | 0, _, _ => none
  | fuel + 1, depth, cs =>
    match skipWs cs with
    | [] => none
    | c :: cs' =>
      if c = 'n' then (expect ['u', 'l', 'l'] cs').map fun r => (.null, r)
      else if c = 't' then (expect ['r', 'u', 'e'] cs').map fun r => (.bool true, r)
      else if c = 'f' then (expect ['a', 'l', 's', 'e'] cs').map fun r => (.bool false, r)
      else if c = '"' then (parseStr cs').map fun (s, r) => (.str (String.ofList s), r)
      else if c = '[' then
        if depth ≤ 1 then none
        else match skipWs cs' with
          | ']' :: r => some (.arr [], r)
          | _ => (parseElems fuel (depth - 1) cs').map fun (vs, r) => (.arr vs, r)
      else if c = '{' then
        if depth ≤ 1 then none
        else match skipWs cs' with
          | '}' :: r => some (.obj [], r)
          | _ => (parseMembers fuel (depth - 1) cs').map fun (kvs, r) => (.obj kvs, r)
      else if c = '-' ∨ (digitNat c).isSome then parseNumber (c :: cs')
      else none
/-- One or more array elements and the closing bracket.
External crate `serde_json`, called at qos_json/src/lib.rs:44-46, protocol/msg.rs:291-305, boot/manifest.rs:55-67. -/
def parseElems : (fuel : Nat) → (depth : Nat) → List Char → Option (List Json × List Char)
  | 0, _, _ => none
  | fuel + 1, depth, cs =>
    match parseValue fuel depth cs with
    | none => none
    | some (v, r) => match skipWs r with
      | ',' :: r' => (parseElems fuel depth r').map fun (vs, r'') => (v :: vs, r'')
      | ']' :: r' => some ([v], r')
      | _ => none
/-- One or more object members and the closing brace.
External crate `serde_json`, called at qos_json/src/lib.rs:44-46, protocol/msg.rs:291-305, boot/manifest.rs:55-67. -/
def parseMembers : (fuel : Nat) → (depth : Nat) → List Char → Option (List (String × Json) × List Char)
  | 0, _, _ => none
  | fuel + 1, depth, cs =>
    match skipWs cs with
    | '"' :: r => match parseStr r with
      | none => none
      | some (k, r) => match skipWs r with
        | ':' :: r => match parseValue fuel depth r with
          | none => none
          | some (v, r) => match skipWs r with
            | ',' :: r' =>
              (parseMembers fuel depth r').map fun (kvs, r'') => ((String.ofList k, v) :: kvs, r'')
            | '}' :: r' => some ([(String.ofList k, v)], r')
            | _ => none
        | _ => none
    | _ => none
end

/-- `serde_json::from_slice` into a tree: the whole input must be one value and white space.
Duplicate keys are kept here; typed decoding rejects them, `Json.get` takes the last. The input is decoded as UTF-8 up front.
External crate `serde_json`, called at qos_json/src/lib.rs:44-46, protocol/msg.rs:291-305, boot/manifest.rs:55-67. -/
def parseText (cs : List Char) : Option Json :=
  match parseValue (2 * cs.length + 2) 128 cs with
  | some (v, r) => if (skipWs r).isEmpty then some v else none
  | none => none

/-- `serde_json::from_slice` on bytes.
External crate `serde_json`, called at qos_json/src/lib.rs:44-46, protocol/msg.rs:291-305, boot/manifest.rs:55-67. -/
def parse (bs : Bytes) : Option Json :=
  match utf8Decode bs with
  | some s => parseText s.toList
  | none => none

end Json
end Qos
