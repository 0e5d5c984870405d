import Verif.Model.Json
import Verif.Model.Hex
/-!
# Typed JSON: `serde` derive as combinators

`JCodec` is a type's `Serialize` (into the JSON tree) and `Deserialize` (from the JSON tree, duplicates
kept). `Fields` is the field list of a derived struct. The rules are those of `serde_derive` with
`serde_json`:

* a struct is written as an object in field order; it is read from an object (known field twice:
  error; unknown field: ignored, or an error under `deny_unknown_fields`; missing field: error unless
  defaulted) or positionally from an array with at most as many elements as fields;
* integers in buffered identifiers and `serde` size hints are not modelled.
-/
namespace Qos

/-- A type with a JSON form. `ok` says that the value is one the Rust type can hold and whose JSON
text can be read back (fixed array lengths, hex length limit); `depth` bounds the nesting.
External crates `serde_derive` and `serde_json`, behind the derives of services/boot.rs:55-649, v2.rs:16-96, genesis.rs:26-161. -/
structure JCodec (α : Type) where
  enc : α → Json
  dec : Json → Option α
  ok : α → Prop
  depth : Nat

/-- The fields of a derived struct. `dec` gets the object as a lookup function.
External crates `serde_derive` and `serde_json`, behind the derives of services/boot.rs:55-649, v2.rs:16-96, genesis.rs:26-161. -/
structure Fields (α : Type) where
  keys : List String
  enc : α → List (String × Json)
  dec : (String → Option Json) → Option α
  ok : α → Prop
  depth : Nat

namespace JCodec

/-- `String`.
External crates `serde_derive` and `serde_json`, behind the derives of services/boot.rs:55-649, v2.rs:16-96, genesis.rs:26-161. -/
def string : JCodec String where
  enc s := .str s
  dec
    | .str s => some s
    | _ => none
  ok _ := True
  depth := 0

/-- `bool`.
External crates `serde_derive` and `serde_json`, behind the derives of services/boot.rs:55-649, v2.rs:16-96, genesis.rs:26-161. -/
def bool : JCodec Bool where
  enc b := .bool b
  dec
    | .bool b => some b
    | _ => none
  ok _ := True
  depth := 0

/-- The text that `string_or_numeric` parses (qos_json/src/lib.rs:303-315): a string as is, an integer
as its decimal text; a non-integer number's text never parses as an integer. -/
def numText : Json → Option (List Char)
  | .str s => some s.toList
  | .int i => some (intText i)
  | _ => none

/-- `#[serde(with = "qos_json::string_or_numeric")]` on an unsigned integer below `bound`
(qos_json/src/lib.rs:171-315). -/
def stringOrNumeric (bound : Nat) : JCodec Nat where
  enc n := .int n
  dec v := match numText v with
    | some t => parseUnsigned bound t
    | none => none
  ok n := n < bound
  depth := 0

/-- The text of a hex string: ASCII bytes as characters. qos_hex/src/lib.rs:245-359. -/
def bytesText (b : Bytes) : String := String.ofList (b.map fun x => Char.ofNat x.toNat)

/-- `#[serde(with = "qos_hex::serde")]` on `Vec<u8>` (qos_hex/src/lib.rs:246-311, `FromHex` for
`Vec<u8>`: `decode`). -/
def hexVec : JCodec Bytes where
  enc b := .str (bytesText (Hex.encode b))
  dec
    | .str s => (Hex.decode (utf8 s)).toOption
    | _ => none
  ok b := 2 * b.length < Hex.strMaxLength
  depth := 0

/-- `#[serde(with = "qos_hex::serde")]` on `[u8; n]` (`FromHex` for arrays: `decode_to_buf`).
qos_hex/src/lib.rs:245-359. -/
def hexArray (n : Nat) : JCodec Bytes where
  enc b := .str (bytesText (Hex.encode b))
  dec
    | .str s => (Hex.decodeToBuf (utf8 s) n).toOption
    | _ => none
  ok b := b.length = n
  depth := 0

/-- All elements decode.
External crates `serde_derive` and `serde_json`, behind the derives of services/boot.rs:55-649, v2.rs:16-96, genesis.rs:26-161. -/
def decAll {α : Type} (c : JCodec α) : List Json → Option (List α)
  | [] => some []
  | v :: vs => match c.dec v, decAll c vs with
    | some a, some as => some (a :: as)
    | _, _ => none

/-- `Vec<T>`.
External crates `serde_derive` and `serde_json`, behind the derives of services/boot.rs:55-649, v2.rs:16-96, genesis.rs:26-161. -/
def vec {α : Type} (c : JCodec α) : JCodec (List α) where
  enc l := .arr (l.map c.enc)
  dec
    | .arr vs => decAll c vs
    | _ => none
  ok l := ∀ a ∈ l, c.ok a
  depth := c.depth + 1

/-- Reshape along a bijection.
External crates `serde_derive` and `serde_json`, behind the derives of services/boot.rs:55-649, v2.rs:16-96, genesis.rs:26-161. -/
def imap {α β : Type} (f : α → β) (g : β → α) (c : JCodec α) : JCodec β where
  enc b := c.enc (g b)
  dec v := (c.dec v).map f
  ok b := c.ok (g b)
  depth := c.depth

/-- The entries a derived struct visitor sees: an object's members, or array elements in field order.
External crates `serde_derive` and `serde_json`, behind the derives of services/boot.rs:55-649, v2.rs:16-96, genesis.rs:26-161. -/
def entriesOf (keys : List String) : Json → Option (List (String × Json))
  | .obj kvs => some kvs
  | .arr vs => if vs.length ≤ keys.length then some (keys.zip vs) else none
  | _ => none

/-- The derived struct visitor on given entries.
External crates `serde_derive` and `serde_json`, behind the derives of services/boot.rs:55-649, v2.rs:16-96, genesis.rs:26-161. -/
def decEntries {α : Type} (deny : Bool) (f : Fields α) (kvs : List (String × Json)) : Option α :=
  if ((kvs.map Prod.fst).filter fun k => f.keys.contains k).Nodup then
    if deny && !((kvs.map Prod.fst).all fun k => f.keys.contains k) then none
    else f.dec fun k => Json.lookup k kvs
  else none

/-- A derived struct; `deny` is `#[serde(deny_unknown_fields)]`.
External crates `serde_derive` and `serde_json`, behind the derives of services/boot.rs:55-649, v2.rs:16-96, genesis.rs:26-161. -/
def struct {α : Type} (deny : Bool) (f : Fields α) : JCodec α where
  enc a := .obj (f.enc a)
  dec v := match entriesOf f.keys v with
    | some kvs => decEntries deny f kvs
    | none => none
  ok := f.ok
  depth := f.depth + 1

end JCodec

namespace Fields

/-- A plain field.
External crates `serde_derive` and `serde_json`, behind the derives of services/boot.rs:55-649, v2.rs:16-96, genesis.rs:26-161. -/
def req {α : Type} (k : String) (c : JCodec α) : Fields α where
  keys := [k]
  enc a := [(k, c.enc a)]
  dec look := match look k with
    | some v => c.dec v
    | none => none
  ok := c.ok
  depth := c.depth

/-- `#[serde(default, skip_serializing_if = "Option::is_none")]` on an `Option`.
External crates `serde_derive` and `serde_json`, behind the derives of services/boot.rs:55-649, v2.rs:16-96, genesis.rs:26-161. -/
def opt {α : Type} (k : String) (c : JCodec α) : Fields (Option α) where
  keys := [k]
  enc
    | some a => [(k, c.enc a)]
    | none => []
  dec look := match look k with
    | some .null => some none
    | some v => (c.dec v).map some
    | none => some none
  ok
    | some a => c.ok a
    | none => True
  depth := c.depth

/-- `#[serde(default, skip_serializing_if = "is_empty")]` on a collection.
External crates `serde_derive` and `serde_json`, behind the derives of services/boot.rs:55-649, v2.rs:16-96, genesis.rs:26-161. -/
def orEmpty {α : Type} (k : String) (c : JCodec (List α)) : Fields (List α) where
  keys := [k]
  enc a := if a.isEmpty then [] else [(k, c.enc a)]
  dec look := match look k with
    | some v => c.dec v
    | none => some []
  ok := c.ok
  depth := c.depth

/-- Fields of both parts, in order.
External crates `serde_derive` and `serde_json`, behind the derives of services/boot.rs:55-649, v2.rs:16-96, genesis.rs:26-161. -/
def both {α β : Type} (f : Fields α) (g : Fields β) : Fields (α × β) where
  keys := f.keys ++ g.keys
  enc ab := f.enc ab.1 ++ g.enc ab.2
  dec look := match f.dec look with
    | some a => match g.dec look with
      | some b => some (a, b)
      | none => none
    | none => none
  ok ab := f.ok ab.1 ∧ g.ok ab.2
  depth := max f.depth g.depth

/-- Reshape along a bijection.
External crates `serde_derive` and `serde_json`, behind the derives of services/boot.rs:55-649, v2.rs:16-96, genesis.rs:26-161. -/
def imap {α β : Type} (fwd : α → β) (back : β → α) (f : Fields α) : Fields β where
  keys := f.keys
  enc b := f.enc (back b)
  dec look := (f.dec look).map fwd
  ok b := f.ok (back b)
  depth := f.depth

end Fields
end Qos
