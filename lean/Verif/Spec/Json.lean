import Verif.Model.Json
/-!
# Specification vocabulary for canonical JSON (independent of the writer)

What a reader of a JSON document can observe under the QOS rules: following a path of member names
and array indices, which kind of value is there. A null-valued object member is the same as an absent
one; an integer is the same as its decimal string.
-/
namespace Qos.Json

/-- One step of a path into a document. -/
inductive Step where
  | key (k : String)
  | idx (n : Nat)

/-- What is visible at the end of a path. -/
inductive Shape where
  | null
  | bool (b : Bool)
  | text (s : String)
  | nonInteger
  | array (length : Nat)
  | object
  deriving DecidableEq

/-- The value visible at the root. `toString` is Lean's own decimal notation of integers. -/
def shape : Json → Shape
  | .null => .null
  | .bool b => .bool b
  | .int i => .text (toString i)
  | .float _ => .nonInteger
  | .str s => .text s
  | .arr vs => .array vs.length
  | .obj _ => .object

/-- What is visible at a path; `none` when there is nothing there. -/
def observe : Json → List Step → Option Shape
  | v, [] => some v.shape
  | .obj kvs, .key k :: p => match lookup k kvs with
    | some .null => none
    | some w => observe w p
    | none => none
  | .arr vs, .idx n :: p => match vs[n]? with
    | some w => observe w p
    | none => none
  | _, _ => none

mutual
/-- Object keys are unique everywhere (the Rust `Map` guarantees this). -/
def UniqueKeys : Json → Prop
  | .arr vs => UniqueKeysArr vs
  | .obj kvs => (kvs.map Prod.fst).Nodup ∧ UniqueKeysObj kvs
  | _ => True
/-- All elements. -/
def UniqueKeysArr : List Json → Prop
  | [] => True
  | v :: vs => UniqueKeys v ∧ UniqueKeysArr vs
/-- All members. -/
def UniqueKeysObj : List (String × Json) → Prop
  | [] => True
  | (_, v) :: kvs => UniqueKeys v ∧ UniqueKeysObj kvs
end

mutual
/-- Canonical trees: no numbers, no null members, member names strictly increasing as sequences of
UTF-16 code units. -/
def Canonical : Json → Prop
  | .int _ => False
  | .float _ => False
  | .arr vs => CanonicalArr vs
  | .obj kvs => kvs.Pairwise (fun a b => utf16 a.1 < utf16 b.1) ∧ CanonicalObj kvs
  | _ => True
/-- All elements. -/
def CanonicalArr : List Json → Prop
  | [] => True
  | v :: vs => Canonical v ∧ CanonicalArr vs
/-- All members; none is null. -/
def CanonicalObj : List (String × Json) → Prop
  | [] => True
  | (_, v) :: kvs => v ≠ .null ∧ Canonical v ∧ CanonicalObj kvs
end

mutual
/-- Nesting depth of arrays and objects. -/
def height : Json → Nat
  | .arr vs => 1 + heightArr vs
  | .obj kvs => 1 + heightObj kvs
  | _ => 0
/-- Elements. -/
def heightArr : List Json → Nat
  | [] => 0
  | v :: vs => max (height v) (heightArr vs)
/-- Members. -/
def heightObj : List (String × Json) → Nat
  | [] => 0
  | (_, v) :: kvs => max (height v) (heightObj kvs)
end

end Qos.Json
