import Verif.Spec.Format
/-!
# The bytes of a pivot environment

Independent of the codecs: the bytes of a list of entries, and what they mean.
-/
namespace Qos.Format

/-- The bytes of a list of entries: their number, then for each the name, the variant number 0 and the value. -/
def entriesBytes (given : List (String × String)) : Bytes := many (fun kv => text kv.1 ++ [0] ++ text kv.2) given

/-- The environment a list of entries means: the names in order, each with the last value given for it. -/
def Means (given : List (String × String)) (m : Env.Map) : Prop :=
  m.Pairwise (fun a b => a.1 < b.1) ∧
    ∀ name value, (name, value) ∈ m ↔ ∃ before after, given = before ++ (name, value) :: after ∧ ∀ g ∈ after, g.1 ≠ name

/-- The bytes say the environment: they are the bytes of fewer than 2³² entries, all valid, with at most 512 different names. -/
def EnvBytes (buf : Bytes) (m : Env.Map) : Prop :=
  ∃ given, buf = entriesBytes given ∧ given.length < 2 ^ 32 ∧ (∀ g ∈ given, Env.ValidName g.1 ∧ Env.ValidValue g.2) ∧
    Means given m ∧ m.length ≤ 512

end Qos.Format
