import Verif.Model.Borsh
import Verif.Model.Env
/-!
# The Borsh form of the pivot environment

`PivotEnv` and its parts as they are read from and written to Borsh. No message of the protocol carries this form (V2 manifests
travel as JSON), but the types export it.
-/
namespace Qos.Borsh

/-- `BorshDeserialize for PivotEnvVarName` (env.rs:99-109): a string, then `PivotEnvVarName::new`; the derived writer (env.rs:25)
writes the string. -/
def envName : Codec String where
  enc := string.enc
  dec bs := match string.dec bs with
    | some (s, r) => (Env.newName s).map fun n => (n, r)
    | none => none
  ok s := Env.newName s = some s

/-- `BorshDeserialize for PivotEnvPlainValue` (env.rs:190-200): a string, then `PivotEnvPlainValue::new`; the derived writer
(env.rs:118) writes the string. -/
def envPlainValue : Codec String where
  enc := string.enc
  dec bs := match string.dec bs with
    | some (s, r) => (Env.newValue s).map fun v => (v, r)
    | none => none
  ok v := Env.newValue v = some v

/-- `BorshDeserialize for PivotEnvValue` (env.rs:243-262): variant 0, a string, then `PivotEnvValue::plain` (env.rs:229-231);
the derived writer (env.rs:207) writes the number of the variant and the string. -/
def envValue : Codec String where
  enc v := 0 :: string.enc v
  dec bs := match u8.dec bs with
    | some (tag, r) =>
      if tag = 0 then
        match string.dec r with
        | some (s, r') => (Env.newValue s).map fun v => (v, r')
        | none => none
      else none
    | none => none
  ok v := Env.newValue v = some v

/-- The entries: `BTreeMap` is written, and read, as a vector of pairs (external crate `borsh` 1.5.7 without `de_strict_order`, so
neither order nor uniqueness is asked for on reading). env.rs:351-358. -/
def envEntries : Codec (List (String × String)) := vec (pair envName envValue)

/-- `BorshDeserialize for PivotEnv` (env.rs:350-362): the entries, collected with the last value winning, then `TryFrom<BTreeMap>`
(env.rs:338-348). -/
def pivotEnv : Codec Env.Map where
  enc := envEntries.enc
  dec bs := match envEntries.dec bs with
    | some (ps, r) =>
      if Env.withinLimits (Env.collect ps) then some (Env.collect ps, r) else none
    | none => none
  ok m := Env.decode m = some m

end Qos.Borsh
