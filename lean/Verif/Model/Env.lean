import Verif.Model.Text
/-!
# Model of `/repo/src/qos_core/src/protocol/services/boot/env.rs`

A `BTreeMap<PivotEnvVarName, PivotEnvValue>` is an association list sorted by name; the only
variant `PivotEnvValue::Plain { value }` is its string. Error texts are dropped: every error here is
`ProtocolError::InvalidPivotEnv`.
-/
namespace Qos.Env

/-- `MAX_PIVOT_ENV_VARS` (env.rs:10). -/
def maxVars : Nat := 512
/-- `MAX_PIVOT_ENV_NAME_LEN` (env.rs:12). -/
def maxNameLen : Nat := 1024
/-- `MAX_PIVOT_ENV_VALUE_LEN` (env.rs:14). -/
def maxValueLen : Nat := 64 * 1024

/-- `char::is_ascii_alphabetic`. env.rs:55. -/
def isAlpha (c : Char) : Bool := (65 ≤ c.toNat && c.toNat ≤ 90) || (97 ≤ c.toNat && c.toNat ≤ 122)
/-- `char::is_ascii_alphanumeric`. env.rs:61. -/
def isAlnum (c : Char) : Bool := isAlpha c || (48 ≤ c.toNat && c.toNat ≤ 57)

/-- `PivotEnvVarName::new` (env.rs:39-68). -/
def newName (name : String) : Option String :=
  if (utf8 name).length > maxNameLen then none
  else match name.toList with
    | [] => none
    | first :: rest =>
      if !(isAlpha first || first == '_') then none
      else if rest.any (fun c => !(isAlnum c || c == '_')) then none
      else some name

/-- `PivotEnvPlainValue::new` (env.rs:131-146). -/
def newValue (value : String) : Option String :=
  if value.toList.contains (Char.ofNat 0) then none
  else if (utf8 value).length > maxValueLen then none
  else some value

/-- The environment: `BTreeMap` in key order (env.rs:263-274). -/
abbrev Map := List (String × String)

/-- `BTreeMap::get`. env.rs:323. -/
def get (k : String) : Map → Option String
  | [] => none
  | (k', v) :: m => if k = k' then some v else get k m

/-- `BTreeMap::insert` (the new map). env.rs:307. -/
def mapInsert (k v : String) : Map → Map
  | [] => [(k, v)]
  | (k', v') :: m =>
    if k = k' then (k, v) :: m
    else if k < k' then (k, v) :: (k', v') :: m
    else (k', v') :: mapInsert k v m

/-- `BTreeMap::remove`. env.rs:312. -/
def mapRemove (k : String) : Map → Map
  | [] => []
  | (k', v') :: m => if k = k' then m else (k', v') :: mapRemove k m

/-- `check_limits` (env.rs:326-335). -/
def withinLimits (m : Map) : Bool := m.length ≤ maxVars

/-- `PivotEnv::insert` (env.rs:302-318), with the rollback exactly as coded. Returns the result and
the map afterwards. -/
def insert (name value : String) (m : Map) : Option (Option String) × Map :=
  let previous := get name m
  let m' := mapInsert name value m
  if !withinLimits m' then
    match previous with
    | some p => (none, mapInsert name p m')
    | none => (none, mapRemove name m')
  else (some previous, m')

/-- Collecting decoded pairs into a `BTreeMap`, later entries replacing earlier ones (serde and Borsh
map decoding). env.rs:338-362. -/
def collect (pairs : List (String × String)) : Map :=
  pairs.foldl (fun m kv => mapInsert kv.1 kv.2 m) []

/-- Validate the names and values of decoded pairs (`try_from = "String"`, env.rs:29, 122; Borsh
96-107, 181-192). -/
def validatePairs : List (String × String) → Option (List (String × String))
  | [] => some []
  | (k, v) :: r => match newName k, newValue v, validatePairs r with
    | some k, some v, some r => some ((k, v) :: r)
    | _, _, _ => none

/-- Decoding an environment from its raw pairs, JSON or Borsh: `TryFrom<BTreeMap>` (env.rs:338-347)
after validation of every name and value. -/
def decode (pairs : List (String × String)) : Option Map :=
  match validatePairs pairs with
  | some ps => if withinLimits (collect ps) then some (collect ps) else none
  | none => none

/-- What a caller can do to an environment value through the public API. The public interface of env.rs:277-336. -/
inductive Op where
  /-- `PivotEnvVarName::new(name)`, `PivotEnvValue::plain(value)`, then `insert`. -/
  | insert (name value : String)
  /-- Replace the environment by one decoded from raw pairs. -/
  | decode (pairs : List (String × String))
  /-- `PivotEnv::new` (env.rs:278-280). -/
  | reset

/-- Effect of one operation (a failed one leaves what the code leaves). The public interface of env.rs:277-336. -/
def apply (m : Map) : Op → Map
  | .insert n v => match newName n, newValue v with
    | some n, some v => (insert n v m).2
    | _, _ => m
  | .decode ps => match decode ps with
    | some m' => m'
    | none => m
  | .reset => []

/-- Effect of a sequence of operations. The public interface of env.rs:277-336. -/
def run (ops : List Op) : Map := ops.foldl apply []

end Qos.Env
