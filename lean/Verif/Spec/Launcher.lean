import Verif.Model.Launcher
import Verif.Spec.HostCli
import Mathlib.Data.List.Forall2
/-!
# What the launcher is asked for, and what a console says
-/
namespace Qos.Launcher
open HostCli (Number)

/-! ## The console -/

/-- The stream is these lines, each ended by a newline, and an unfinished rest. -/
def Framed (stream : Bytes) (lines : List Bytes) (rest : Bytes) : Prop :=
  stream = lines.flatMap (fun l => l ++ [10]) ++ rest ∧ (∀ l ∈ lines, (10 : UInt8) ∉ l) ∧ (10 : UInt8) ∉ rest

/-- The message of a line: its text without carriage returns at the end. -/
def Message (lossy : Bytes → String) (line : Bytes) (t : String) : Prop :=
  (∃ k, (lossy line).toList = t.toList ++ List.replicate k '\r') ∧ t.toList.getLast? ≠ some '\r'

/-- The messages of these lines, without those that are empty. -/
def Shows (lossy : Bytes → String) (lines : List Bytes) (msgs : List String) : Prop :=
  ∃ ts, List.Forall₂ (Message lossy) lines ts ∧ msgs = ts.filter fun t => t ≠ ""

/-! ## Starting -/

/-- A variable is set to a value, or not set and the value is the default. -/
def Sets (env : String → Option String) (name default v : String) : Prop := env name = some v ∨ (env name = none ∧ v = default)

/-- A variable is a number. -/
def SetsNumber (env : String → Option String) (name default : String) (n : Nat) : Prop := ∃ v, Sets env name default v ∧ Number v n

/-- A variable is `true` or `false`. -/
def SetsBool (env : String → Option String) (name default : String) (b : Bool) : Prop :=
  Sets env name default (if b then "true" else "false")

/-- The arguments that the environment asks for. -/
structure Asked (env : String → Option String) (a : RunArgs) : Prop where
  eif : Sets env "EIF_PATH" "/aws-x86_64.eif" a.eifPath
  cid : SetsNumber env "ENCLAVE_CID" "16" a.cid.toNat
  memory : SetsNumber env "MEMORY_MIB" "1024" a.memoryMib.toNat
  cpus : SetsNumber env "CPU_COUNT" "2" a.cpuCount.toNat
  debug : SetsBool env "DEBUG" "false" a.debugMode
  logs : SetsBool env "LOGS" "false" a.attachConsole
  name : Sets env "ENCLAVE_NAME" "nitro" a.name

end Qos.Launcher
