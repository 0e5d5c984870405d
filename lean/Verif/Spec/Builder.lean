import Verif.Model.Builder
/-!
# What a sequence of builder calls configures
-/
namespace Qos.Builder

/-- The last value a sequence of calls gives to a field. -/
def last {α : Type} (field : Call → Option α) (calls : List Call) : Option α := (calls.filterMap field).getLast?

/-! The fields. -/

/-- version -/
def Call.version? : Call → Option ManifestVersion | .withVersion v => some v | _ => none
/-- namespace -/
def Call.namespace? : Call → Option Namespace | .namespaceOf v => some v | _ => none
/-- pivot hash -/
def Call.pivotHash? : Call → Option Bytes | .pivotHash v => some v | _ => none
/-- restart policy -/
def Call.restartPolicy? : Call → Option RestartPolicy | .restartPolicy v => some v | _ => none
/-- bridges -/
def Call.bridgeConfig? : Call → Option (List BridgeConfig) | .bridgeConfig v => some v | _ => none
/-- debug mode -/
def Call.debugMode? : Call → Option Bool | .debugMode v => some v | _ => none
/-- arguments -/
def Call.pivotArgs? : Call → Option (List String) | .pivotArgs v => some v | _ => none
/-- environment -/
def Call.pivotEnv? : Call → Option Env.Map | .pivotEnv v => some v | _ => none
/-- manifest set -/
def Call.manifestSet? : Call → Option QuorumSet | .manifestSet v => some v | _ => none
/-- share set -/
def Call.shareSet? : Call → Option QuorumSet | .shareSet v => some v | _ => none
/-- enclave -/
def Call.enclave? : Call → Option NitroConfig | .enclave v => some v | _ => none
/-- patch set -/
def Call.patchSet? : Call → Option PatchSet | .patchSet v => some v | _ => none
/-- DNS -/
def Call.dns? : Call → Option DnsConfig | .dns v => some v | _ => none

/-- The V1 manifest configured by the calls. -/
structure ConfiguresV1 (calls : List Call) (m : Manifest) : Prop where
  version : last Call.version? calls = some .v1
  noEnv : last Call.pivotEnv? calls = none
  noDns : last Call.dns? calls = none
  «namespace» : last Call.namespace? calls = some m.namespace
  pivotHash : last Call.pivotHash? calls = some m.pivot.hash
  manifestSet : last Call.manifestSet? calls = some m.manifestSet
  shareSet : last Call.shareSet? calls = some m.shareSet
  enclave : last Call.enclave? calls = some m.enclave
  patchSet : last Call.patchSet? calls = some m.patchSet
  restart : m.pivot.restart = (last Call.restartPolicy? calls).getD .never
  bridges : m.pivot.bridgeConfig = (last Call.bridgeConfig? calls).getD []
  debug : m.pivot.debugMode = (last Call.debugMode? calls).getD false
  args : m.pivot.args = (last Call.pivotArgs? calls).getD []

/-- The V2 manifest configured by the calls. -/
structure ConfiguresV2 (calls : List Call) (m : ManifestV2) : Prop where
  version : last Call.version? calls = some .v2 ∨ last Call.version? calls = none
  noPatchSet : last Call.patchSet? calls = none
  declared : m.version = .v2
  «namespace» : last Call.namespace? calls = some m.namespace
  pivotHash : last Call.pivotHash? calls = some m.pivot.hash
  manifestSet : last Call.manifestSet? calls = some m.manifestSet
  shareSet : last Call.shareSet? calls = some m.shareSet
  enclave : last Call.enclave? calls = some m.enclave
  restart : m.pivot.restart = (last Call.restartPolicy? calls).getD .never
  bridges : m.pivot.bridgeConfig = (last Call.bridgeConfig? calls).getD []
  debug : m.pivot.debugMode = (last Call.debugMode? calls).getD false
  args : m.pivot.args = (last Call.pivotArgs? calls).getD []
  env : m.pivot.env = (last Call.pivotEnv? calls).getD []
  dns : m.dns = last Call.dns? calls

end Qos.Builder
