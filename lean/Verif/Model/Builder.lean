import Verif.Model.Manifest
/-!
# `ManifestBuilder`

`/repo/src/qos_core/src/protocol/services/boot/manifest/builder.rs`.
-/
namespace Qos.Builder

/-- `ManifestBuilderError` (builder.rs:15-43). -/
inductive BuilderError where
  | missingNamespace | missingPivotHash | missingManifestSet | missingShareSet | missingEnclave | missingPatchSet
  | v1DoesNotSupportPivotEnv | v1DoesNotSupportDns | v2DoesNotSupportPatchSet
  deriving DecidableEq

/-- `ManifestBuilder` (builder.rs:52-66); all fields start unset (`new`, builder.rs:77-93). -/
structure Builder where
  version : Option ManifestVersion := none
  namespaceOf : Option Namespace := none
  pivotHash : Option Bytes := none
  restartPolicy : Option RestartPolicy := none
  bridgeConfig : Option (List BridgeConfig) := none
  debugMode : Option Bool := none
  pivotArgs : Option (List String) := none
  pivotEnv : Option Env.Map := none
  manifestSet : Option QuorumSet := none
  shareSet : Option QuorumSet := none
  enclave : Option NitroConfig := none
  patchSet : Option PatchSet := none
  dns : Option DnsConfig := none

/-- The setters (builder.rs:109-196). -/
inductive Call where
  | withVersion (v : ManifestVersion)
  | namespaceOf (n : Namespace)
  | pivotHash (h : Bytes)
  | restartPolicy (r : RestartPolicy)
  | bridgeConfig (b : List BridgeConfig)
  | debugMode (d : Bool)
  | pivotArgs (a : List String)
  | pivotEnv (e : Env.Map)
  | manifestSet (s : QuorumSet)
  | shareSet (s : QuorumSet)
  | enclave (e : NitroConfig)
  | patchSet (p : PatchSet)
  | dns (d : DnsConfig)

/-- One setter (builder.rs:109-196). -/
def Builder.apply (b : Builder) : Call → Builder
  | .withVersion v => { b with version := some v }
  | .namespaceOf n => { b with namespaceOf := some n }
  | .pivotHash h => { b with pivotHash := some h }
  | .restartPolicy r => { b with restartPolicy := some r }
  | .bridgeConfig c => { b with bridgeConfig := some c }
  | .debugMode d => { b with debugMode := some d }
  | .pivotArgs a => { b with pivotArgs := some a }
  | .pivotEnv e => { b with pivotEnv := some e }
  | .manifestSet s => { b with manifestSet := some s }
  | .shareSet s => { b with shareSet := some s }
  | .enclave e => { b with enclave := some e }
  | .patchSet p => { b with patchSet := some p }
  | .dns d => { b with dns := some d }

/-- `ManifestBuilder::new()` followed by setters; `v1()` and `v2()` (builder.rs:97-105) are `new` with a first
`with_version`. -/
def configure (calls : List Call) : Builder := calls.foldl Builder.apply {}

/-- `ok_or`. builder.rs:74-273. -/
def okOr {α : Type} (x : Option α) (e : BuilderError) : Except BuilderError α :=
  match x with
  | some a => .ok a
  | none => .error e

/-- `if x.is_some() { return Err(e) }`. builder.rs:74-273. -/
def refuseSome {α : Type} (x : Option α) (e : BuilderError) : Except BuilderError Unit :=
  match x with
  | some _ => .error e
  | none => .ok ()

/-- The V1 branch (builder.rs:227-254). -/
def Builder.buildV1 (b : Builder) (ns : Namespace) (hash : Bytes) (ms ss : QuorumSet) (enc : NitroConfig) :
    Except BuilderError VersionedManifest := do
  refuseSome b.pivotEnv .v1DoesNotSupportPivotEnv
  refuseSome b.dns .v1DoesNotSupportDns
  let patch ← okOr b.patchSet .missingPatchSet
  return .v1
    { «namespace» := ns
      pivot := { hash := hash, restart := b.restartPolicy.getD .never, bridgeConfig := b.bridgeConfig.getD [],
                 debugMode := b.debugMode.getD false, args := b.pivotArgs.getD [] }
      manifestSet := ms, shareSet := ss, enclave := enc, patchSet := patch }

/-- The V2 branch (builder.rs:255-277). -/
def Builder.buildV2 (b : Builder) (ns : Namespace) (hash : Bytes) (ms ss : QuorumSet) (enc : NitroConfig) :
    Except BuilderError VersionedManifest := do
  refuseSome b.patchSet .v2DoesNotSupportPatchSet
  return .v2
    { version := .v2, «namespace» := ns
      pivot := { hash := hash, restart := b.restartPolicy.getD .never, bridgeConfig := b.bridgeConfig.getD [],
                 debugMode := b.debugMode.getD false, args := b.pivotArgs.getD [], env := b.pivotEnv.getD [] }
      manifestSet := ms, shareSet := ss, enclave := enc, dns := b.dns }

/-- `build` (builder.rs:204-279); the default version is V2 (manifest.rs:23-43). -/
def Builder.build (b : Builder) : Except BuilderError VersionedManifest := do
  let ns ← okOr b.namespaceOf .missingNamespace
  let hash ← okOr b.pivotHash .missingPivotHash
  let ms ← okOr b.manifestSet .missingManifestSet
  let ss ← okOr b.shareSet .missingShareSet
  let enc ← okOr b.enclave .missingEnclave
  match b.version.getD .v2 with
  | .v1 => b.buildV1 ns hash ms ss enc
  | .v2 => b.buildV2 ns hash ms ss enc

end Qos.Builder
