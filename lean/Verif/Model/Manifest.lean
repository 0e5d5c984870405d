import Verif.Model.Ip
import Verif.Model.Typed
import Verif.Model.Borsh
import Verif.Model.Env
/-!
# Manifests, envelopes and their encodings

Models the types of `/repo/src/qos_core/src/protocol/services/boot.rs`, `boot/manifest.rs` and
`boot/manifest/v2.rs` with their `serde` and Borsh derives.
-/
namespace Qos

/-! ## Types -/

/-- `NitroConfig` (boot.rs:55-77). -/
structure NitroConfig where
  pcr0 : Bytes
  pcr1 : Bytes
  pcr2 : Bytes
  pcr3 : Bytes
  awsRootCertificate : Bytes
  qosCommit : String
  deriving DecidableEq

/-- `RestartPolicy` (boot.rs:101-109). -/
inductive RestartPolicy where
  | never
  | always
  deriving DecidableEq

/-- `BridgeConfig` (boot.rs:141-167). -/
inductive BridgeConfig where
  | server (port : UInt16) (host : String)
  | client (port : UInt16) (host : Option String)
  deriving DecidableEq

/-- `PivotConfigV0` (boot.rs:230-242). -/
structure PivotConfigV0 where
  hash : Bytes
  restart : RestartPolicy
  args : List String
  deriving DecidableEq

/-- `PivotConfig` (boot.rs:199-218). -/
structure PivotConfig where
  hash : Bytes
  restart : RestartPolicy
  bridgeConfig : List BridgeConfig
  debugMode : Bool
  args : List String
  deriving DecidableEq

/-- `PivotConfigV2` (v2.rs:27-42). -/
structure PivotConfigV2 where
  hash : Bytes
  restart : RestartPolicy
  bridgeConfig : List BridgeConfig
  debugMode : Bool
  args : List String
  env : Env.Map
  deriving DecidableEq

/-- `QuorumMember` (boot.rs:279-290). -/
structure QuorumMember where
  aliasName : String
  pubKey : Bytes
  deriving DecidableEq

/-- `ManifestSet` and `ShareSet` (boot.rs:340-371): same fields, same encodings. -/
structure QuorumSet where
  threshold : UInt32
  members : List QuorumMember
  deriving DecidableEq

/-- `PatchSet` (boot.rs:411-418); a `MemberPubKey` (boot.rs:386-390) is its `pub_key`. -/
structure PatchSet where
  threshold : UInt32
  members : List Bytes
  deriving DecidableEq

/-- `Namespace` (boot.rs:431-445). -/
structure Namespace where
  name : String
  nonce : UInt32
  quorumKey : Bytes
  deriving DecidableEq

/-- `DnsConfig` (v2.rs:18-21). -/
structure DnsConfig where
  resolvers : List IpAddr
  deriving DecidableEq

/-- `ManifestVersion` (boot/manifest.rs:32-41). -/
inductive ManifestVersion where
  | v1
  | v2
  deriving DecidableEq

/-- `Manifest` (boot.rs:478-491), "V1". -/
structure Manifest where
  «namespace» : Namespace
  pivot : PivotConfig
  manifestSet : QuorumSet
  shareSet : QuorumSet
  enclave : NitroConfig
  patchSet : PatchSet
  deriving DecidableEq

/-- `ManifestV0` (boot.rs:508-521). -/
structure ManifestV0 where
  «namespace» : Namespace
  pivot : PivotConfigV0
  manifestSet : QuorumSet
  shareSet : QuorumSet
  enclave : NitroConfig
  patchSet : PatchSet
  deriving DecidableEq

/-- `ManifestV2` (v2.rs:45-65). -/
structure ManifestV2 where
  version : ManifestVersion
  «namespace» : Namespace
  pivot : PivotConfigV2
  manifestSet : QuorumSet
  shareSet : QuorumSet
  enclave : NitroConfig
  dns : Option DnsConfig
  deriving DecidableEq

/-- `Approval` (boot.rs:573-582). -/
structure Approval where
  signature : Bytes
  member : QuorumMember
  deriving DecidableEq

/-- `ManifestEnvelope`, `ManifestEnvelopeV0`, `ManifestEnvelopeV2` (boot.rs:618-646, v2.rs:90-97): the same
three fields around the respective manifest type. -/
structure EnvelopeOf (M : Type) where
  manifest : M
  manifestSetApprovals : List Approval
  shareSetApprovals : List Approval
  deriving DecidableEq

/-- `VersionedManifest` (boot/manifest.rs:74-81). -/
inductive VersionedManifest where
  | v2 (m : ManifestV2)
  | v1 (m : Manifest)
  | v0 (m : ManifestV0)
  deriving DecidableEq

/-- `VersionedManifestEnvelope` (boot/manifest.rs:292-301). -/
inductive Envelope where
  | v2 (e : EnvelopeOf ManifestV2)
  | v1 (e : EnvelopeOf Manifest)
  | v0 (e : EnvelopeOf ManifestV0)
  deriving DecidableEq

/-! ## Accessors -/

/-- `impl From<PivotConfigV0> for PivotConfig` (boot.rs:253-263). -/
def PivotConfigV0.upgrade (p : PivotConfigV0) : PivotConfig :=
  { hash := p.hash, restart := p.restart, args := p.args, debugMode := false, bridgeConfig := [] }

/-- `impl From<ManifestV0> for Manifest` (boot.rs:523-534). -/
def ManifestV0.upgrade (m : ManifestV0) : Manifest :=
  { «namespace» := m.namespace, pivot := m.pivot.upgrade, manifestSet := m.manifestSet,
    shareSet := m.shareSet, enclave := m.enclave, patchSet := m.patchSet }

namespace VersionedManifest

/-- `VersionedManifest::namespace` (boot/manifest.rs:140-147). -/
def namespaceOf : VersionedManifest → Namespace
  | .v2 m => m.namespace
  | .v1 m => m.namespace
  | .v0 m => m.namespace

/-- `VersionedManifest::manifest_set` (boot/manifest.rs:150-157). -/
def manifestSet : VersionedManifest → QuorumSet
  | .v2 m => m.manifestSet
  | .v1 m => m.manifestSet
  | .v0 m => m.manifestSet

/-- `VersionedManifest::share_set` (boot/manifest.rs:160-167). -/
def shareSet : VersionedManifest → QuorumSet
  | .v2 m => m.shareSet
  | .v1 m => m.shareSet
  | .v0 m => m.shareSet

/-- `VersionedManifest::enclave` (boot/manifest.rs:170-177). -/
def enclave : VersionedManifest → NitroConfig
  | .v2 m => m.enclave
  | .v1 m => m.enclave
  | .v0 m => m.enclave

/-- `VersionedManifest::pivot_hash` (boot/manifest.rs:180-187). -/
def pivotHash : VersionedManifest → Bytes
  | .v2 m => m.pivot.hash
  | .v1 m => m.pivot.hash
  | .v0 m => m.pivot.hash

/-- `VersionedManifest::restart` (boot/manifest.rs:190-197). -/
def restart : VersionedManifest → RestartPolicy
  | .v2 m => m.pivot.restart
  | .v1 m => m.pivot.restart
  | .v0 m => m.pivot.restart

/-- `VersionedManifest::args` (boot/manifest.rs:200-207). -/
def args : VersionedManifest → List String
  | .v2 m => m.pivot.args
  | .v1 m => m.pivot.args
  | .v0 m => m.pivot.args

/-- `VersionedManifest::bridge_config` (boot/manifest.rs:210-217). -/
def bridgeConfig : VersionedManifest → List BridgeConfig
  | .v2 m => m.pivot.bridgeConfig
  | .v1 m => m.pivot.bridgeConfig
  | .v0 _ => []

/-- `VersionedManifest::debug_mode` (boot/manifest.rs:220-227). -/
def debugMode : VersionedManifest → Bool
  | .v2 m => m.pivot.debugMode
  | .v1 m => m.pivot.debugMode
  | .v0 _ => false

/-- `VersionedManifest::dns_config` (boot/manifest.rs:230-236). -/
def dnsConfig : VersionedManifest → Option DnsConfig
  | .v2 m => m.dns
  | .v1 _ => none
  | .v0 _ => none

/-- `VersionedManifest::version_label` (boot/manifest.rs:238-244). -/
def versionLabel : VersionedManifest → String
  | .v2 _ => "v2"
  | .v1 _ => "v1"
  | .v0 _ => "v0"

end VersionedManifest

namespace Envelope

/-- `VersionedManifestEnvelope::manifest` (boot/manifest.rs:368-375). -/
def manifest : Envelope → VersionedManifest
  | .v2 e => .v2 e.manifest
  | .v1 e => .v1 e.manifest
  | .v0 e => .v0 e.manifest

/-- `manifest_set_approvals` (boot/manifest.rs:378-385). -/
def manifestSetApprovals : Envelope → List Approval
  | .v2 e => e.manifestSetApprovals
  | .v1 e => e.manifestSetApprovals
  | .v0 e => e.manifestSetApprovals

/-- `share_set_approvals` (boot/manifest.rs:388-395). -/
def shareSetApprovals : Envelope → List Approval
  | .v2 e => e.shareSetApprovals
  | .v1 e => e.shareSetApprovals
  | .v0 e => e.shareSetApprovals

/-- Append one share-set approval (services/provision.rs:94-104, per version). -/
def pushShareApproval (a : Approval) : Envelope → Envelope
  | .v2 e => .v2 { e with shareSetApprovals := e.shareSetApprovals ++ [a] }
  | .v1 e => .v1 { e with shareSetApprovals := e.shareSetApprovals ++ [a] }
  | .v0 e => .v0 { e with shareSetApprovals := e.shareSetApprovals ++ [a] }

end Envelope

/-! ## Borsh forms (derives on the V1/V0 types: fields in declaration order) -/
namespace Borsh

/-- `NitroConfig` Borsh. boot.rs:55-77. -/
def nitroConfig : Codec NitroConfig :=
  imap (fun x => ⟨x.1, x.2.1, x.2.2.1, x.2.2.2.1, x.2.2.2.2.1, x.2.2.2.2.2⟩)
    (fun n => (n.pcr0, n.pcr1, n.pcr2, n.pcr3, n.awsRootCertificate, n.qosCommit))
    (pair bytes (pair bytes (pair bytes (pair bytes (pair bytes string)))))

/-- `RestartPolicy` Borsh: tag 0 or 1. boot.rs:101-109. -/
def restartPolicy : Codec RestartPolicy :=
  imap (fun | .inl _ => .never | .inr _ => .always)
    (fun | .never => .inl () | .always => .inr ()) (sum unit unit)

/-- `BridgeConfig` Borsh. boot.rs:141-167. -/
def bridgeConfig : Codec BridgeConfig :=
  imap (fun | .inl (p, h) => .server p h | .inr (p, h) => .client p h)
    (fun | .server p h => .inl (p, h) | .client p h => .inr (p, h))
    (sum (pair u16 string) (pair u16 (option string)))

/-- `PivotConfigV0` Borsh. boot.rs:230-242. -/
def pivotConfigV0 : Codec PivotConfigV0 :=
  imap (fun x => ⟨x.1, x.2.1, x.2.2⟩) (fun p => (p.hash, p.restart, p.args))
    (pair (fixed 32) (pair restartPolicy (vec string)))

/-- `PivotConfig` Borsh. boot.rs:199-218. -/
def pivotConfig : Codec PivotConfig :=
  imap (fun x => ⟨x.1, x.2.1, x.2.2.1, x.2.2.2.1, x.2.2.2.2⟩)
    (fun p => (p.hash, p.restart, p.bridgeConfig, p.debugMode, p.args))
    (pair (fixed 32) (pair restartPolicy (pair (vec bridgeConfig) (pair bool (vec string)))))

/-- `QuorumMember` Borsh. boot.rs:279-290. -/
def quorumMember : Codec QuorumMember :=
  imap (fun x => ⟨x.1, x.2⟩) (fun m => (m.aliasName, m.pubKey)) (pair string bytes)

/-- `ManifestSet` / `ShareSet` Borsh. boot.rs:338-370. -/
def quorumSet : Codec QuorumSet :=
  imap (fun x => ⟨x.1, x.2⟩) (fun s => (s.threshold, s.members)) (pair u32 (vec quorumMember))

/-- `PatchSet` Borsh. boot.rs:383-419. -/
def patchSet : Codec PatchSet :=
  imap (fun x => ⟨x.1, x.2⟩) (fun s => (s.threshold, s.members)) (pair u32 (vec bytes))

/-- `Namespace` Borsh. boot.rs:430-446. -/
def «namespace» : Codec Namespace :=
  imap (fun x => ⟨x.1, x.2.1, x.2.2⟩) (fun n => (n.name, n.nonce, n.quorumKey))
    (pair string (pair u32 bytes))

/-- `Manifest` Borsh. boot.rs:476-492. -/
def manifest : Codec Manifest :=
  imap (fun x => ⟨x.1, x.2.1, x.2.2.1, x.2.2.2.1, x.2.2.2.2.1, x.2.2.2.2.2⟩)
    (fun m => (m.namespace, m.pivot, m.manifestSet, m.shareSet, m.enclave, m.patchSet))
    (pair «namespace» (pair pivotConfig (pair quorumSet (pair quorumSet (pair nitroConfig patchSet)))))

/-- `ManifestV0` Borsh. boot.rs:505-521. -/
def manifestV0 : Codec ManifestV0 :=
  imap (fun x => ⟨x.1, x.2.1, x.2.2.1, x.2.2.2.1, x.2.2.2.2.1, x.2.2.2.2.2⟩)
    (fun m => (m.namespace, m.pivot, m.manifestSet, m.shareSet, m.enclave, m.patchSet))
    (pair «namespace» (pair pivotConfigV0 (pair quorumSet (pair quorumSet (pair nitroConfig patchSet)))))

/-- `Approval` Borsh. boot.rs:573-582. -/
def approval : Codec Approval :=
  imap (fun x => ⟨x.1, x.2⟩) (fun a => (a.signature, a.member)) (pair bytes quorumMember)

/-- Envelope Borsh around a manifest codec. boot.rs:616-649. -/
def envelopeOf {M : Type} (c : Codec M) : Codec (EnvelopeOf M) :=
  imap (fun x => ⟨x.1, x.2.1, x.2.2⟩)
    (fun e => (e.manifest, e.manifestSetApprovals, e.shareSetApprovals))
    (pair c (pair (vec approval) (vec approval)))

/-- `decode_borsh` (boot.rs:27-44): both parse is an error ("ambiguous"), exactly one wins. -/
def decodeBorsh {α β γ : Type} (c : Codec α) (d : Codec β) (current : α → γ) (legacy : β → γ)
    (buf : Bytes) : Option γ :=
  match tryFromSlice c buf, tryFromSlice d buf with
  | some _, some _ => none
  | some a, none => some (current a)
  | none, some b => some (legacy b)
  | none, none => none

/-- `BorshDeserialize for VersionedManifest` on a whole buffer (boot/manifest.rs:118-126). -/
def decodeManifest (buf : Bytes) : Option VersionedManifest := decodeBorsh manifest manifestV0 .v1 .v0 buf

/-- `BorshDeserialize for VersionedManifestEnvelope` on a whole buffer (boot/manifest.rs:356-364). -/
def decodeEnvelope (buf : Bytes) : Option Envelope :=
  decodeBorsh (envelopeOf manifest) (envelopeOf manifestV0) .v1 .v0 buf

/-- `BorshSerialize for VersionedManifest` (boot/manifest.rs:103-117): V2 is an error. -/
def encodeManifest : VersionedManifest → Option Bytes
  | .v2 _ => none
  | .v1 m => some (manifest.enc m)
  | .v0 m => some (manifestV0.enc m)

/-- `BorshSerialize for VersionedManifestEnvelope` (boot/manifest.rs:341-354): V2 is an error. -/
def encodeEnvelope : Envelope → Option Bytes
  | .v2 _ => none
  | .v1 e => some ((envelopeOf manifest).enc e)
  | .v0 e => some ((envelopeOf manifestV0).enc e)

end Borsh

/-! ## JSON forms (`serde` derives) -/
namespace JCodec

/-- `u32` through `string_or_numeric`. The numeric fields of boot.rs:141-446, through qos_json/src/lib.rs:171-317. -/
def u32 : JCodec UInt32 := imap UInt32.ofNat UInt32.toNat (stringOrNumeric (2 ^ 32))
/-- `u16` through `string_or_numeric`. The numeric fields of boot.rs:141-446, through qos_json/src/lib.rs:171-317. -/
def u16 : JCodec UInt16 := imap UInt16.ofNat UInt16.toNat (stringOrNumeric (2 ^ 16))

/-- A unit-only enum, externally tagged: the variant name, or an object with the name bound to null.
External crate `serde_derive`; boot.rs:101-109, boot/manifest.rs:32-41. -/
def unitEnum {α : Type} (all : List α) (name : α → String) : JCodec α where
  enc a := .str (name a)
  dec
    | .str s => all.find? fun a => name a == s
    | .obj [(s, .null)] => all.find? fun a => name a == s
    | _ => none
  ok a := a ∈ all
  depth := 0

/-- `RestartPolicy` names (no `rename_all`). boot.rs:101-109. -/
def restartName : RestartPolicy → String
  | .never => "Never"
  | .always => "Always"

/-- `RestartPolicy` JSON. boot.rs:101-109. -/
def restartPolicy : JCodec RestartPolicy := unitEnum [.never, .always] restartName

/-- `ManifestVersion` names (`rename_all = "camelCase"`). boot/manifest.rs:32-41. -/
def versionName : ManifestVersion → String
  | .v1 => "v1"
  | .v2 => "v2"

/-- `deserialize_v2_version` (v2.rs:70-84): only `v2` is accepted. -/
def v2Version : JCodec ManifestVersion where
  enc v := .str (versionName v)
  dec v := match (unitEnum [.v1, .v2] versionName).dec v with
    | some .v2 => some .v2
    | _ => none
  ok v := v = .v2
  depth := 0

/-- Split an internally tagged enum's content: the tag and what is left (serde's
`TaggedContentVisitor`). External crate `serde_derive`; boot.rs:141-167, env.rs:210-219. -/
def splitTag (tag : String) : Json → Option (Json × Json)
  | .obj kvs =>
    if (kvs.map Prod.fst).count tag = 1 then
      match Json.lookup tag kvs with
      | some t => some (t, .obj (kvs.filter fun kv => kv.1 ≠ tag))
      | none => none
    else none
  | .arr (t :: vs) => some (t, .arr vs)
  | _ => none

/-- Two-variant internally tagged enum of structs (`#[serde(tag = …)]`).
External crate `serde_derive`; boot.rs:141-167, env.rs:210-219. -/
def tagged2 {α β : Type} (tag nameA : String) (fa : Fields α) (nameB : String) (fb : Fields β) :
    JCodec (α ⊕ β) where
  enc
    | .inl a => .obj ((tag, .str nameA) :: fa.enc a)
    | .inr b => .obj ((tag, .str nameB) :: fb.enc b)
  dec v := match splitTag tag v with
    | some (.str s, rest) =>
      if s = nameA then ((struct false fa).dec rest).map .inl
      else if s = nameB then ((struct false fb).dec rest).map .inr
      else none
    | _ => none
  ok
    | .inl a => fa.ok a
    | .inr b => fb.ok b
  depth := max fa.depth fb.depth + 1

/-- `BridgeConfig` JSON (boot.rs:141-167). -/
def bridgeConfig : JCodec BridgeConfig :=
  imap (fun | .inl (p, h) => .server p h | .inr (p, h) => .client p h)
    (fun | .server p h => .inl (p, h) | .client p h => .inr (p, h))
    (tagged2 "type" "server" (.both (.req "port" u16) (.req "host" string))
      "client" (.both (.req "port" u16) (.opt "host" string)))

/-- `NitroConfig` JSON. boot.rs:55-77. -/
def nitroConfig : JCodec NitroConfig :=
  struct false <| .imap (fun x => ⟨x.1, x.2.1, x.2.2.1, x.2.2.2.1, x.2.2.2.2.1, x.2.2.2.2.2⟩)
    (fun n => (n.pcr0, n.pcr1, n.pcr2, n.pcr3, n.awsRootCertificate, n.qosCommit))
    (.both (.req "pcr0" hexVec) (.both (.req "pcr1" hexVec) (.both (.req "pcr2" hexVec)
      (.both (.req "pcr3" hexVec) (.both (.req "awsRootCertificate" hexVec) (.req "qosCommit" string))))))

/-- `PivotConfigV0` JSON. boot.rs:230-242. -/
def pivotConfigV0 : JCodec PivotConfigV0 :=
  struct false <| .imap (fun x => ⟨x.1, x.2.1, x.2.2⟩) (fun p => (p.hash, p.restart, p.args))
    (.both (.req "hash" (hexArray 32)) (.both (.req "restart" restartPolicy) (.req "args" (vec string))))

/-- `PivotConfig` JSON. boot.rs:199-218. -/
def pivotConfig : JCodec PivotConfig :=
  struct false <| .imap (fun x => ⟨x.1, x.2.1, x.2.2.1, x.2.2.2.1, x.2.2.2.2⟩)
    (fun p => (p.hash, p.restart, p.bridgeConfig, p.debugMode, p.args))
    (.both (.req "hash" (hexArray 32)) (.both (.req "restart" restartPolicy)
      (.both (.req "bridgeConfig" (vec bridgeConfig)) (.both (.req "debugMode" bool)
        (.req "args" (vec string))))))

/-- `PivotEnvValue` JSON (env.rs:211-219): externally tagged, one struct variant. -/
def envValue : JCodec String where
  enc v := .obj [("plain", .obj [("value", .str v)])]
  dec
    | .obj [("plain", v)] => (struct false (.req "value" string)).dec v
    | _ => none
  ok _ := True
  depth := 2

/-- Decode the members of an environment object, validation left to `Env.decode`. env.rs:272-348. -/
def envPairs : List (String × Json) → Option (List (String × String))
  | [] => some []
  | (k, v) :: r => match envValue.dec v, envPairs r with
    | some s, some ps => some ((k, s) :: ps)
    | _, _ => none

/-- `PivotEnv` JSON (env.rs:263-274, 338-347): an object of names, then `TryFrom<BTreeMap>`. -/
def pivotEnv : JCodec Env.Map where
  enc m := .obj (m.map fun kv => (kv.1, envValue.enc kv.2))
  dec
    | .obj kvs => match envPairs kvs with
      | some ps => Env.decode ps
      | none => none
    | _ => none
  ok m := Env.decode m = some m
  depth := 3

/-- `PivotConfigV2` JSON, `deny_unknown_fields`. v2.rs:24-42. -/
def pivotConfigV2 : JCodec PivotConfigV2 :=
  struct true <| .imap (fun x => ⟨x.1, x.2.1, x.2.2.1, x.2.2.2.1, x.2.2.2.2.1, x.2.2.2.2.2⟩)
    (fun p => (p.hash, p.restart, p.bridgeConfig, p.debugMode, p.args, p.env))
    (.both (.req "hash" (hexArray 32)) (.both (.req "restart" restartPolicy)
      (.both (.req "bridgeConfig" (vec bridgeConfig)) (.both (.req "debugMode" bool)
        (.both (.req "args" (vec string)) (.orEmpty "env" pivotEnv))))))

/-- `QuorumMember` JSON. boot.rs:279-290. -/
def quorumMember : JCodec QuorumMember :=
  struct false <| .imap (fun x => ⟨x.1, x.2⟩) (fun m => (m.aliasName, m.pubKey))
    (.both (.req "alias" string) (.req "pubKey" hexVec))

/-- `ManifestSet` / `ShareSet` JSON. boot.rs:338-370. -/
def quorumSet : JCodec QuorumSet :=
  struct false <| .imap (fun x => ⟨x.1, x.2⟩) (fun s => (s.threshold, s.members))
    (.both (.req "threshold" u32) (.req "members" (vec quorumMember)))

/-- `PatchSet` JSON (members are `{"pubKey": hex}`). boot.rs:383-419. -/
def patchSet : JCodec PatchSet :=
  struct false <| .imap (fun x => ⟨x.1, x.2⟩) (fun s => (s.threshold, s.members))
    (.both (.req "threshold" u32) (.req "members" (vec (struct false (.req "pubKey" hexVec)))))

/-- `Namespace` JSON. boot.rs:430-446. -/
def «namespace» : JCodec Namespace :=
  struct false <| .imap (fun x => ⟨x.1, x.2.1, x.2.2⟩) (fun n => (n.name, n.nonce, n.quorumKey))
    (.both (.req "name" string) (.both (.req "nonce" u32) (.req "quorumKey" hexVec)))

/-- `IpAddr` JSON: its text. External crate `serde`, behind the derive of v2.rs:16-21. -/
def ipAddr : JCodec IpAddr where
  enc a := .str (Ip.display a)
  dec
    | .str s => Ip.parse s
    | _ => none
  ok _ := True
  depth := 0

/-- `DnsConfig` JSON, `deny_unknown_fields`. v2.rs:16-21. -/
def dnsConfig : JCodec DnsConfig :=
  struct true <| .imap (fun x => ⟨x⟩) (fun d => d.resolvers) (.req "resolvers" (vec ipAddr))

/-- `Manifest` JSON. boot.rs:476-492. -/
def manifest : JCodec Manifest :=
  struct false <| .imap (fun x => ⟨x.1, x.2.1, x.2.2.1, x.2.2.2.1, x.2.2.2.2.1, x.2.2.2.2.2⟩)
    (fun m => (m.namespace, m.pivot, m.manifestSet, m.shareSet, m.enclave, m.patchSet))
    (.both (.req "namespace" «namespace») (.both (.req "pivot" pivotConfig)
      (.both (.req "manifestSet" quorumSet) (.both (.req "shareSet" quorumSet)
        (.both (.req "enclave" nitroConfig) (.req "patchSet" patchSet))))))

/-- `ManifestV0` JSON. boot.rs:505-521. -/
def manifestV0 : JCodec ManifestV0 :=
  struct false <| .imap (fun x => ⟨x.1, x.2.1, x.2.2.1, x.2.2.2.1, x.2.2.2.2.1, x.2.2.2.2.2⟩)
    (fun m => (m.namespace, m.pivot, m.manifestSet, m.shareSet, m.enclave, m.patchSet))
    (.both (.req "namespace" «namespace») (.both (.req "pivot" pivotConfigV0)
      (.both (.req "manifestSet" quorumSet) (.both (.req "shareSet" quorumSet)
        (.both (.req "enclave" nitroConfig) (.req "patchSet" patchSet))))))

/-- `ManifestV2` JSON, `deny_unknown_fields`. v2.rs:45-65. -/
def manifestV2 : JCodec ManifestV2 :=
  struct true <| .imap
    (fun x => ⟨x.1, x.2.1, x.2.2.1, x.2.2.2.1, x.2.2.2.2.1, x.2.2.2.2.2.1, x.2.2.2.2.2.2⟩)
    (fun m => (m.version, m.namespace, m.pivot, m.manifestSet, m.shareSet, m.enclave, m.dns))
    (.both (.req "version" v2Version) (.both (.req "namespace" «namespace»)
      (.both (.req "pivot" pivotConfigV2) (.both (.req "manifestSet" quorumSet)
        (.both (.req "shareSet" quorumSet) (.both (.req "enclave" nitroConfig)
          (.opt "dns" dnsConfig)))))))

/-- `Approval` JSON. boot.rs:573-582. -/
def approval : JCodec Approval :=
  struct false <| .imap (fun x => ⟨x.1, x.2⟩) (fun a => (a.signature, a.member))
    (.both (.req "signature" hexVec) (.req "member" quorumMember))

/-- Fields of an envelope under the given names. boot.rs:616-649. -/
def envelopeFields {M : Type} (c : JCodec M) (kMan kMsa kSsa : String) : Fields (EnvelopeOf M) :=
  .imap (fun x => ⟨x.1, x.2.1, x.2.2⟩) (fun e => (e.manifest, e.manifestSetApprovals, e.shareSetApprovals))
    (.both (.req kMan c) (.both (.req kMsa (vec approval)) (.req kSsa (vec approval))))

/-- `ManifestEnvelope` JSON (camelCase). boot.rs:616-649. -/
def envelopeV1 : JCodec (EnvelopeOf Manifest) :=
  struct false (envelopeFields manifest "manifest" "manifestSetApprovals" "shareSetApprovals")

/-- `ManifestEnvelopeV0` JSON: no `rename_all` (boot.rs:626-646), so the Rust field names. -/
def envelopeV0 : JCodec (EnvelopeOf ManifestV0) :=
  struct false (envelopeFields manifestV0 "manifest" "manifest_set_approvals" "share_set_approvals")

/-- `ManifestEnvelopeV2` JSON, `deny_unknown_fields`. v2.rs:87-96. -/
def envelopeV2 : JCodec (EnvelopeOf ManifestV2) :=
  struct true (envelopeFields manifestV2 "manifest" "manifestSetApprovals" "shareSetApprovals")

end JCodec

/-! ## Reading and storing -/

/-- `serde_json::from_slice` into a typed value. External crate `serde_json`; boot/manifest.rs:259-272. -/
def fromJsonSlice {α : Type} (c : JCodec α) (buf : Bytes) : Option α :=
  match Json.parse buf with
  | some v => c.dec v
  | none => none

/-- `declares_a_version` (boot/manifest.rs:55-60). -/
def declaresVersion (buf : Bytes) : Bool :=
  match Json.parse buf with
  | some v => (v.get "version").isSome
  | none => false

/-- `enveloped_manifest_declares_a_version` (boot/manifest.rs:63-68). -/
def envelopeDeclaresVersion (buf : Bytes) : Bool :=
  match Json.parse buf with
  | some v => match v.get "manifest" with
    | some m => (m.get "version").isSome
    | none => false
  | none => false

/-- `VersionedManifest::try_from_slice_compat` (boot/manifest.rs:259-272). -/
def VersionedManifest.tryFromSliceCompat (buf : Bytes) : Option VersionedManifest :=
  if declaresVersion buf then (fromJsonSlice JCodec.manifestV2 buf).map .v2
  else match fromJsonSlice JCodec.manifest buf with
    | some m => some (.v1 m)
    | none => match fromJsonSlice JCodec.manifestV0 buf with
      | some m => some (.v0 m)
      | none => Borsh.decodeManifest buf

/-- `VersionedManifest::to_storage_vec` (boot/manifest.rs:279-288). -/
def VersionedManifest.toStorageVec : VersionedManifest → Option Bytes
  | .v2 m => Json.canonBytes (JCodec.manifestV2.enc m)
  | .v1 m => some (Json.writeBytes (JCodec.manifest.enc m))
  | .v0 m => some (Json.writeBytes (JCodec.manifestV0.enc m))

/-- `VersionedManifestEnvelope::try_from_slice_compat` (boot/manifest.rs:479-494). -/
def Envelope.tryFromSliceCompat (buf : Bytes) : Option Envelope :=
  if envelopeDeclaresVersion buf then (fromJsonSlice JCodec.envelopeV2 buf).map .v2
  else match fromJsonSlice JCodec.envelopeV1 buf with
    | some e => some (.v1 e)
    | none => match fromJsonSlice JCodec.envelopeV0 buf with
      | some e => some (.v0 e)
      | none => Borsh.decodeEnvelope buf

/-- `VersionedManifestEnvelope::to_storage_vec` (boot/manifest.rs:500-509). -/
def Envelope.toStorageVec : Envelope → Option Bytes
  | .v2 e => Json.canonBytes (JCodec.envelopeV2.enc e)
  | .v1 e => some (Json.writeBytes (JCodec.envelopeV1.enc e))
  | .v0 e => some (Json.writeBytes (JCodec.envelopeV0.enc e))

/-- `Manifest::try_from_slice_compat` (boot.rs:550-561). -/
def Manifest.tryFromSliceCompat (buf : Bytes) : Option Manifest :=
  match fromJsonSlice JCodec.manifestV0 buf with
  | some m => some m.upgrade
  | none => Borsh.decodeBorsh Borsh.manifest Borsh.manifestV0 id ManifestV0.upgrade buf

/-- `ManifestEnvelope::try_from_slice_compat` (boot.rs:712-722). -/
def ManifestEnvelope.tryFromSliceCompat (buf : Bytes) : Option (EnvelopeOf Manifest) :=
  Borsh.decodeBorsh (Borsh.envelopeOf Borsh.manifest) (Borsh.envelopeOf Borsh.manifestV0) id
    (fun e => { manifest := e.manifest.upgrade, manifestSetApprovals := e.manifestSetApprovals,
                shareSetApprovals := e.shareSetApprovals }) buf

/-- Untagged decode of a manifest envelope inside a JSON request (`#[serde(untagged)]`,
boot/manifest.rs:292-303): V2, then V1, then V0, no look at a declared version. -/
def Envelope.decUntagged (v : Json) : Option Envelope :=
  match JCodec.envelopeV2.dec v with
  | some e => some (.v2 e)
  | none => match JCodec.envelopeV1.dec v with
    | some e => some (.v1 e)
    | none => match JCodec.envelopeV0.dec v with
      | some e => some (.v0 e)
      | none => none

/-- The JSON tree of an envelope (untagged: the inner value). `#[serde(untagged)]`, boot/manifest.rs:292-301. -/
def Envelope.encUntagged : Envelope → Json
  | .v2 e => JCodec.envelopeV2.enc e
  | .v1 e => JCodec.envelopeV1.enc e
  | .v0 e => JCodec.envelopeV0.enc e

/-- The envelope is one the Rust types can hold and whose JSON can be read back.
The value ranges of the types of boot.rs:55-649 and v2.rs:16-96. -/
def Envelope.Ok : Envelope → Prop
  | .v2 e => JCodec.envelopeV2.ok e
  | .v1 e => JCodec.envelopeV1.ok e
  | .v0 e => JCodec.envelopeV0.ok e

/-- Same for a manifest. The value ranges of the types of boot.rs:55-649 and v2.rs:16-96. -/
def VersionedManifest.Ok : VersionedManifest → Prop
  | .v2 m => JCodec.manifestV2.ok m
  | .v1 m => JCodec.manifest.ok m
  | .v0 m => JCodec.manifestV0.ok m

/-- The bytes whose SHA-256 is the manifest hash (boot/manifest.rs:130-136: canonical JSON for V2, Borsh
for V1 and V0). -/
def VersionedManifest.hashInput : VersionedManifest → Option Bytes
  | .v2 m => Json.canonBytes (JCodec.manifestV2.enc m)
  | .v1 m => some (Borsh.manifest.enc m)
  | .v0 m => some (Borsh.manifestV0.enc m)

/-- Lengths fit the Borsh form too (V1/V0 only). The value ranges of the types of boot.rs:55-649 and v2.rs:16-96. -/
def VersionedManifest.Fits : VersionedManifest → Prop
  | .v2 m => JCodec.manifestV2.ok m
  | .v1 m => Borsh.manifest.ok m
  | .v0 m => Borsh.manifestV0.ok m

end Qos
