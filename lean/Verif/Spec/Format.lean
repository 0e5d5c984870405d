import Verif.Model.Manifest
import Verif.Spec.HostCli
import Verif.Spec.Ip
import Verif.Props.Env
import Verif.Props.Hex
import Mathlib.Data.List.Forall2
/-!
# The manifest documents, field by field

What a JSON document says about a manifest, which JSON document a manifest is written as, and the bytes of the Borsh form:
written out with the literal member names, orders and widths, independent of the codecs of the model.
-/
namespace Qos.Format

/-! ## Reading JSON -/

/-- `field` gives the members of a document with the given names: the document is an object in which each of the names occurs
at most once – and, if `closed`, no other name –, or an array of at most that many elements, in the order of the names. -/
def Record (closed : Bool) (names : List String) (v : Json) (field : String → Option Json) : Prop :=
  (∃ members, v = .obj members ∧ (∀ n ∈ names, (members.map Prod.fst).count n ≤ 1) ∧
    (closed = true → ∀ kv ∈ members, kv.1 ∈ names) ∧ ∀ n ∈ names, ∀ x, field n = some x ↔ (n, x) ∈ members) ∨
  ∃ items, v = .arr items ∧ items.length ≤ names.length ∧ ∀ (i : Nat) n, names[i]? = some n → field n = items[i]?

/-- The member is there and says so. -/
def Has (field : String → Option Json) (name : String) (P : Json → Prop) : Prop := ∃ x, field name = some x ∧ P x

/-- A text. -/
def IsText (v : Json) (s : String) : Prop := v = .str s

/-- A truth value. -/
def IsFlag (v : Json) (b : Bool) : Prop := v = .bool b

/-- A number, also as a text. -/
def IsNumber (v : Json) (n : Nat) : Prop := v = .int n ∨ ∃ s, v = .str s ∧ HostCli.Number s n

/-- Bytes in hexadecimal digits, also after `0x`. -/
def IsHex (v : Json) (b : Bytes) : Prop :=
  ∃ s body, v = .str s ∧ Hex.Text body b ∧ (utf8 s = ascii "0x" ++ body ∨ utf8 s = body) ∧ b.length < 128 * 1024 * 1024

/-- A list. -/
def IsList {α : Type} (P : Json → α → Prop) (v : Json) (l : List α) : Prop := ∃ items, v = .arr items ∧ List.Forall₂ P items l

/-- A bare name of an enumeration. -/
def IsName (v : Json) (name : String) : Prop := v = .str name ∨ v = .obj [(name, .null)]

/-- The restart policy. -/
def RestartDoc (v : Json) : RestartPolicy → Prop
  | .never => IsName v "Never"
  | .always => IsName v "Always"

/-- The PCRs and the certificate. -/
def NitroDoc (v : Json) (n : NitroConfig) : Prop :=
  ∃ field, Record false ["pcr0", "pcr1", "pcr2", "pcr3", "awsRootCertificate", "qosCommit"] v field ∧
    Has field "pcr0" (IsHex · n.pcr0) ∧ Has field "pcr1" (IsHex · n.pcr1) ∧ Has field "pcr2" (IsHex · n.pcr2) ∧
    Has field "pcr3" (IsHex · n.pcr3) ∧ Has field "awsRootCertificate" (IsHex · n.awsRootCertificate) ∧
    Has field "qosCommit" (IsText · n.qosCommit)

/-- One bridge. -/
def BridgeDoc (v : Json) : BridgeConfig → Prop
  | .server port host => ∃ field, Record false ["type", "port", "host"] v field ∧
      Has field "type" (IsText · "server") ∧ Has field "port" (IsNumber · port.toNat) ∧ Has field "host" (IsText · host)
  | .client port host => ∃ field, Record false ["type", "port", "host"] v field ∧
      Has field "type" (IsText · "client") ∧ Has field "port" (IsNumber · port.toNat) ∧
      ((host = none ∧ (field "host" = none ∨ field "host" = some .null)) ∨
        ∃ h, host = some h ∧ Has field "host" (IsText · h))

/-- A SHA-256 digest. -/
def IsDigest (v : Json) (b : Bytes) : Prop := IsHex v b ∧ b.length = 32

/-- The pivot of a V0 manifest. -/
def PivotDocV0 (v : Json) (p : PivotConfigV0) : Prop :=
  ∃ field, Record false ["hash", "restart", "args"] v field ∧
    Has field "hash" (IsDigest · p.hash) ∧ Has field "restart" (RestartDoc · p.restart) ∧
    Has field "args" (IsList IsText · p.args)

/-- The pivot of a V1 manifest. -/
def PivotDocV1 (v : Json) (p : PivotConfig) : Prop :=
  ∃ field, Record false ["hash", "restart", "bridgeConfig", "debugMode", "args"] v field ∧
    Has field "hash" (IsDigest · p.hash) ∧ Has field "restart" (RestartDoc · p.restart) ∧
    Has field "bridgeConfig" (IsList BridgeDoc · p.bridgeConfig) ∧ Has field "debugMode" (IsFlag · p.debugMode) ∧
    Has field "args" (IsList IsText · p.args)

/-- The value of an environment variable. -/
def EnvValueDoc (v : Json) (value : String) : Prop :=
  ∃ inner field, v = .obj [("plain", inner)] ∧ Record false ["value"] inner field ∧ Has field "value" (IsText · value)

/-- The environment: names in order, each with the last value given for it, all valid, at most 512. -/
def EnvDoc (v : Json) (m : Env.Map) : Prop :=
  ∃ members given, v = .obj members ∧
    List.Forall₂ (fun kv g => kv.1 = g.1 ∧ EnvValueDoc kv.2 g.2) members (given : List (String × String)) ∧
    (∀ g ∈ given, Env.ValidName g.1 ∧ Env.ValidValue g.2) ∧ m.length ≤ 512 ∧ m.Pairwise (fun a b => a.1 < b.1) ∧
    ∀ name value, (name, value) ∈ m ↔ ∃ before after, given = before ++ (name, value) :: after ∧ ∀ g ∈ after, g.1 ≠ name

/-- The pivot of a V2 manifest. -/
def PivotDocV2 (v : Json) (p : PivotConfigV2) : Prop :=
  ∃ field, Record true ["hash", "restart", "bridgeConfig", "debugMode", "args", "env"] v field ∧
    Has field "hash" (IsDigest · p.hash) ∧ Has field "restart" (RestartDoc · p.restart) ∧
    Has field "bridgeConfig" (IsList BridgeDoc · p.bridgeConfig) ∧ Has field "debugMode" (IsFlag · p.debugMode) ∧
    Has field "args" (IsList IsText · p.args) ∧ ((field "env" = none ∧ p.env = []) ∨ Has field "env" (EnvDoc · p.env))

/-- A member of a set. -/
def MemberDoc (v : Json) (m : QuorumMember) : Prop :=
  ∃ field, Record false ["alias", "pubKey"] v field ∧ Has field "alias" (IsText · m.aliasName) ∧
    Has field "pubKey" (IsHex · m.pubKey)

/-- A manifest set or share set. -/
def SetDoc (v : Json) (s : QuorumSet) : Prop :=
  ∃ field, Record false ["threshold", "members"] v field ∧ Has field "threshold" (IsNumber · s.threshold.toNat) ∧
    Has field "members" (IsList MemberDoc · s.members)

/-- A public key of the patch set. -/
def PatchMemberDoc (v : Json) (key : Bytes) : Prop :=
  ∃ field, Record false ["pubKey"] v field ∧ Has field "pubKey" (IsHex · key)

/-- A patch set. -/
def PatchSetDoc (v : Json) (s : PatchSet) : Prop :=
  ∃ field, Record false ["threshold", "members"] v field ∧ Has field "threshold" (IsNumber · s.threshold.toNat) ∧
    Has field "members" (IsList PatchMemberDoc · s.members)

/-- A namespace. -/
def NamespaceDoc (v : Json) (n : Namespace) : Prop :=
  ∃ field, Record false ["name", "nonce", "quorumKey"] v field ∧ Has field "name" (IsText · n.name) ∧
    Has field "nonce" (IsNumber · n.nonce.toNat) ∧ Has field "quorumKey" (IsHex · n.quorumKey)

/-- An IP address. -/
def IpDoc (v : Json) (a : IpAddr) : Prop := ∃ s, v = .str s ∧ Ip.Denotes s.toList a

/-- The resolvers. -/
def DnsDoc (v : Json) (d : DnsConfig) : Prop :=
  ∃ field, Record true ["resolvers"] v field ∧ Has field "resolvers" (IsList IpDoc · d.resolvers)

/-- A V1 manifest. -/
def ManifestDocV1 (v : Json) (m : Manifest) : Prop :=
  ∃ field, Record false ["namespace", "pivot", "manifestSet", "shareSet", "enclave", "patchSet"] v field ∧
    Has field "namespace" (NamespaceDoc · m.namespace) ∧ Has field "pivot" (PivotDocV1 · m.pivot) ∧
    Has field "manifestSet" (SetDoc · m.manifestSet) ∧ Has field "shareSet" (SetDoc · m.shareSet) ∧
    Has field "enclave" (NitroDoc · m.enclave) ∧ Has field "patchSet" (PatchSetDoc · m.patchSet)

/-- A V0 manifest. -/
def ManifestDocV0 (v : Json) (m : ManifestV0) : Prop :=
  ∃ field, Record false ["namespace", "pivot", "manifestSet", "shareSet", "enclave", "patchSet"] v field ∧
    Has field "namespace" (NamespaceDoc · m.namespace) ∧ Has field "pivot" (PivotDocV0 · m.pivot) ∧
    Has field "manifestSet" (SetDoc · m.manifestSet) ∧ Has field "shareSet" (SetDoc · m.shareSet) ∧
    Has field "enclave" (NitroDoc · m.enclave) ∧ Has field "patchSet" (PatchSetDoc · m.patchSet)

/-- A V2 manifest: it says `v2`, and nothing that is not listed here. -/
def ManifestDocV2 (v : Json) (m : ManifestV2) : Prop :=
  m.version = .v2 ∧
  ∃ field, Record true ["version", "namespace", "pivot", "manifestSet", "shareSet", "enclave", "dns"] v field ∧
    Has field "version" (IsName · "v2") ∧
    Has field "namespace" (NamespaceDoc · m.namespace) ∧ Has field "pivot" (PivotDocV2 · m.pivot) ∧
    Has field "manifestSet" (SetDoc · m.manifestSet) ∧ Has field "shareSet" (SetDoc · m.shareSet) ∧
    Has field "enclave" (NitroDoc · m.enclave) ∧
    ((m.dns = none ∧ (field "dns" = none ∨ field "dns" = some .null)) ∨ ∃ d, m.dns = some d ∧ Has field "dns" (DnsDoc · d))

/-- An approval. -/
def ApprovalDoc (v : Json) (a : Approval) : Prop :=
  ∃ field, Record false ["signature", "member"] v field ∧ Has field "signature" (IsHex · a.signature) ∧
    Has field "member" (MemberDoc · a.member)

/-- A V1 envelope. -/
def EnvelopeDocV1 (v : Json) (e : EnvelopeOf Manifest) : Prop :=
  ∃ field, Record false ["manifest", "manifestSetApprovals", "shareSetApprovals"] v field ∧
    Has field "manifest" (ManifestDocV1 · e.manifest) ∧
    Has field "manifestSetApprovals" (IsList ApprovalDoc · e.manifestSetApprovals) ∧
    Has field "shareSetApprovals" (IsList ApprovalDoc · e.shareSetApprovals)

/-- A V0 envelope: two of its names are in snake case. -/
def EnvelopeDocV0 (v : Json) (e : EnvelopeOf ManifestV0) : Prop :=
  ∃ field, Record false ["manifest", "manifest_set_approvals", "share_set_approvals"] v field ∧
    Has field "manifest" (ManifestDocV0 · e.manifest) ∧
    Has field "manifest_set_approvals" (IsList ApprovalDoc · e.manifestSetApprovals) ∧
    Has field "share_set_approvals" (IsList ApprovalDoc · e.shareSetApprovals)

/-- A V2 envelope. -/
def EnvelopeDocV2 (v : Json) (e : EnvelopeOf ManifestV2) : Prop :=
  ∃ field, Record true ["manifest", "manifestSetApprovals", "shareSetApprovals"] v field ∧
    Has field "manifest" (ManifestDocV2 · e.manifest) ∧
    Has field "manifestSetApprovals" (IsList ApprovalDoc · e.manifestSetApprovals) ∧
    Has field "shareSetApprovals" (IsList ApprovalDoc · e.shareSetApprovals)

/-! ## Writing JSON -/

/-- One lower-case hexadecimal digit. -/
def digit (n : Nat) : Char := ("0123456789abcdef".toList[n]?).getD '?'

/-- Bytes in lower-case hexadecimal digits, high digit first. -/
def hex (b : Bytes) : Json := .str (String.ofList (b.flatMap fun x => [digit (x.toNat / 16), digit (x.toNat % 16)]))

/-- A list. -/
def list {α : Type} (f : α → Json) (l : List α) : Json := .arr (l.map f)

/-- The restart policy. -/
def restartJson : RestartPolicy → Json
  | .never => .str "Never"
  | .always => .str "Always"

/-- The PCRs and the certificate. -/
def nitroJson (n : NitroConfig) : Json :=
  .obj [("pcr0", hex n.pcr0), ("pcr1", hex n.pcr1), ("pcr2", hex n.pcr2), ("pcr3", hex n.pcr3),
    ("awsRootCertificate", hex n.awsRootCertificate), ("qosCommit", .str n.qosCommit)]

/-- One bridge. -/
def bridgeJson : BridgeConfig → Json
  | .server port host => .obj [("type", .str "server"), ("port", .int port.toNat), ("host", .str host)]
  | .client port none => .obj [("type", .str "client"), ("port", .int port.toNat)]
  | .client port (some host) => .obj [("type", .str "client"), ("port", .int port.toNat), ("host", .str host)]

/-- The pivot of a V0 manifest. -/
def pivotJsonV0 (p : PivotConfigV0) : Json :=
  .obj [("hash", hex p.hash), ("restart", restartJson p.restart), ("args", list .str p.args)]

/-- The pivot of a V1 manifest. -/
def pivotJsonV1 (p : PivotConfig) : Json :=
  .obj [("hash", hex p.hash), ("restart", restartJson p.restart), ("bridgeConfig", list bridgeJson p.bridgeConfig),
    ("debugMode", .bool p.debugMode), ("args", list .str p.args)]

/-- The environment. -/
def envJson (m : Env.Map) : Json := .obj (m.map fun kv => (kv.1, .obj [("plain", .obj [("value", .str kv.2)])]))

/-- The pivot of a V2 manifest; an empty environment is left out. -/
def pivotJsonV2 (p : PivotConfigV2) : Json :=
  .obj ([("hash", hex p.hash), ("restart", restartJson p.restart), ("bridgeConfig", list bridgeJson p.bridgeConfig),
    ("debugMode", .bool p.debugMode), ("args", list .str p.args)] ++ if p.env = [] then [] else [("env", envJson p.env)])

/-- A member of a set. -/
def memberJson (m : QuorumMember) : Json := .obj [("alias", .str m.aliasName), ("pubKey", hex m.pubKey)]

/-- A manifest set or share set. -/
def setJson (s : QuorumSet) : Json := .obj [("threshold", .int s.threshold.toNat), ("members", list memberJson s.members)]

/-- A patch set. -/
def patchSetJson (s : PatchSet) : Json :=
  .obj [("threshold", .int s.threshold.toNat), ("members", list (fun k => .obj [("pubKey", hex k)]) s.members)]

/-- A namespace. -/
def namespaceJson (n : Namespace) : Json :=
  .obj [("name", .str n.name), ("nonce", .int n.nonce.toNat), ("quorumKey", hex n.quorumKey)]

/-- The resolvers. -/
def dnsJson (d : DnsConfig) : Json := .obj [("resolvers", list (fun a => .str (Ip.display a)) d.resolvers)]

/-- A V1 manifest. -/
def manifestJsonV1 (m : Manifest) : Json :=
  .obj [("namespace", namespaceJson m.namespace), ("pivot", pivotJsonV1 m.pivot), ("manifestSet", setJson m.manifestSet),
    ("shareSet", setJson m.shareSet), ("enclave", nitroJson m.enclave), ("patchSet", patchSetJson m.patchSet)]

/-- A V0 manifest. -/
def manifestJsonV0 (m : ManifestV0) : Json :=
  .obj [("namespace", namespaceJson m.namespace), ("pivot", pivotJsonV0 m.pivot), ("manifestSet", setJson m.manifestSet),
    ("shareSet", setJson m.shareSet), ("enclave", nitroJson m.enclave), ("patchSet", patchSetJson m.patchSet)]

/-- A V2 manifest; a missing DNS configuration is left out. -/
def manifestJsonV2 (m : ManifestV2) : Json :=
  .obj ([("version", match m.version with | .v1 => .str "v1" | .v2 => .str "v2"), ("namespace", namespaceJson m.namespace),
    ("pivot", pivotJsonV2 m.pivot), ("manifestSet", setJson m.manifestSet), ("shareSet", setJson m.shareSet),
    ("enclave", nitroJson m.enclave)] ++ match m.dns with | none => [] | some d => [("dns", dnsJson d)])

/-- An approval. -/
def approvalJson (a : Approval) : Json := .obj [("signature", hex a.signature), ("member", memberJson a.member)]

/-- An envelope of any version, as it is written. -/
def envelopeJson : Envelope → Json
  | .v2 e => .obj [("manifest", manifestJsonV2 e.manifest), ("manifestSetApprovals", list approvalJson e.manifestSetApprovals),
      ("shareSetApprovals", list approvalJson e.shareSetApprovals)]
  | .v1 e => .obj [("manifest", manifestJsonV1 e.manifest), ("manifestSetApprovals", list approvalJson e.manifestSetApprovals),
      ("shareSetApprovals", list approvalJson e.shareSetApprovals)]
  | .v0 e => .obj [("manifest", manifestJsonV0 e.manifest),
      ("manifest_set_approvals", list approvalJson e.manifestSetApprovals),
      ("share_set_approvals", list approvalJson e.shareSetApprovals)]

/-- A manifest of any version, as it is written. -/
def manifestJson : VersionedManifest → Json
  | .v2 m => manifestJsonV2 m
  | .v1 m => manifestJsonV1 m
  | .v0 m => manifestJsonV0 m

/-! ## Borsh -/

/-- Two bytes, low byte first. -/
def two (n : Nat) : Bytes := [UInt8.ofNat n, UInt8.ofNat (n / 256)]

/-- Four bytes, low byte first. -/
def four (n : Nat) : Bytes := [UInt8.ofNat n, UInt8.ofNat (n / 256), UInt8.ofNat (n / 65536), UInt8.ofNat (n / 16777216)]

/-- Bytes after their length. -/
def sized (b : Bytes) : Bytes := four b.length ++ b

/-- A text after its length in bytes. -/
def text (s : String) : Bytes := sized (utf8 s)

/-- Elements after their number. -/
def many {α : Type} (f : α → Bytes) (l : List α) : Bytes := four l.length ++ (l.map f).flatten

/-- The restart policy. -/
def restartBytes : RestartPolicy → Bytes
  | .never => [0]
  | .always => [1]

/-- The PCRs and the certificate. -/
def nitroBytes (n : NitroConfig) : Bytes :=
  sized n.pcr0 ++ sized n.pcr1 ++ sized n.pcr2 ++ sized n.pcr3 ++ sized n.awsRootCertificate ++ text n.qosCommit

/-- One bridge. -/
def bridgeBytes : BridgeConfig → Bytes
  | .server port host => [0] ++ two port.toNat ++ text host
  | .client port none => [1] ++ two port.toNat ++ [0]
  | .client port (some host) => [1] ++ two port.toNat ++ [1] ++ text host

/-- The pivot of a V0 manifest. -/
def pivotBytesV0 (p : PivotConfigV0) : Bytes := p.hash ++ restartBytes p.restart ++ many text p.args

/-- The pivot of a V1 manifest. -/
def pivotBytesV1 (p : PivotConfig) : Bytes :=
  p.hash ++ restartBytes p.restart ++ many bridgeBytes p.bridgeConfig ++ [if p.debugMode then 1 else 0] ++ many text p.args

/-- A member of a set. -/
def memberBytes (m : QuorumMember) : Bytes := text m.aliasName ++ sized m.pubKey

/-- A manifest set or share set. -/
def setBytes (s : QuorumSet) : Bytes := four s.threshold.toNat ++ many memberBytes s.members

/-- A patch set. -/
def patchSetBytes (s : PatchSet) : Bytes := four s.threshold.toNat ++ many sized s.members

/-- A namespace. -/
def namespaceBytes (n : Namespace) : Bytes := text n.name ++ four n.nonce.toNat ++ sized n.quorumKey

/-- A V1 manifest. -/
def manifestBytesV1 (m : Manifest) : Bytes :=
  namespaceBytes m.namespace ++ pivotBytesV1 m.pivot ++ setBytes m.manifestSet ++ setBytes m.shareSet ++
    nitroBytes m.enclave ++ patchSetBytes m.patchSet

/-- A V0 manifest. -/
def manifestBytesV0 (m : ManifestV0) : Bytes :=
  namespaceBytes m.namespace ++ pivotBytesV0 m.pivot ++ setBytes m.manifestSet ++ setBytes m.shareSet ++
    nitroBytes m.enclave ++ patchSetBytes m.patchSet

/-- An approval. -/
def approvalBytes (a : Approval) : Bytes := sized a.signature ++ memberBytes a.member

/-- A V1 or V0 envelope around the bytes of its manifest. -/
def envelopeBytes {M : Type} (f : M → Bytes) (e : EnvelopeOf M) : Bytes :=
  f e.manifest ++ many approvalBytes e.manifestSetApprovals ++ many approvalBytes e.shareSetApprovals

/-! ## Which values have a Borsh form -/

/-- At most 2^32 - 1 bytes. -/
def Short (b : Bytes) : Prop := b.length < 2 ^ 32

/-- At most 2^32 - 1 bytes of text. -/
def ShortText (s : String) : Prop := (utf8 s).length < 2 ^ 32

/-- At most 2^32 - 1 elements, each of which has a form. -/
def ShortList {α : Type} (P : α → Prop) (l : List α) : Prop := l.length < 2 ^ 32 ∧ ∀ a ∈ l, P a

/-- All lengths of the PCRs and the certificate. -/
def ShortNitro (n : NitroConfig) : Prop :=
  Short n.pcr0 ∧ Short n.pcr1 ∧ Short n.pcr2 ∧ Short n.pcr3 ∧ Short n.awsRootCertificate ∧ ShortText n.qosCommit

/-- The host of a bridge. -/
def ShortBridge : BridgeConfig → Prop
  | .server _ host => ShortText host
  | .client _ host => ∀ h, host = some h → ShortText h

/-- A member. -/
def ShortMember (m : QuorumMember) : Prop := ShortText m.aliasName ∧ Short m.pubKey

/-- What the V0 and V1 manifests have in common. -/
def ShortRest (n : Namespace) (ms ss : QuorumSet) (e : NitroConfig) (ps : PatchSet) : Prop :=
  (ShortText n.name ∧ Short n.quorumKey) ∧ ShortList ShortMember ms.members ∧ ShortList ShortMember ss.members ∧
    ShortNitro e ∧ ShortList Short ps.members

/-- A V1 manifest. -/
def ShortV1 (m : Manifest) : Prop :=
  m.pivot.hash.length = 32 ∧ ShortList ShortBridge m.pivot.bridgeConfig ∧ ShortList ShortText m.pivot.args ∧
    ShortRest m.namespace m.manifestSet m.shareSet m.enclave m.patchSet

/-- A V0 manifest. -/
def ShortV0 (m : ManifestV0) : Prop :=
  m.pivot.hash.length = 32 ∧ ShortList ShortText m.pivot.args ∧
    ShortRest m.namespace m.manifestSet m.shareSet m.enclave m.patchSet

/-- Approvals. -/
def ShortApprovals (l : List Approval) : Prop := ShortList (fun a => Short a.signature ∧ ShortMember a.member) l

/-- The bytes are the Borsh form of the V1 manifest. -/
def BorshV1 (buf : Bytes) (m : Manifest) : Prop := buf = manifestBytesV1 m ∧ ShortV1 m

/-- The bytes are the Borsh form of the V0 manifest. -/
def BorshV0 (buf : Bytes) (m : ManifestV0) : Prop := buf = manifestBytesV0 m ∧ ShortV0 m

/-- The bytes are the Borsh form of the V1 envelope. -/
def BorshEnvelopeV1 (buf : Bytes) (e : EnvelopeOf Manifest) : Prop :=
  buf = envelopeBytes manifestBytesV1 e ∧ ShortV1 e.manifest ∧ ShortApprovals e.manifestSetApprovals ∧
    ShortApprovals e.shareSetApprovals

/-- The bytes are the Borsh form of the V0 envelope. -/
def BorshEnvelopeV0 (buf : Bytes) (e : EnvelopeOf ManifestV0) : Prop :=
  buf = envelopeBytes manifestBytesV0 e ∧ ShortV0 e.manifest ∧ ShortApprovals e.manifestSetApprovals ∧
    ShortApprovals e.shareSetApprovals

/-! ## Reading a file -/

/-- The last member of that name. -/
def LastMember (v : Json) (name : String) (x : Json) : Prop :=
  ∃ before after, v = .obj (before ++ (name, x) :: after) ∧ ∀ kv ∈ after, kv.1 ≠ name

/-- The bytes are JSON that says this. -/
def JsonOf {α : Type} (Doc : Json → α → Prop) (buf : Bytes) (a : α) : Prop := ∃ v, Json.parse buf = some v ∧ Doc v a

/-- The bytes are JSON with a `version`. -/
def Declares (buf : Bytes) : Prop := ∃ v ver, Json.parse buf = some v ∧ LastMember v "version" ver

/-- The bytes are JSON whose `manifest` has a `version`. -/
def EnvelopeDeclares (buf : Bytes) : Prop :=
  ∃ v m ver, Json.parse buf = some v ∧ LastMember v "manifest" m ∧ LastMember m "version" ver

/-- What is read of a file that may be JSON of three versions or Borsh of two: a declared version is V2 and nothing else;
without one, V1 JSON goes first, then V0 JSON, then Borsh, if only one version fits. -/
def FileRead {A B C : Type} (declares : Prop) (v2 : A → Prop) (v1 : B → Prop) (v0 : C → Prop) (b1 : B → Prop) (b0 : C → Prop) :
    A ⊕ B ⊕ C → Prop
  | .inl a => declares ∧ v2 a
  | .inr (.inl b) => ¬ declares ∧ (v1 b ∨ ((¬ ∃ b, v1 b) ∧ (¬ ∃ c, v0 c) ∧ b1 b ∧ ¬ ∃ c, b0 c))
  | .inr (.inr c) => ¬ declares ∧ (¬ ∃ b, v1 b) ∧ (v0 c ∨ ((¬ ∃ c, v0 c) ∧ b0 c ∧ ¬ ∃ b, b1 b))

/-- A manifest read from a file. -/
def ManifestRead (buf : Bytes) (m : VersionedManifest) : Prop :=
  FileRead (Declares buf) (JsonOf ManifestDocV2 buf) (JsonOf ManifestDocV1 buf) (JsonOf ManifestDocV0 buf) (BorshV1 buf)
    (BorshV0 buf) (match m with | .v2 m => .inl m | .v1 m => .inr (.inl m) | .v0 m => .inr (.inr m))

/-- An envelope read from a file. -/
def EnvelopeRead (buf : Bytes) (e : Envelope) : Prop :=
  FileRead (EnvelopeDeclares buf) (JsonOf EnvelopeDocV2 buf) (JsonOf EnvelopeDocV1 buf) (JsonOf EnvelopeDocV0 buf)
    (BorshEnvelopeV1 buf) (BorshEnvelopeV0 buf) (match e with | .v2 e => .inl e | .v1 e => .inr (.inl e) | .v0 e => .inr (.inr e))

/-- An envelope inside a JSON request: V2 goes first, then V1, then V0. -/
def EnvelopeSays (v : Json) : Envelope → Prop
  | .v2 e => EnvelopeDocV2 v e
  | .v1 e => (¬ ∃ e, EnvelopeDocV2 v e) ∧ EnvelopeDocV1 v e
  | .v0 e => (¬ ∃ e, EnvelopeDocV2 v e) ∧ (¬ ∃ e, EnvelopeDocV1 v e) ∧ EnvelopeDocV0 v e

end Qos.Format
