import Verif.Model.Client
import Verif.Spec.ClientFiles
import Verif.Spec.Attest
import Verif.Spec.Genesis
import Verif.Spec.Device
/-!
# What an operator's command promises

Readings of "the manifest agrees with the local files", "the operator was shown and confirmed", "a genuine approval",
independent of the code that checks them.
-/
namespace Qos.Client

/-- Where the operator keeps the artefacts a manifest is compared with. -/
structure Places where
  releaseDir : String
  pcr3Path : String
  pivotHashPath : String
  quorumKeyPath : String
  manifestSetDir : String
  shareSetDir : String
  patchSetDir : Option String

/-- The places named by the arguments of `approve-manifest`. -/
def ApproveArgs.places (a : ApproveArgs) : Places :=
  ⟨a.releaseDir, a.pcr3Path, a.pivotHashPath, a.quorumKeyPath, a.manifestSetDir, a.shareSetDir, a.patchSetDir⟩

/-- The places named by the arguments of `generate-manifest`. -/
def GenerateManifestArgs.places (a : GenerateManifestArgs) : Places :=
  ⟨a.releaseDir, a.pcr3Path, a.pivotHashPath, a.quorumKeyPath, a.manifestSetDir, a.shareSetDir, a.patchSetDir⟩

/-- The patch set of a manifest; V2 manifests have none. -/
def patchOf : VersionedManifest → Option PatchSet
  | .v2 _ => none
  | .v1 m => some m.patchSet
  | .v0 m => some m.patchSet

/-- The manifest agrees with the local artefacts. -/
structure LocalMatch (p : Prims) (awsRoot : Bytes) (d : Disk) (w : Places) (m : VersionedManifest) : Prop where
  manifestSet : SetIn p d w.manifestSetDir m.manifestSet
  shareSet : SetIn p d w.shareSetDir m.shareSet
  patchSet : ∀ ps, patchOf m = some ps → ∃ dir, w.patchSetDir = some dir ∧ PatchSetIn p d dir ps
  noPatchSet : patchOf m = none → w.patchSetDir = none
  enclave : NitroIn p awsRoot d w.releaseDir w.pcr3Path m.enclave
  pivotHash : PivotHashIn d w.pivotHashPath m.pivotHash
  quorumKey : KeyIn p d w.quorumKeyPath m.namespaceOf.quorumKey

/-- The file contains this manifest. -/
def ManifestIn (d : Disk) (path : String) (m : VersionedManifest) : Prop :=
  ∃ c, d.file path = some c ∧ VersionedManifest.tryFromSliceCompat c = some m

/-- The file contains this envelope. -/
def EnvelopeIn (d : Disk) (path : String) (e : Envelope) : Prop :=
  ∃ c, d.file path = some c ∧ Envelope.tryFromSliceCompat c = some e

/-- The operator was asked this and confirmed. -/
def Saw (es : List Event) (q : Question) : Prop := ∃ ans, Event.asked q ans ∈ es ∧ Confirmed ans

/-- The operator reviewed and confirmed the parts of the manifest that no local file pins down. -/
structure Reviewed (m : VersionedManifest) (es : List Event) : Prop where
  schema : Saw es (.schemaVersion m.versionLabel)
  name : Saw es (.namespaceName m.namespaceOf.name)
  nonce : Saw es (.namespaceNonce m.namespaceOf.nonce)
  restart : Saw es (.restartPolicy m.restart)
  args : Saw es (.pivotArgs m.args)
  debug : Saw es (.debugMode m.debugMode)
  bridges : Saw es (.bridges m.bridgeConfig)
  dns : ∀ v, m = .v2 v → Saw es (.dns v.dns)

/-- The bytes are an approval of `hash` by the member of this name and key. -/
def ApprovalText (p : Prims) (name : String) (key hash contents : Bytes) : Prop :=
  ∃ a, fromJsonSlice JCodec.approval contents = some a ∧ a.member = ⟨name, key⟩ ∧ a.member.Signed p hash a.signature

/-- Two manifests differ at most in the pivot's environment (which only V2 manifests have). -/
def SameButEnv : VersionedManifest → VersionedManifest → Prop
  | .v2 a, .v2 b => b = { a with pivot := { a.pivot with env := b.pivot.env } }
  | .v1 a, .v1 b => a = b
  | .v0 a, .v0 b => a = b
  | _, _ => False

/-- The manifest asks for what the command line said. -/
structure Requested (a : GenerateManifestArgs) (m : VersionedManifest) : Prop where
  name : m.namespaceOf.name = a.namespaceName
  nonce : m.namespaceOf.nonce = a.nonce
  restart : m.restart = a.restartPolicy
  args : m.args = a.pivotArgs
  bridges : m.bridgeConfig = a.bridgeConfig
  debug : m.debugMode = a.debugMode
  dns : m.dnsConfig = a.dnsResolvers.map DnsConfig.mk

/-- Names like `alice-ns-1.approval`, not counting the `._` files macOS leaves behind. -/
def IsApprovalName (name : String) : Prop :=
  (name = "approval" ∨ ∃ stem, name = stem ++ ".approval") ∧ ¬ ∃ r, name = "._" ++ r

/-- The file name of a member's approval: alias, namespace with `-` for every `/`, nonce. -/
def IsNameFor (member : String) (m : VersionedManifest) (name : String) : Prop :=
  ∃ ns : String, name = member ++ "-" ++ ns ++ "-" ++ toString m.namespaceOf.nonce.toNat ++ ".approval" ∧
    List.Forall₂ (fun c d => d = if c = '/' then '-' else c) m.namespaceOf.name.toList ns.toList

open Classical in
/-- The approvals in a directory, in the order of its listing. -/
def ApprovalsIn (d : Disk) (dir : String) (as : List Approval) : Prop :=
  ∃ names, d.dir dir = some names ∧
    List.Forall₂ (fun n a => ∃ c, d.file (pathJoin dir n) = some c ∧ fromJsonSlice JCodec.approval c = some a)
      (names.filter fun n => decide (IsApprovalName n)) as

/-- What a document for this manifest must show. -/
def expected (p : Prims) (m : VersionedManifest) : Attest.Input :=
  { manifestHash := m.hash p, pcr0 := m.enclave.pcr0, pcr1 := m.enclave.pcr1, pcr2 := m.enclave.pcr2, pcr3 := m.enclave.pcr3 }

/-- The document at `path` is genuine: signed and chained to the AWS root now, for this manifest, made by an instance
with the role in the operator's file, and carrying the ephemeral key `key`. -/
structure GenuineDoc {S : Type} (C : Setting S) (der : Bytes) (rolePath role : String) (m : VersionedManifest) (key : Bytes) :
    Prop where
  genuine : ∃ doc, C.pki.decode der = .ok doc ∧ Attest.WellFormed doc ∧
    C.pki.chain doc.cabundle.tail C.awsRoot doc.certificate C.now = .ok () ∧
    C.pki.signature doc.certificate der = .ok () ∧ Attest.Matches C.prims .setup doc (expected C.prims m) key
  inFile : RoleIn C.disk rolePath role
  pcr3 : m.enclave.pcr3 = rolePcr3 C.prims role

/-- The operator confirmed the namespace, the nonce, the role and the list of approvers. -/
structure ShareReviewed (e : Envelope) (role : String) (es : List Event) : Prop where
  name : Saw es (.namespaceName e.manifest.namespaceOf.name)
  nonce : Saw es (.namespaceNonce e.manifest.namespaceOf.nonce)
  iamRole : Saw es (.iamRole role)
  approvers : ∃ l, l.Perm (e.manifestSetApprovals.map (·.member.aliasName)) ∧ Saw es (.approvers l)

/-- The document is genuine at time `t` and vouches for this genesis output: signed by an instance with the release's
measurements and the operator's role. -/
structure GenesisDoc {S : Type} (C : Setting S) (der : Bytes) (t : Nat) (releaseDir rolePath : String)
    (out : Services.GenesisOutput) : Prop where
  vouches : ∃ doc pcr0 pcr1 pcr2 role, C.pki.decode der = .ok doc ∧ Attest.WellFormed doc ∧
    C.pki.chain doc.cabundle.tail C.awsRoot doc.certificate t = .ok () ∧ C.pki.signature doc.certificate der = .ok () ∧
    ReleasePcrs C.disk releaseDir pcr0 pcr1 pcr2 ∧ RoleIn C.disk rolePath role ∧
    doc.userData = some (C.prims.sha256 (Services.genesisOutputCodec.enc out)) ∧ doc.nonce = none ∧
    doc.pcr 0 = some pcr0 ∧ doc.pcr 1 = some pcr1 ∧ doc.pcr 2 = some pcr2 ∧ doc.pcr 3 = some (rolePcr3 C.prims role)

/-- The genesis output answers this request: same set, same disaster recovery key, a decodable quorum key, as many
member outputs as members, all of them for members. -/
structure Answers (p : Prims) (set : Services.GenesisSet) (drKey : Option Bytes) (out : Services.GenesisOutput) : Prop where
  sameSet : out.set = set
  sameDr : out.drKey = drKey
  key : out.quorumKey.length = 130 ∧ p.pointOk (out.quorumKey.take 65) ∧ p.pointOk (out.quorumKey.drop 65)
  count : out.memberOutputs.length = set.members.length
  members : ∀ o ∈ out.memberOutputs, o.member ∈ set.members

/-- The requested disaster recovery key: none, or the key in the named file. -/
def DrKeyIn (p : Prims) (d : Disk) : Option String → Option Bytes → Prop
  | none, k => k = none
  | some path, k => ∃ key, k = some key ∧ KeyIn p d path key

/-- The genesis output stored in a namespace directory. -/
def OutputIn (d : Disk) (dir : String) (out : Services.GenesisOutput) : Prop :=
  ∃ c, d.file (pathJoin dir "genesis_output") = some c ∧ Borsh.tryFromSlice Services.genesisOutputCodec c = some out

/-- The files of a ceremony, in the order they are written. -/
def genesisFiles (dir : String) (cose : Bytes) (out : Services.GenesisOutput) : List Event :=
  [.wrote (pathJoin dir "genesis_dr_artifacts")
      (ascii "quorum_key_hash " ++ Hex.encode out.quorumKeyHash ++ ascii "\ntest_message_ciphertext " ++
       Hex.encode out.testMessageCiphertext ++ ascii "\ntest_message_signature " ++ Hex.encode out.testMessageSignature ++
       ascii "\ntest_message " ++ Hex.encode out.testMessage),
   .wrote (pathJoin dir "genesis_attestation_doc") cose,
   .wrote (pathJoin dir "genesis_output") (Services.genesisOutputCodec.enc out),
   .wrote (pathJoin dir "quorum_key.pub") (Hex.encode out.quorumKey)] ++
  (out.drKeyWrappedQuorumKey.map (Event.wrote (pathJoin dir "dr_wrapped_quorum_key"))).toList

/-- The operators' tools and the enclave agree on the cryptography, and the device's chain of trust is in order: what
it signs can be read, chains to the operators' root certificate now, has a valid signature and a sane size. -/
structure Vouched {S : Type} (C : Setting S) (E : Env) (pki : MockNsm.Pki) (start : MockNsm.State) : Prop where
  prims : C.prims = E.prims
  root : 1 ≤ pki.root.length ∧ pki.root.length ≤ 1024
  intermediate : 1 ≤ pki.intermediate.length ∧ pki.intermediate.length ≤ 1024
  chain : C.pki.chain [pki.intermediate] C.awsRoot pki.leaf C.now = .ok ()
  decode : ∀ doc, IssuedDoc pki start doc → C.pki.decode (pki.signDoc doc) = .ok doc
  signature : ∀ doc, IssuedDoc pki start doc → C.pki.signature pki.leaf (pki.signDoc doc) = .ok ()
  size : ∀ doc, IssuedDoc pki start doc → (pki.signDoc doc).length ≤ 1024 * 1024

/-- The manifest is for the image and the role measured by this device. -/
structure Measured (start : MockNsm.State) (m : VersionedManifest) : Prop where
  pcr0 : m.enclave.pcr0 = start.value 0
  pcr1 : m.enclave.pcr1 = start.value 1
  pcr2 : m.enclave.pcr2 = start.value 2
  pcr3 : m.enclave.pcr3 = start.value 3

end Qos.Client
