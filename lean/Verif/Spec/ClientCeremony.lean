import Verif.Spec.Client
import Verif.Spec.Genesis
/-!
# The setting of a key ceremony
-/
namespace Qos.Client

/-- The document a device that started in `start` issues at a ceremony: it names a hash, and no key. -/
def ceremonyDoc (pki : MockNsm.Pki) (start : MockNsm.State) (hash : Bytes) : AttestationDoc :=
  MockNsm.attestationDoc pki start (some hash) none none

/-- An operator and the enclave agree on the cryptography, and the device's chain of trust is in order at time `t`: what it
signs at a ceremony can be read, chains to the operator's root certificate, has a valid signature and a sane size. -/
structure CeremonyVouched {S : Type} (C : Setting S) (E : Env) (pki : MockNsm.Pki) (start : MockNsm.State) (t : Nat) : Prop where
  prims : C.prims = E.prims
  root : 1 ≤ pki.root.length ∧ pki.root.length ≤ 1024
  intermediate : 1 ≤ pki.intermediate.length ∧ pki.intermediate.length ≤ 1024
  chain : C.pki.chain [pki.intermediate] C.awsRoot pki.leaf t = .ok ()
  decode : ∀ hash : Bytes, hash.length = 32 →
    C.pki.decode (pki.signDoc (ceremonyDoc pki start hash)) = .ok (ceremonyDoc pki start hash)
  signature : ∀ hash : Bytes, hash.length = 32 → C.pki.signature pki.leaf (pki.signDoc (ceremonyDoc pki start hash)) = .ok ()
  size : ∀ hash : Bytes, hash.length = 32 → (pki.signDoc (ceremonyDoc pki start hash)).length ≤ 1024 * 1024

/-- The operator's release directory and role file are those of the image and role the device measured. -/
structure ReleaseOf {S : Type} (C : Setting S) (start : MockNsm.State) (releaseDir rolePath : String) : Prop where
  pcrs : ReleasePcrs C.disk releaseDir (start.value 0) (start.value 1) (start.value 2)
  role : ∃ role, RoleIn C.disk rolePath role ∧ start.value 3 = rolePcr3 C.prims role

/-- A member of the share set at its own machine, after the ceremony: it has the two files the ceremony's operator wrote, the
release, its key, room for the share, and leaves the safety switch alone. -/
structure Collector where
  disk : Disk
  pair : P256.Pair
  args : AfterGenesisArgs

/-- The collector is the member `m`, with the files `cose` and `output` of the ceremony. -/
structure Collector.Ready {S : Type} (C : Setting S) (start : MockNsm.State) (m : QuorumMember) (cose output : Bytes)
    (o : Collector) : Prop where
  name : o.args.memberAlias = m.aliasName
  key : Owns C.prims o.pair m.pubKey
  doc : o.disk.file (pathJoin o.args.namespaceDir "genesis_attestation_doc") = some cose
  output : o.disk.file (pathJoin o.args.namespaceDir "genesis_output") = some output
  release : ReleaseOf { C with disk := o.disk } start o.args.releaseDir o.args.pcr3Path
  space : o.disk.writable o.args.sharePath = true
  safe : o.args.unsafeSkip = false

/-- The collector's run writes exactly this file. -/
def Collector.Collects {S : Type} (C : Setting S) (s : S) (o : Collector) (share : Bytes) : Prop :=
  afterGenesis { C with disk := o.disk } o.pair o.args s = ⟨.ok (), s, [.wrote o.args.sharePath share]⟩

end Qos.Client
