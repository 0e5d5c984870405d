import Verif.Spec.Moments
import Verif.Spec.Attest
/-!
# Key forwarding: what may be injected, to whom the key may be exported
-/
namespace Qos
open P256

/-- A forwarded key that must be accepted: signed by `key`, which is the quorum key that the manifest names, and
decrypting under the setup key to exactly the 32-byte master seed of `key`. -/
structure Injectable (p : Prims) (e : Envelope) (setup : Pair) (ct sig : Bytes) (key : Pair) : Prop where
  names : (key.publicKey p).toBytes = e.manifest.namespaceOf.quorumKey
  signed : p.sigOk sig ∧ p.ecdsaVerify (key.publicKey p).sign ct sig
  decrypted : setup.decrypt p ct = .ok key.seed
  length : key.seed.length = 32
  pair : Pair.fromMasterSeed p key.seed = .ok key

/-- The same quorum set: threshold and members, whatever their order. -/
structure SameSet (a b : QuorumSet) : Prop where
  threshold : a.threshold = b.threshold
  members : a.members.Perm b.members

/-- What an enclave running `m` must show in an attestation document. -/
def expectedInput (p : Prims) (m : VersionedManifest) : Attest.Input :=
  ⟨m.hash p, m.enclave.pcr0, m.enclave.pcr1, m.enclave.pcr2, m.enclave.pcr3⟩

/-- The new manifest may take over from the old one: same quorum key, manifest set, namespace name and PCR3, a nonce
that is not lower, and the very same manifest when the nonce is the same. -/
structure Succeeds (p : Prims) (old new : VersionedManifest) : Prop where
  quorumKey : new.namespaceOf.quorumKey = old.namespaceOf.quorumKey
  manifestSet : SameSet old.manifestSet new.manifestSet
  name : new.namespaceOf.name = old.namespaceOf.name
  nonce : old.namespaceOf.nonce ≤ new.namespaceOf.nonce
  sameNonce : old.namespaceOf.nonce = new.namespaceOf.nonce → old.hash p = new.hash p
  pcr3 : new.enclave.pcr3 = old.enclave.pcr3

/-- An enclave with the old manifest may release its key to `key`: the new envelope is approved and may take over, and
the attestation document shows an enclave with the new manifest that committed to `key` as its setup key. -/
structure Exportable (p : Prims) (old new : Envelope) (doc : AttestationDoc) (key : Public) : Prop where
  approved : new.checkApprovals p = .ok ()
  noShares : new.shareSetApprovals = []
  succeeds : Succeeds p old.manifest new.manifest
  attested : Attest.Matches p .setup doc (expectedInput p new.manifest) key.toBytes
  key : Public.fromBytes p key.toBytes = .ok key

end Qos
