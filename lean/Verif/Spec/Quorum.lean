import Verif.Model.P256
import Verif.Model.Manifest
/-!
# What a quorum is

Independent reading of "unique members" and "valid approval"; nothing here mentions the checking loops.
-/
namespace Qos

/-- The signing half of a member's key (last 65 bytes). -/
def QuorumMember.signKey (m : QuorumMember) : Bytes := m.pubKey.drop 65
/-- The encryption half of a member's key (first 65 bytes). -/
def QuorumMember.encKey (m : QuorumMember) : Bytes := m.pubKey.take 65

/-- The member's key is 130 bytes: two valid points. -/
def QuorumMember.KeyOk (p : Prims) (m : QuorumMember) : Prop :=
  m.pubKey.length = 130 ∧ p.pointOk m.encKey ∧ p.pointOk m.signKey

/-- All keys decode; aliases, signing keys and encryption keys are pairwise distinct. -/
structure DistinctMembers (p : Prims) (ms : List QuorumMember) : Prop where
  keys : ∀ m ∈ ms, m.KeyOk p
  aliases : (ms.map (·.aliasName)).Nodup
  signing : (ms.map (·.signKey)).Nodup
  encryption : (ms.map (·.encKey)).Nodup

/-- `sig` is a well-formed ECDSA signature over `msg` under the member's signing key. -/
def QuorumMember.Signed (p : Prims) (m : QuorumMember) (msg sig : Bytes) : Prop :=
  m.KeyOk p ∧ p.sigOk sig ∧ p.ecdsaVerify m.signKey msg sig

/-- A quorum of approvals: `approvals` are signatures over `hash` by listed members, no member twice, at least
`threshold` of them. -/
structure Quorum (p : Prims) (hash : Bytes) (set : QuorumSet) (approvals : List Approval) : Prop where
  distinct : DistinctMembers p set.members
  signed : ∀ a ∈ approvals, a.member.Signed p hash a.signature
  listed : ∀ a ∈ approvals, a.member ∈ set.members
  once : (approvals.map (·.member)).Nodup
  enough : set.threshold.toNat ≤ approvals.length

end Qos
