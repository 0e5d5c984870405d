import Verif.Model.Services
import Verif.Spec.Quorum
/-!
# What a key ceremony promises
-/
namespace Qos
open P256

/-- `k` is a key pair (made from some master seed) with these public key bytes. -/
structure Owns (p : Prims) (k : Pair) (pub : Bytes) : Prop where
  pair : ∃ seed, Pair.fromMasterSeed p seed = .ok k
  pub : (k.publicKey p).toBytes = pub

/-- The DR ciphertext: present exactly when a DR key was given, and then its owner reads `seed` from it. -/
def DrCopy (p : Prims) (seed : Bytes) : Option Bytes → Option Bytes → Prop
  | none, none => True
  | some k, some ct => ∀ dr, Owns p dr k → dr.decrypt p ct = .ok seed
  | _, _ => False

/-- `out` is a correct result of a ceremony for `set` and `drKey` that made the key pair `quorum` and gave `shares`
to the members, in order. -/
structure Ceremony (p : Prims) (set : Services.GenesisSet) (drKey : Option Bytes) (out : Services.GenesisOutput)
    (quorum : Pair) (shares : List Bytes) : Prop where
  /-- the output names the request it answers -/
  echoSet : out.set = set
  echoDr : out.drKey = drKey
  /-- the quorum key is that of `quorum` -/
  key : Owns p quorum out.quorumKey
  seed : quorum.seed.length = 32
  keyHash : out.quorumKeyHash = p.sha512 (Hex.encode quorum.seed)
  /-- one output per member, in order -/
  members : out.memberOutputs.map (·.member) = set.members
  count : shares.length = set.members.length
  distinct : shares.Nodup
  /-- 32 bytes and an index -/
  shareSize : ∀ x ∈ shares, x.length = 33
  threshold : 2 ≤ set.threshold.toNat ∧ set.threshold.toNat ≤ shares.length
  /-- each member reads its own share, and can check it against the hash -/
  hashes : out.memberOutputs.map (·.shareHash) = shares.map p.sha512
  opened : ∀ (i : Nat) (o : Services.MemberOutput) (x : Bytes) (k : Pair), out.memberOutputs[i]? = some o →
    shares[i]? = some x → Owns p k o.member.pubKey → k.decrypt p o.encryptedShare = .ok x
  /-- any threshold many different shares, in any order, give the secret -/
  recover : ∀ l : List Bytes, l.Nodup → (∀ x ∈ l, x ∈ shares) → set.threshold.toNat ≤ l.length →
    Shamir.sharesReconstruct l = .ok quorum.seed
  dr : DrCopy p quorum.seed drKey out.drKeyWrappedQuorumKey
  /-- the test message can be decrypted and its signature verified -/
  test : quorum.decrypt p out.testMessageCiphertext = .ok out.testMessage
  testSigned : out.testMessageSignature = quorum.sign p out.testMessage
  testSig : (quorum.publicKey p).verify p out.testMessage out.testMessageSignature = .ok ()
  message : out.testMessage = ascii "qos-test-message"
  /-- no share is in the output in plain -/
  noShards : out.recoveryPermutations = []
  /-- the ciphertexts of the shares, of the copy for the DR key and of the test message -/
  sizes : (∀ o ∈ out.memberOutputs, o.encryptedShare.length = 130) ∧
    (∀ ct, out.drKeyWrappedQuorumKey = some ct → ct.length = 129) ∧ out.testMessageCiphertext.length = 113

/-- The requests a ceremony can be held for: members with decodable, pairwise different keys and aliases, a threshold
of at least two and at most the number of members, at most 255 members, a decodable DR key if there is one. -/
structure CeremonyRequest (p : Prims) (set : Services.GenesisSet) (drKey : Option Bytes) : Prop where
  members : DistinctMembers p set.members
  two : 2 ≤ set.threshold.toNat
  enough : set.threshold.toNat ≤ set.members.length
  limit : set.members.length ≤ 255
  dr : ∀ k, drKey = some k → k.length = 130 ∧ p.pointOk (k.take 65) ∧ p.pointOk (k.drop 65)

end Qos
