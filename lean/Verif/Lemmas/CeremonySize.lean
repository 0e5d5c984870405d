import Verif.Lemmas.JsonSize
import Verif.Props.Host
import Verif.Props.Genesis
/-!
# The messages of a key ceremony fit

A request for at most 255 members, and the answer to it, are far below the limit of the socket.
-/
namespace Qos.Json
open Services P256 Host

theorem natText_short : ∀ n, n < 256 → (natText n).length ≤ 3 := by decide +kernel

theorem extent_number {t : UInt32} (h : t.toNat ≤ 255) : extent (JCodec.u32.enc t) ≤ 20 := by
  have := natText_short t.toNat (by omega)
  show extent (.int (Int.ofNat t.toNat)) ≤ 20
  simp only [extent, strSize, intText]
  omega

theorem extent_memberOf (m : QuorumMember) (hk : m.pubKey.length = 130) (ha : m.aliasName.toList.length ≤ 1000) :
    extent (JCodec.quorumMember.enc m) ≤ 10000 := by
  unfold JCodec.quorumMember
  extents
  omega

/-- The members of a request: keys of 130 bytes and names of at most 1000 characters. -/
def Modest (ms : List QuorumMember) : Prop := ms.length ≤ 255 ∧ ∀ m ∈ ms, m.pubKey.length = 130 ∧ m.aliasName.toList.length ≤ 1000

theorem extent_genesisSet (set : GenesisSet) (h : Modest set.members) (ht : set.threshold.toNat ≤ 255) :
    extent (JCodec.genesisSet.enc set) ≤ 2560000 := by
  have hm := extentArr_map JCodec.quorumMember.enc 10000 set.members fun m hm =>
    extent_memberOf m (h.2 m hm).1 (h.2 m hm).2
  have hn := extent_number ht
  have hl := h.1
  unfold JCodec.genesisSet
  extents
  have : 10001 * set.members.length ≤ 10001 * 255 := Nat.mul_le_mul_left _ hl
  omega

theorem extent_memberOutput (o : MemberOutput) (hk : o.member.pubKey.length = 130) (ha : o.member.aliasName.toList.length ≤ 1000)
    (hs : o.encryptedShare.length = 130) (hh : o.shareHash.length = 64) : extent (JCodec.memberOutput.enc o) ≤ 20000 := by
  have := extent_memberOf o.member hk ha
  unfold JCodec.memberOutput
  extents
  have h1 : "shareSetMember".toList.length = 14 := by decide
  have h2 : "encryptedQuorumKeyShare".toList.length = 23 := by decide
  have h3 : "shareHash".toList.length = 9 := by decide
  omega

theorem extent_hexField (b : Bytes) (n : Nat) (h : b.length ≤ n) : extent (JCodec.hexVec.enc b) ≤ 12 * n + 2 := by
  extents
  omega

theorem extent_output (out : GenesisOutput) (h1 : extent (JCodec.genesisSet.enc out.set) ≤ 2560000)
    (h2 : ∀ k, out.drKey = some k → k.length = 130) (h3 : out.quorumKey.length = 130) (h4 : out.memberOutputs.length ≤ 255)
    (h5 : ∀ o ∈ out.memberOutputs, extent (JCodec.memberOutput.enc o) ≤ 20000) (h6 : out.recoveryPermutations = [])
    (h7 : ∀ k, out.drKeyWrappedQuorumKey = some k → k.length = 129) (h8 : out.quorumKeyHash.length = 64)
    (h9 : out.testMessageCiphertext.length = 113) (h10 : out.testMessageSignature.length = 64) (h11 : out.testMessage.length = 16) :
    extent (JCodec.genesisOutput.enc out) ≤ 8000000 := by
  have hm := extentArr_map JCodec.memberOutput.enc 20000 out.memberOutputs h5
  have hl : 20001 * out.memberOutputs.length ≤ 20001 * 255 := Nat.mul_le_mul_left _ h4
  obtain ⟨set, dr, key, mo, rp, w, hash, ct, sig, msg⟩ := out
  simp only at h1 h2 h3 h4 h5 h6 h7 h8 h9 h10 h11 hm hl
  subst h6
  have l1 : "set".toList.length = 3 := by decide
  have l2 : "dr_key".toList.length = 6 := by decide
  have l3 : "quorum_key".toList.length = 10 := by decide
  have l4 : "member_outputs".toList.length = 14 := by decide
  have l5 : "recovery_permutations".toList.length = 21 := by decide
  have l6 : "dr_key_wrapped_quorum_key".toList.length = 25 := by decide
  have l7 : "quorum_key_hash".toList.length = 15 := by decide
  have l8 : "test_message_ciphertext".toList.length = 23 := by decide
  have l9 : "test_message_signature".toList.length = 22 := by decide
  have l10 : "test_message".toList.length = 12 := by decide
  unfold JCodec.genesisOutput
  extents
  cases dr with
  | none =>
    cases w with
    | none => extents; omega
    | some w => have := h7 w rfl; extents; omega
  | some k =>
    have := h2 k rfl
    cases w with
    | none => extents; omega
    | some w => have := h7 w rfl; extents; omega

theorem ofMembers {p : Prims} {set : GenesisSet} {drKey : Option Bytes} (h : CeremonyRequest p set drKey)
    (hn : ∀ m ∈ set.members, m.aliasName.toList.length ≤ 1000) : Modest set.members :=
  ⟨h.limit, fun m hm => ⟨(h.members.keys m hm).1, hn m hm⟩⟩


/-- The request for a ceremony fits. -/
theorem request_fits {p : Prims} {set : GenesisSet} {drKey : Option Bytes} (h : CeremonyRequest p set drKey)
    (hn : ∀ m ∈ set.members, m.aliasName.toList.length ≤ 1000) : Fits (.bootGenesisRequest set drKey) := by
  have hm := ofMembers h hn
  have ht : set.threshold.toNat ≤ 255 := Nat.le_trans h.enough h.limit
  have hx : Hex.strMaxLength = 256 * 1024 * 1024 := rfl
  refine fits_small (by rintro _ _ ⟨⟩) ⟨⟨?_, UInt32.toNat_lt set.threshold⟩, ?_⟩ (Nat.le_trans (length_canonical _) ?_)
  · intro m hm'
    have := hm.2 m hm'
    refine ⟨trivial, ?_⟩
    show 2 * m.pubKey.length < Hex.strMaxLength
    omega
  · cases drKey with
    | none => trivial
    | some k =>
      have := (h.dr k rfl).1
      show 2 * k.length < Hex.strMaxLength
      omega
  · have hs := extent_genesisSet set hm ht
    have h1 : "bootGenesisRequest".toList.length = 18 := by decide
    have h2 : "set".toList.length = 3 := by decide
    have h3 : "dr_key".toList.length = 6 := by decide
    cases drKey with
    | none =>
      have e : JCodec.msg.enc (.bootGenesisRequest set none) =
        .obj [("bootGenesisRequest", .obj [("set", JCodec.genesisSet.enc set)])] := rfl
      rw [e]
      extents
      omega
    | some k =>
      have := (h.dr k rfl).1
      have e : JCodec.msg.enc (.bootGenesisRequest set (some k)) =
        .obj [("bootGenesisRequest", .obj [("set", JCodec.genesisSet.enc set), ("dr_key", JCodec.hexVec.enc k)])] := rfl
      rw [e]
      extents
      omega

/-- The answer to it fits. -/
theorem response_fits {p : Prims} (hp : p.Laws) {set : GenesisSet} {drKey : Option Bytes} {out : GenesisOutput} {quorum : Pair}
    {shares : List Bytes} (hr : CeremonyRequest p set drKey) (h : Ceremony p set drKey out quorum shares)
    (hn : ∀ m ∈ set.members, m.aliasName.toList.length ≤ 1000) (cose : Bytes) (hc : cose.length ≤ 1024 * 1024) :
    Fits (.bootGenesisResponse (.attestation cose) out) := by
  have hm := ofMembers hr hn
  have ht : set.threshold.toNat ≤ 255 := Nat.le_trans hr.enough hr.limit
  have hx : Hex.strMaxLength = 256 * 1024 * 1024 := rfl
  obtain ⟨⟨sd, hsd⟩, hpub⟩ := h.key
  have hq : out.quorumKey.length = 130 := by rw [← hpub]; exact (public_of_pair _ hp _ _ hsd).2
  have hkh : out.quorumKeyHash.length = 64 := by rw [h.keyHash]; exact hp.sha512_length _
  have hsig : out.testMessageSignature.length = 64 := by
    rw [h.testSigned]
    exact hp.sig_length _ (hp.sign_ok _ _ (pair_scalars _ _ _ hsd).2)
  have htm : out.testMessage.length = 16 := by rw [h.message]; decide +kernel
  have hmem : ∀ o ∈ out.memberOutputs, o.member ∈ set.members := fun o ho => by
    rw [← h.members]; exact List.mem_map_of_mem ho
  have hsh : ∀ o ∈ out.memberOutputs, o.shareHash.length = 64 := fun o ho => by
    have : o.shareHash ∈ shares.map p.sha512 := by rw [← h.hashes]; exact List.mem_map_of_mem ho
    obtain ⟨x, -, hx⟩ := List.mem_map.mp this
    rw [← hx]
    exact hp.sha512_length _
  have hlen : out.memberOutputs.length ≤ 255 := by
    have := congrArg List.length h.members
    rw [List.length_map] at this
    rw [this]
    exact hr.limit
  have hdr : ∀ k, out.drKey = some k → k.length = 130 := fun k hk => (hr.dr k (by rw [← h.echoDr]; exact hk)).1
  have hok : ∀ m ∈ set.members, JCodec.quorumMember.ok m := by
    intro m hm'
    have := hm.2 m hm'
    refine ⟨trivial, ?_⟩
    show 2 * m.pubKey.length < Hex.strMaxLength
    omega
  refine fits_small (by rintro _ _ ⟨⟩) ⟨?_, ?_⟩ (Nat.le_trans (length_canonical _) ?_)
  · show 2 * cose.length < Hex.strMaxLength
    omega
  · have hopt : ∀ w : Option Bytes, (∀ k, w = some k → k.length ≤ 130) → (Fields.opt "" JCodec.hexVec).ok w := by
      intro w hw
      cases w with
      | none => trivial
      | some k =>
        have := hw k rfl
        show 2 * k.length < Hex.strMaxLength
        omega
    refine ⟨⟨(by rw [h.echoSet]; exact hok : ∀ m ∈ out.set.members, JCodec.quorumMember.ok m), UInt32.toNat_lt out.set.threshold⟩, hopt _ fun k hk => by rw [hdr k hk], ?_, ?_, ?_, hopt _ fun k hk => by
      rw [h.sizes.2.1 k hk]; omega, ?_, ?_, ?_, ?_⟩
    · show 2 * out.quorumKey.length < Hex.strMaxLength
      omega
    · intro o ho
      refine ⟨hok _ (hmem o ho), ?_, hsh o ho⟩
      have := h.sizes.1 o ho
      show 2 * o.encryptedShare.length < Hex.strMaxLength
      omega
    · show ∀ x ∈ out.recoveryPermutations, _
      rw [h.noShards]
      intro x hx
      cases hx
    · exact hkh
    · have := h.sizes.2.2
      show 2 * out.testMessageCiphertext.length < Hex.strMaxLength
      omega
    · show 2 * out.testMessageSignature.length < Hex.strMaxLength
      omega
    · show 2 * out.testMessage.length < Hex.strMaxLength
      omega
  · have hs := extent_genesisSet set hm ht
    have ho := extent_output out (by rw [h.echoSet]; exact hs) hdr hq hlen
      (fun o ho => extent_memberOutput o (hm.2 _ (hmem o ho)).1 (hm.2 _ (hmem o ho)).2 (h.sizes.1 o ho) (hsh o ho)) h.noShards
      h.sizes.2.1 hkh h.sizes.2.2 hsig htm
    have h1 : "bootGenesisResponse".toList.length = 19 := by decide
    have h2 : "genesis_output".toList.length = 14 := by decide
    have e : JCodec.msg.enc (.bootGenesisResponse (.attestation cose) out) =
      .obj [("bootGenesisResponse", .obj [("nsm_response", .obj [("attestation", .obj [("document", JCodec.hexVec.enc cose)])]),
        ("genesis_output", JCodec.genesisOutput.enc out)])] := rfl
    rw [e]
    extents
    omega

end Qos.Json
