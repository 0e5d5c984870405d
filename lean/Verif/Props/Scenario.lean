import Verif.Props.Completes
import Verif.Props.Shamir
import Verif.Spec.Toy
/-!
# C11, and a concrete run

A run in a concrete surrounding, which shows that the hypotheses of the theorems about histories can be met; and the
refutation of a natural expectation: one share-set member alone, with one approval sent twice, provisions an enclave whose
share set has threshold 2.
-/
namespace Qos
open P256 Handles Services StateMachine Lifecycle

theorem toyEnv_ok : toyEnv.Ok where
  laws := toyLaws
  seeds n := by simp [toyEnv]
  rands n := ⟨by simp [toyEnv, toyPrims], by simp [toyEnv]⟩
  paths := ⟨by decide +kernel, by decide +kernel⟩

theorem toy_fresh : Fresh toyEnv.paths noFiles := fun _ _ => rfl

theorem initial_started : MockNsm.initial.Started where
  max := rfl
  unlocked _ := rfl
  setup := rfl
  live := rfl
  sized := MockNsm.initial_sized

theorem toy_device : HonestDevice toyEnv MockNsm.toyPki MockNsm.initial := ⟨initial_started, rfl⟩

theorem toy_io : ReliableFiles toyEnv := fun _ => rfl

theorem toy_pair (seed : Bytes) : ∃ k, Pair.fromMasterSeed toyPrims seed = .ok k := by
  have h : ∀ path, toyPrims.scalarOk (toyPrims.hkdf path seed) = true := by
    intro path; simp [toyPrims, pad_length]
  unfold Pair.fromMasterSeed
  rw [if_pos (h _), if_pos (h _)]
  exact ⟨_, rfl⟩

theorem toyMember_length (n : UInt8) : (toyMember n).pubKey.length = 130 := by
  unfold toyMember
  obtain ⟨k, hk⟩ := toy_pair (List.replicate 32 n)
  simp only [hk]
  have := (public_of_pair _ toyLaws _ _ hk).1
  exact ((public_fromBytes_iff ..).1 this).1

theorem toyMember_ok (n : UInt8) : JCodec.quorumMember.ok (toyMember n) := by
  simp [JCodec.quorumMember, JCodec.struct, Fields.imap, Fields.both, Fields.req, JCodec.string, JCodec.hexVec,
    toyMember_length, Hex.strMaxLength]

theorem toyApproval_ok (n : UInt8) (hash : Bytes) : JCodec.approval.ok (toyApproval n hash) := by
  have h : (toyApproval n hash).signature.length = 64 := by
    unfold toyApproval
    obtain ⟨k, hk⟩ := toy_pair (List.replicate 32 n)
    simp only [hk, Pair.sign]
    simp [toyPrims, pad_length]
  have := toyMember_ok n
  simp [JCodec.approval, JCodec.struct, Fields.imap, Fields.both, Fields.req, JCodec.hexVec, h,
    Hex.strMaxLength]
  exact this

theorem hexVec_ok {b : Bytes} (hb : b.length ≤ 130) : JCodec.hexVec.ok b := by
  show 2 * b.length < Hex.strMaxLength
  simp only [Hex.strMaxLength]
  omega

/-- When a V1 envelope without bridges, arguments and patch set is one that the Rust type can hold. -/
theorem envelopeV1_ok {e : EnvelopeOf Manifest} (h1 : e.manifest.namespace.quorumKey.length ≤ 130)
    (h2 : e.manifest.pivot.hash.length = 32) (h3 : e.manifest.pivot.bridgeConfig = []) (h4 : e.manifest.pivot.args = [])
    (h5 : ∀ m ∈ e.manifest.manifestSet.members, JCodec.quorumMember.ok m)
    (h6 : ∀ m ∈ e.manifest.shareSet.members, JCodec.quorumMember.ok m)
    (h7 : e.manifest.enclave.pcr0.length ≤ 130 ∧ e.manifest.enclave.pcr1.length ≤ 130 ∧
      e.manifest.enclave.pcr2.length ≤ 130 ∧ e.manifest.enclave.pcr3.length ≤ 130 ∧
      e.manifest.enclave.awsRootCertificate.length ≤ 130) (h8 : e.manifest.patchSet.members = [])
    (h9 : ∀ a ∈ e.manifestSetApprovals, JCodec.approval.ok a) (h10 : ∀ a ∈ e.shareSetApprovals, JCodec.approval.ok a) :
    (Envelope.v1 e).Ok := by
  obtain ⟨⟨ns, ⟨ph, pr, pb, pd, pa⟩, ms, ss, en, ⟨pt, pm⟩⟩, as, bs⟩ := e
  simp only at h3 h4 h8
  subst h3 h4 h8
  refine ⟨⟨⟨trivial, UInt32.toNat_lt _, hexVec_ok h1⟩,
      ⟨h2, ?_, (fun _ h => nomatch h), trivial, (fun _ h => nomatch h)⟩,
      ⟨UInt32.toNat_lt _, h5⟩, ⟨UInt32.toNat_lt _, h6⟩, ⟨hexVec_ok h7.1, hexVec_ok h7.2.1, hexVec_ok h7.2.2.1,
        hexVec_ok h7.2.2.2.1, hexVec_ok h7.2.2.2.2, trivial⟩,
      ⟨UInt32.toNat_lt _, (fun _ h => nomatch h)⟩⟩, h9, h10⟩
  show pr ∈ [RestartPolicy.never, RestartPolicy.always]
  cases pr <;> decide

theorem toyEnvelope_ok : toyEnvelope.Ok := by
  refine envelopeV1_ok ?_ (pad_length _ _) rfl rfl ?_ ?_ (by decide) rfl ?_ ?_
  · show (toyMember 9).pubKey.length ≤ 130
    rw [toyMember_length]
  · intro m hm
    have : m ∈ [toyMember 1, toyMember 2, toyMember 3] := hm
    simp only [List.mem_cons, List.not_mem_nil, or_false] at this
    rcases this with rfl | rfl | rfl <;> exact toyMember_ok _
  · intro m hm
    have : m ∈ [toyMember 4, toyMember 5] := hm
    simp only [List.mem_cons, List.not_mem_nil, or_false] at this
    rcases this with rfl | rfl <;> exact toyMember_ok _
  · intro a ha
    simp only [List.mem_cons, List.not_mem_nil, or_false] at ha
    rcases ha with rfl | rfl <;> exact toyApproval_ok _ _
  · exact fun _ h => nomatch h

/-- The hash of the toy manifest. -/
def toyHash : Bytes := toyEnvelope.manifest.hash toyPrims

theorem toy_seed (n : Nat) : (toyEnv.seedAt n).length = 32 := toyEnv_ok.seeds n

/-- The concrete boot. -/
theorem toy_boot {m : Msg} (hm : m.BootsWith toyEnvelope [1, 2, 3]) : ∃ setup, 
    Pair.fromMasterSeed toyEnv.prims (toyEnv.seedAt 0) = .ok setup ∧
    History toyEnv noFiles [(m, (handle toyEnv m (St.initial noFiles)).1)] (handle toyEnv m (St.initial noFiles)).2 ∧
    (∃ doc, (handle toyEnv m (St.initial noFiles)).1 = .bootStandardResponse doc ∨
      (handle toyEnv m (St.initial noFiles)).1 = .bootKeyForwardResponse doc) ∧
    (handle toyEnv m (St.initial noFiles)).2.phase = m.bootedPhase ∧
    Installed toyEnv toyEnvelope [1, 2, 3] (handle toyEnv m (St.initial noFiles)).2.files ∧
    Holds (handle toyEnv m (St.initial noFiles)).2.files toyEnv.paths.ephemeral (Hex.encode setup.seed) := by
  obtain ⟨setup, h0⟩ := toy_pair (toyEnv.seedAt 0)
  obtain ⟨live, h1⟩ := toy_pair (toyEnv.seedAt 1)
  have H := History.start toyEnv_ok toy_fresh
  have hwf : m.WellFormed := by
    rcases hm with rfl | rfl | rfl <;> exact toyEnvelope_ok
  obtain ⟨a, b, c, d, -⟩ := approved_boot_completes H rfl toy_device toy_io toyEnvelope_ok
    (by decide +kernel) rfl rfl h0 h1 hm
  exact ⟨setup, h0, H.step hwf, a, b, c, d⟩

/-- A concrete share: it can be encrypted to the setup key and decrypts again. -/
theorem toy_encrypt {seed share : Bytes} {k : Pair} (hk : Pair.fromMasterSeed toyPrims seed = .ok k)
    (hl : share.length < 2 ^ 31) : ∃ ct, k.decrypt toyPrims ct = .ok share := by
  have hr : (toyEnv.randAt 0).Ok toyPrims := toyEnv_ok.rands 0
  obtain ⟨ct, hct⟩ := encrypt_total toyPrims toyLaws _ share _ (toyEnv.randAt 0) (public_of_pair _ toyLaws _ _ hk).1 hr hl
  exact ⟨ct, decrypt_encrypt toyPrims toyLaws seed share ct k _ hk hr hct⟩

theorem toy_share_approval : (toyApproval 4 toyHash).verify toyPrims toyHash = .ok () := by decide +kernel

theorem toy_quorum_key {k : Pair} (hk : Pair.fromMasterSeed toyPrims (List.replicate 32 9) = .ok k) :
    (k.publicKey toyPrims).toBytes = toyEnvelope.manifest.namespaceOf.quorumKey := by
  show _ = (toyMember 9).pubKey
  unfold toyMember
  simp only [hk]

theorem shareSetApprovals_withShares (e : Envelope) (as : List Approval) :
    (e.withShares as).shareSetApprovals = e.shareSetApprovals ++ as := by cases e <;> rfl

/-- The run after the boot, for any approval of a share-set member. -/
theorem toy_provision {s : St} {r : Msg} {setup : Pair} {a : Approval}
    (H : History toyEnv noFiles [(.bootStandardRequest toyEnvelope [1, 2, 3], r)] s)
    (hph : s.phase = .waitingForQuorumShards)
    (hposted : posted [(Msg.bootStandardRequest toyEnvelope [1, 2, 3], r)] = [])
    (h0 : Pair.fromMasterSeed toyEnv.prims (toyEnv.seedAt 0) = .ok setup)
    (hin : Installed toyEnv toyEnvelope [1, 2, 3] s.files)
    (heph : Holds s.files toyEnv.paths.ephemeral (Hex.encode setup.seed))
    (hmem : a.member ∈ toyEnvelope.manifest.shareSet.members)
    (hsig : a.member.Signed toyEnv.prims (toyEnvelope.manifest.hash toyEnv.prims) a.signature) :
    ∃ h s, History toyEnv noFiles h s ∧ s.phase = .quorumKeyProvisioned ∧
      Installed toyEnv (toyEnvelope.withShares [a, a]) [1, 2, 3] s.files ∧
      (∀ x b, Msg.provisionRequest x b ∈ requests h → b = a) := by
  have hseed := pair_seed _ _ _ h0
  obtain ⟨key, hkey⟩ := toy_pair (List.replicate 32 9)
  obtain ⟨all, hall⟩ := (Shamir.generate_iff (List.replicate 32 9) 2 2 (fun _ _ => 99)).2 (by decide)
  obtain ⟨g1, g2, g3⟩ := Shamir.shares_shape hall
  have hnd : all.Nodup := List.Nodup.of_map _ g2
  have hrec := Shamir.threshold_shares_reconstruct hall hnd (fun _ h => h) (by omega)
  match all, g1, g3, hrec with
  | [s1, s2], _, g3, hrec =>
    have l1 := (g3 s1 (by simp)).1
    have l2 := (g3 s2 (by simp)).1
    simp only [List.length_replicate] at l1 l2
    obtain ⟨c1, d1⟩ := toy_encrypt (k := setup) h0 (share := s1) (by omega)
    obtain ⟨c2, d2⟩ := toy_encrypt (k := setup) h0 (share := s2) (by omega)
    have n1 : s1 ≠ [] := by rintro rfl; simp at l1
    have n2 : s2 ≠ [] := by rintro rfl; simp at l2
    have hthr : toyEnvelope.manifest.shareSet.threshold = 2 := rfl
    obtain ⟨f1, f2, f3, -⟩ := enough_shares_provision (E := toyEnv) H hph hposted toy_io hin
      (setup := setup) (by rw [hseed]; exact h0) heph (posts := [(c1, a), (c2, a)])
      (by
        intro x hx
        simp only [List.mem_cons, List.not_mem_nil, or_false] at hx
        rcases hx with rfl | rfl <;> exact ⟨hsig, hmem⟩)
      (shares := [s1, s2]) (.cons ⟨d1, n1⟩ (.cons ⟨d2, n2⟩ .nil)) (by rw [hthr]; rfl) hrec (by simp) hkey
      (toy_quorum_key hkey)
    have H2 : History toyEnv noFiles _ _ := (H.step (m := .provisionRequest c1 a) trivial).step
      (m := .provisionRequest c2 a) trivial
    refine ⟨_, _, H2, f1, f3, ?_⟩
    intro x b hb
    simp [requests] at hb
    rcases hb with hb | hb <;> exact hb.2

/-- C11: the natural expectation that provisioning needs as many different share-set members as the threshold says is
false. Here the threshold is 2, the share set has two members, the device and the file system work, and the enclave ends
up provisioned although only one member ever approved, with one and the same approval sent twice. What is true is
`provisioned_by_threshold` (C10): the threshold counts shares. -/
theorem one_member_can_provision :
    ∃ (E : Env) (fs0 : Files) (h : List (Msg × Msg)) (s : St) (e : Envelope) (pivot : Bytes) (a : Approval),
      History E fs0 h s ∧ HonestDevice E MockNsm.toyPki MockNsm.initial ∧ ReliableFiles E ∧ s.phase = .quorumKeyProvisioned ∧
      Installed E e pivot s.files ∧ e.manifest.shareSet.threshold = 2 ∧ e.manifest.shareSet.members.length = 2 ∧
      e.shareSetApprovals = [a, a] ∧ (∀ x b, Msg.provisionRequest x b ∈ requests h → b = a) := by
  obtain ⟨setup, h0, H, ⟨doc, hdoc⟩, hph, hin, heph⟩ := toy_boot (m := .bootStandardRequest toyEnvelope [1, 2, 3]) (.inl rfl)
  obtain ⟨h, s, q1, q2, q3, q4⟩ := toy_provision (a := toyApproval 4 toyHash) H hph
    (by rcases hdoc with hd | hd <;> rw [hd] <;> rfl) h0 hin heph List.mem_cons_self
    ((approval_verify_iff ..).1 toy_share_approval)
  refine ⟨toyEnv, noFiles, h, s, _, _, _, q1, toy_device, toy_io, q2, q3, ?_, ?_, ?_, q4⟩
  · rw [Envelope.manifest_withShares]; rfl
  · rw [Envelope.manifest_withShares]; rfl
  · rw [shareSetApprovals_withShares]; rfl

end Qos
