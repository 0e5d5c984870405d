import Verif.Props.SameKeyRun
/-!
# C81: concrete enclaves with the standard algorithms
-/
namespace Qos.Fleet
open P256 Handles Services StateMachine Lifecycle Conformance Standard

theorem member_length (n : UInt8) (h : (realPrims.scalarOk (keyOf n).encSecret && realPrims.scalarOk (keyOf n).signSecret) = true) :
    (member n).pubKey.length = 130 :=
  ((public_fromBytes_iff ..).1 (public_of_pair realPrims realLaws _ _ (keyOf_ok h)).1).1

theorem scalars_ok : ∀ n ∈ ([1, 2, 3, 4, 5, 9, 40, 41, 50, 51] : List UInt8),
    (realPrims.scalarOk (keyOf n).encSecret && realPrims.scalarOk (keyOf n).signSecret) = true := by
  decide +kernel

theorem member_ok {n : UInt8} (h : n ∈ ([1, 2, 3, 4, 5, 9, 40, 41, 50, 51] : List UInt8)) : JCodec.quorumMember.ok (member n) := by
  have := member_length n (scalars_ok n h)
  simp [JCodec.quorumMember, JCodec.struct, Fields.imap, Fields.both, Fields.req, JCodec.string, JCodec.hexVec,
    this, Hex.strMaxLength]

theorem sign_length (a m : Bytes) (h : realPrims.scalarOk a = true) : (realPrims.ecdsaSign a m).length = 64 :=
  realLaws.sig_length _ (realLaws.sign_ok a m h)

theorem approval_ok {n : UInt8} (h : n ∈ ([1, 2, 3, 4, 5, 9, 40, 41, 50, 51] : List UInt8)) (x : Bytes) :
    JCodec.approval.ok (approval n x) := by
  have hs : (approval n x).signature.length = 64 := by
    have := scalars_ok n h
    simp only [Bool.and_eq_true] at this
    exact sign_length _ _ this.2
  have := member_ok h
  simp [JCodec.approval, JCodec.struct, Fields.imap, Fields.both, Fields.req, JCodec.hexVec, hs, Hex.strMaxLength]
  exact this

theorem envelope_ok : envelope.Ok := by
  refine envelopeV1_ok ?_ (realLaws.sha256_length _) rfl rfl ?_ ?_ (by decide) rfl ?_ ?_
  · show (member 9).pubKey.length ≤ 130
    rw [member_length 9 (scalars_ok 9 (by decide))]
  · intro m hm
    have : m ∈ [member 1, member 2, member 3] := hm
    simp only [List.mem_cons, List.not_mem_nil, or_false] at this
    rcases this with rfl | rfl | rfl <;> exact member_ok (by decide)
  · intro m hm
    have : m ∈ [member 4, member 5] := hm
    simp only [List.mem_cons, List.not_mem_nil, or_false] at this
    rcases this with rfl | rfl <;> exact member_ok (by decide)
  · intro a ha
    simp only [List.mem_cons, List.not_mem_nil, or_false] at ha
    rcases ha with rfl | rfl <;> exact approval_ok (by decide) _
  · exact fun _ h => nomatch h

theorem real_encrypt {n : UInt8} {share : Bytes} (hk : Pair.fromMasterSeed realPrims (List.replicate 32 n) = .ok (keyOf n))
    (hl : share.length < 2 ^ 31) : ∃ ct, (keyOf n).decrypt realPrims ct = .ok share := by
  have hr : ((realEnv 0).randAt 0).Ok realPrims := (realEnv_ok 0).rands 0
  obtain ⟨ct, -, h⟩ := round_trip _ share (keyOf n) _ ((pair_exact _ _ _).mp hk) hr hl
  exact ⟨ct, h⟩

/-- An enclave with the standard algorithms is booted with a 2-of-3 approved manifest and provisioned by two members of its
share set, with shares made by Shamir's scheme and encrypted to its setup key. It ends up with the quorum key. -/
theorem real_run (b : UInt8) (h0 : b ∈ ([1, 2, 3, 4, 5, 9, 40, 41, 50, 51] : List UInt8))
    (h1 : b + 1 ∈ ([1, 2, 3, 4, 5, 9, 40, 41, 50, 51] : List UInt8)) :
    ∃ h s, History (realEnv b) noFiles h s ∧ s.phase = .quorumKeyProvisioned ∧
      Installed (realEnv b) (envelope.withShares [approval 4 hash, approval 5 hash]) [1, 2, 3] s.files ∧
      Holds s.files (realEnv b).paths.quorum (Hex.encode (List.replicate 32 9)) := by
  have k0 := keyOf_ok (scalars_ok b h0)
  have k1 := keyOf_ok (scalars_ok _ h1)
  have k9 := keyOf_ok (scalars_ok 9 (by decide))
  have Hs := History.start (realEnv_ok b) (fs0 := noFiles) (fun _ _ => rfl)
  have hm : (Msg.bootStandardRequest envelope [1, 2, 3]).BootsWith envelope [1, 2, 3] := .inl rfl
  obtain ⟨⟨doc, hdoc⟩, hph, hin, heph, -⟩ := approved_boot_completes (pki := MockNsm.toyPki) (dev := MockNsm.initial) Hs rfl
    ⟨initial_started, rfl⟩ (fun _ => rfl) envelope_ok approved rfl rfl k0 k1 hm
  have H := Hs.step (m := .bootStandardRequest envelope [1, 2, 3]) envelope_ok
  generalize handle (realEnv b) (.bootStandardRequest envelope [1, 2, 3]) (St.initial noFiles) = rs at *
  obtain ⟨r, s⟩ := rs
  obtain ⟨all, hall⟩ := (Shamir.generate_iff (List.replicate 32 9) 2 2 (fun _ _ => 99)).2 (by decide)
  obtain ⟨g1, g2, g3⟩ := Shamir.shares_shape hall
  have hnd : all.Nodup := List.Nodup.of_map _ g2
  have hrec := Shamir.threshold_shares_reconstruct hall hnd (fun _ h => h) (by omega)
  match all, g1, g3, hrec with
  | [s1, s2], _, g3, hrec =>
    have l1 := (g3 s1 (by simp)).1
    have l2 := (g3 s2 (by simp)).1
    simp only [List.length_replicate] at l1 l2
    obtain ⟨c1, d1⟩ := real_encrypt k0 (share := s1) (by omega)
    obtain ⟨c2, d2⟩ := real_encrypt k0 (share := s2) (by omega)
    have n1 : s1 ≠ [] := by rintro rfl; simp at l1
    have n2 : s2 ≠ [] := by rintro rfl; simp at l2
    have hthr : envelope.manifest.shareSet.threshold = 2 := rfl
    have hmem : ∀ n ∈ ([4, 5] : List UInt8), (approval n hash).member ∈ envelope.manifest.shareSet.members := by
      intro n hn
      show member n ∈ [member 4, member 5]
      simp only [List.mem_cons, List.not_mem_nil, or_false] at hn
      rcases hn with rfl | rfl <;> simp
    obtain ⟨f1, f2, f3, -⟩ := enough_shares_provision (E := realEnv b) H hph
      (by rcases hdoc with hd | hd <;> rw [hd] <;> rfl) (fun _ => rfl) hin
      (setup := keyOf b) k0 heph (posts := [(c1, approval 4 hash), (c2, approval 5 hash)])
      (by
        intro x hx
        simp only [List.mem_cons, List.not_mem_nil, or_false] at hx
        rcases hx with rfl | rfl
        · exact ⟨(approval_verify_iff ..).1 share_signed.1, hmem 4 (by decide)⟩
        · exact ⟨(approval_verify_iff ..).1 share_signed.2, hmem 5 (by decide)⟩)
      (shares := [s1, s2]) (.cons ⟨d1, n1⟩ (.cons ⟨d2, n2⟩ .nil)) (by rw [hthr]; rfl) hrec (by simp) k9 rfl
    have H2 : History (realEnv b) noFiles _ _ := (H.step (m := .provisionRequest c1 (approval 4 hash)) trivial).step
      (m := .provisionRequest c2 (approval 5 hash)) trivial
    exact ⟨_, _, H2, f1, f3, f2⟩

/-- The key theorem applies: the enclaves with the random bytes 40 and 50 are different, are provisioned independently, and
hold the same key. -/
example : ∃ h s h' s' f f', History (realEnv 40) noFiles h s ∧ History (realEnv 50) noFiles h' s' ∧
    (realEnv 40).seedAt 0 ≠ (realEnv 50).seedAt 0 ∧
    s.files (realEnv 40).paths.quorum = some f ∧ s'.files (realEnv 50).paths.quorum = some f' ∧
    ∃ key key', Pair.fromHexContents realPrims f.data = .ok key ∧ Pair.fromHexContents realPrims f'.data = .ok key' ∧
      key.encSecret = key'.encSecret ∧ key.signSecret = key'.signSecret ∧
      (∀ buf, key.decrypt realPrims buf = key'.decrypt realPrims buf) ∧
      (∀ msg, key.sign realPrims msg = key'.sign realPrims msg) := by
  obtain ⟨h, s, H, -, hi, ⟨f, hf, -⟩⟩ := real_run 40 (by decide) (by decide)
  obtain ⟨h', s', H', -, hi', ⟨f', hf', -⟩⟩ := real_run 50 (by decide) (by decide)
  exact ⟨h, s, h', s', f, f', H, H', by decide +kernel, hf, hf',
    same_named_key_same_key rfl rfl H (.inr (.inr rfl)) hf hi H' (.inr (.inr rfl)) hf' hi' rfl⟩

/-- And whoever has this manifest can write to such an enclave and check its signatures. -/
example : ∃ h s f pub key, History (realEnv 40) noFiles h s ∧ s.files (realEnv 40).paths.quorum = some f ∧
    Public.fromBytes realPrims envelope.manifest.namespaceOf.quorumKey = .ok pub ∧
    Pair.fromHexContents realPrims f.data = .ok key ∧
    ∀ msg, pub.verify realPrims msg (key.sign realPrims msg) = .ok () := by
  obtain ⟨h, s, H, -, hi, ⟨f, hf, -⟩⟩ := real_run 40 (by decide) (by decide)
  obtain ⟨pub, key, h1, h2, h3⟩ := manifest_key_verifies rfl H (.inr (.inr rfl)) hf hi
  rw [Envelope.manifest_withShares] at h1
  exact ⟨h, s, f, pub, key, H, hf, h1, h2, h3⟩

end Qos.Fleet
