import Verif.Props.ClientForward
import Verif.Props.ClientDeployToy
import Verif.Props.Scenario
/-!
# C57: the theorems apply

One toy enclave hands its key to another.
-/
namespace Qos.Client
open P256 (Pair Public toyPrims toyLaws)
open Wire Host StateMachine Lifecycle

theorem toy_decode {doc : AttestationDoc} (h : IssuedDoc MockNsm.toyPki MockNsm.initial doc) :
    toyDecode (MockNsm.toyPki.signDoc doc) = .ok doc ∧ (MockNsm.toyPki.signDoc doc).length = 258 := by
  obtain ⟨d, hash, key, rfl, hs, hl, hh, hk⟩ := h.issued
  have l16 := hl 16 (by decide)
  have l17 := hl 17 (by decide)
  have e : MockNsm.toyPki.signDoc (MockNsm.attestationDoc MockNsm.toyPki d (some hash) none (some key)) =
      key ++ hash ++ d.value 16 ++ d.value 17 := by
    show key ++ hash ++ ((MockNsm.attestationDoc MockNsm.toyPki d (some hash) none (some key)).pcr 16).getD [] ++
      ((MockNsm.attestationDoc MockNsm.toyPki d (some hash) none (some key)).pcr 17).getD [] = _
    rw [MockNsm.doc_pcr _ _ _ _ 16 (by omega), MockNsm.doc_pcr _ _ _ _ 17 (by omega)]
    rfl
  rw [e]
  have hlen : (key ++ hash ++ d.value 16 ++ d.value 17).length = 258 := by simp only [List.length_append]; omega
  refine ⟨?_, hlen⟩
  have t1 : (key ++ hash ++ d.value 16 ++ d.value 17).take 130 = key := by
    rw [List.append_assoc, List.append_assoc, List.take_left' hk]
  have t2 : ((key ++ hash ++ d.value 16 ++ d.value 17).drop 130).take 32 = hash := by
    rw [List.append_assoc, List.append_assoc, List.drop_left' hk, List.take_left' hh]
  have t3 : ((key ++ hash ++ d.value 16 ++ d.value 17).drop 162).take 48 = d.value 16 := by
    rw [List.append_assoc, List.drop_left' (by simp; omega), List.take_left' l16]
  have t4 : (key ++ hash ++ d.value 16 ++ d.value 17).drop 210 = d.value 17 := by
    rw [List.drop_left' (by simp; omega)]
  unfold toyDecode
  rw [if_neg (by rw [hlen]; simp), t1, t2, t3, t4]
  congr 1
  refine doc_congr _ (fun i hi => ?_) _ _ _
  by_cases h16 : i = 16
  · subst h16; rfl
  by_cases h17 : i = 17
  · subst h17; rfl
  rw [hs i hi h16 h17]
  simp [MockNsm.State.value, h16, h17, MockNsm.initial]

theorem toy_recognises : Recognises toyEnv MockNsm.toyPki MockNsm.initial (1657117102484 / 1000) where
  root := by decide
  intermediate := by decide
  chain := rfl
  decode _ h := (toy_decode h).1
  signature _ _ := rfl
  size _ h := by rw [(toy_decode h).2]; decide

/-- The next version of the toy manifest: a new pivot and a higher nonce. -/
def nextManifest : Manifest :=
  { toyManifest with
    «namespace» := ⟨"ns", 4, (toyMember 9).pubKey⟩
    pivot := ⟨toyPrims.sha256 [4, 5, 6], .never, [], false, []⟩ }

/-- Approved by members 2 and 3. -/
def nextEnvelope : Envelope :=
  let h := (VersionedManifest.v1 nextManifest).hash toyPrims
  .v1 ⟨nextManifest, [toyApproval 2 h, toyApproval 3 h], []⟩

theorem next_ok : nextEnvelope.Ok := by
  refine envelopeV1_ok ?_ (P256.pad_length _ _) rfl rfl ?_ ?_ (by decide) rfl ?_ ?_
  · show (toyMember 9).pubKey.length ≤ 130
    rw [toyMember_length]
  · intro m hm
    have : m ∈ [toyMember 1, toyMember 2, toyMember 3] := hm
    simp only [List.mem_cons, List.not_mem_nil, or_false] at this
    rcases this with rfl | rfl | rfl <;> exact toyMember_ok _
  · intro m hm
    have : m ∈ [toyMember 4, toyMember 5] := hm
    simp only [List.mem_cons, List.not_mem_nil, or_false] at this
    rcases this with rfl | rfl <;> exact toyMember_ok _
  · intro a ha
    simp only [List.mem_cons, List.not_mem_nil, or_false] at ha
    rcases ha with rfl | rfl <;> exact toyApproval_ok _ _
  · exact fun _ h => nomatch h

theorem next_approved : nextEnvelope.checkApprovals toyPrims = .ok () := by decide +kernel

theorem extent_nextManifest : Json.extent (JCodec.manifest.enc nextManifest) ≤ 50000 :=
  Json.extent_manifest _
    (Json.extent_namespace _ (by decide) (by decide +kernel) (Nat.le_of_eq (toyMember_length 9)))
    (Json.extent_pivot _ (Nat.le_trans (Nat.le_of_eq (Json.toyHash_short _)) (by decide)) (by decide +kernel) rfl rfl)
    (Nat.le_trans (Json.extent_set 2 [toyMember 1, toyMember 2, toyMember 3] (by decide +kernel) (by simp)) (by decide))
    (Nat.le_trans (Json.extent_set 2 [toyMember 4, toyMember 5] (by decide +kernel) (by simp)) (by decide))
    (Json.extent_nitro _ (by decide +kernel) (by decide +kernel) (by decide +kernel) (by decide +kernel) (by decide +kernel) (by decide +kernel))
    (by decide +kernel)

theorem extent_nextEnvelope : Json.extent (JCodec.envelope.enc nextEnvelope) ≤ 100000 := by
  let h := (VersionedManifest.v1 nextManifest).hash toyPrims
  exact Nat.le_trans (Json.extent_envelope ⟨nextManifest, [toyApproval 2 h, toyApproval 3 h], []⟩ extent_nextManifest
    (by
      intro a ha
      rcases List.mem_cons.mp ha with rfl | ha
      · exact ⟨2, h, rfl⟩
      · rw [List.mem_singleton] at ha
        exact ⟨3, h, ha⟩) (fun a ha => nomatch ha)) (show 60000 + 4001 * (2 + 0) ≤ 100000 by decide)

theorem toy_measured : Measured MockNsm.initial nextEnvelope.manifest := ⟨rfl, rfl, rfl, rfl⟩

theorem toy_export_fits (d : Bytes) (hd : d.length ≤ 1024 * 1024) : Fits (.exportKeyRequest nextEnvelope d) := by
  refine fits_small (by rintro _ _ ⟨⟩) ⟨next_ok, ?_⟩ (Nat.le_trans (Json.length_canonical _)
    (Nat.le_trans (Json.extent_exportRequest d nextEnvelope) ?_))
  · show 2 * d.length < Hex.strMaxLength
    rw [show Hex.strMaxLength = 256 * 1024 * 1024 from rfl]
    omega
  · have := extent_nextEnvelope
    omega

theorem extent_forwardRequest (e : Envelope) (p : Bytes) : Json.extent (JCodec.msg.enc (.bootKeyForwardRequest e p)) ≤
    2000 + 12 * p.length + Json.extent (JCodec.envelope.enc e) := by
  have : JCodec.msg.enc (.bootKeyForwardRequest e p) = .obj [("bootKeyForwardRequest",
    .obj [("manifest_envelope", JCodec.envelope.enc e), ("pivot", JCodec.hexVec.enc p)])] := rfl
  rw [this]
  extents
  have h1 : "bootKeyForwardRequest".toList.length = 21 := by decide
  omega

theorem toy_boot_fits : Fits (.bootKeyForwardRequest nextEnvelope [4, 5, 6]) := by
  have hx := extent_forwardRequest nextEnvelope [4, 5, 6]
  have h2 : ([4, 5, 6] : Bytes).length = 3 := by decide
  rw [h2] at hx
  refine fits_small (by rintro _ _ ⟨⟩) ⟨next_ok, ?_⟩ (Nat.le_trans (Json.length_canonical _) (Nat.le_trans hx ?_))
  · show 2 * ([4, 5, 6] : Bytes).length < Hex.strMaxLength
    decide
  · have := extent_nextEnvelope
    omega

/-- An operator in front of the toy enclave with some files. -/
noncomputable def forwardSetting (l : List (String × Bytes)) : Setting St where
  prims := toyPrims
  pki := toySetting.pki
  awsRoot := [1, 2]
  now := 0
  rand := toySetting.rand
  disk := deployDisk l
  net := http (enclaveCall toyEnv)

theorem toy_succeeds : Succeeds toyEnv.prims toyEnvelope.manifest nextEnvelope.manifest :=
  ⟨rfl, ⟨rfl, .refl _⟩, rfl, by show (3 : UInt32) ≤ 4; decide, fun h => absurd (show (3 : UInt32) = 4 from h) (by decide), rfl⟩

/-- C57: `forwarding_provisions` applies: a provisioned toy enclave hands its key to a second one with the next version of
the manifest. -/
theorem toy_forwarding :
    ∃ (old new1 old2 : St) (C1 C2 C3 : Setting St) (evs1 evs2 : List Event),
      old.phase = .quorumKeyProvisioned ∧
      bootKeyFwd C1 "envelope" "pivot" "doc" (St.initial noFiles) = ⟨.ok (), new1, evs1⟩ ∧
      exportKey C2 "envelope" "doc" "key" old = ⟨.ok (), old2, evs2⟩ ∧
      (injectKey C3 "key" new1).result = .ok () ∧
      Forwarded toyPrims toyEnvelope.manifest nextEnvelope.manifest ∧
      ∃ seed, Holds old.files toyEnv.paths.quorum (Hex.encode seed) ∧
        Holds (injectKey C3 "key" new1).state.files toyEnv.paths.quorum (Hex.encode seed) := by
  obtain ⟨setup, h0, H, ⟨doc, hdoc⟩, hph, hin, heph⟩ := toy_boot (m := .bootStandardRequest toyEnvelope [1, 2, 3]) (.inl rfl)
  obtain ⟨h, s, q1, q2, q3, q4⟩ := toy_provision (a := toyApproval 4 toyHash) H hph
    (by rcases hdoc with hd | hd <;> rw [hd] <;> rfl) h0 hin heph List.mem_cons_self
    ((approval_verify_iff ..).1 toy_share_approval)
  obtain ⟨live, h1⟩ := toy_pair (toyEnv.seedAt 1)
  obtain ⟨eb, -, heb⟩ := storage_roundtrip nextEnvelope next_ok
  obtain ⟨s1, der, sents, g1, -, g2⟩ := forwarding_provisions (E := toyEnv) (E' := toyEnv) q1 q2 toy_io q3 toyEnv_ok toy_fresh
    toy_device toy_io rfl h0 h1 (e := nextEnvelope) (pivot := [4, 5, 6]) next_ok next_approved rfl rfl toy_measured
    (by rw [Envelope.manifest_withShares]; exact toy_succeeds) rfl toy_recognises toy_boot_fits toy_export_fits
    (C1 := forwardSetting [("envelope", eb), ("pivot", [4, 5, 6])]) rfl (envelopePath := "envelope") (pivotPath := "pivot")
    (docPath := "doc") ⟨eb, rfl, heb⟩ rfl rfl
  obtain ⟨s2, ct, sig, sents2, k1, k0, -, -, k2⟩ := g2 (forwardSetting [("envelope", eb), ("doc", der)]) "envelope" "doc" "key" rfl
    ⟨eb, rfl, heb⟩ rfl rfl
  obtain ⟨j1, -, j2⟩ := k2 (forwardSetting [("key", keyFile ct sig)]) "key" rfl rfl
  have hf : Forwarded toyPrims toyEnvelope.manifest nextEnvelope.manifest :=
    ⟨toyEnv, noFiles, h, s, toyEnvelope.withShares [toyApproval 4 toyHash, toyApproval 4 toyHash], nextEnvelope, [1, 2, 3], der,
      ct, sig, rfl, q1, q2, q3, Envelope.manifest_withShares .., rfl, k0⟩
  exact ⟨s, s1, s2, forwardSetting [("envelope", eb), ("pivot", [4, 5, 6])], forwardSetting [("envelope", eb), ("doc", der)],
    forwardSetting [("key", keyFile ct sig)], _, _, q2, g1, k1, j1, hf, j2⟩

-- C16 `forwarding_never_downgrades`: a chain of one export that raises the nonce.
example : Relation.ReflTransGen (Forwarded toyPrims) toyEnvelope.manifest nextEnvelope.manifest ∧
    toyEnvelope.manifest.namespaceOf.nonce < nextEnvelope.manifest.namespaceOf.nonce := by
  obtain ⟨_, _, _, _, _, _, _, _, _, _, _, _, h, _⟩ := toy_forwarding
  exact ⟨.single h, by show (3 : UInt32) < 4; decide⟩

end Qos.Client
