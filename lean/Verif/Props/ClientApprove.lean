import Verif.Spec.Client
import Verif.Props.ClientFiles
import Verif.Props.Approvals
import Verif.Props.Storage
import Verif.Props.Builder
import Verif.Lemmas.Reaper
/-!
# C44, C45: generating and approving a manifest

Concrete cases: the toy operators of `Props/ClientPipeline.lean` (`toyOperator … Approves`), `toy_approve_command`,
and `toy_generated` / `toy_generated_v1` for manifests that agree with the local files.
-/
namespace Qos.Client
open P256 (Pair Public)
variable {S : Type}

/-! ## Helper facts -/

theorem SetIn.unique {p : Prims} {d : Disk} {dir : String} {s t : QuorumSet} (h : SetIn p d dir s) (h' : SetIn p d dir t) :
    s = t := by
  have h1 := (set_exact p d dir s).mpr h
  have h2 := (set_exact p d dir t).mpr h'
  rw [h1] at h2
  cases h2; rfl

theorem PatchSetIn.unique {p : Prims} {d : Disk} {dir : String} {s t : PatchSet} (h : PatchSetIn p d dir s)
    (h' : PatchSetIn p d dir t) : s = t := by
  have h1 := (patch_set_exact p d dir s).mpr h
  have h2 := (patch_set_exact p d dir t).mpr h'
  rw [h1] at h2
  cases h2; rfl

theorem NitroIn.unique {p : Prims} {r : Bytes} {d : Disk} {x y : String} {s t : NitroConfig} (h : NitroIn p r d x y s)
    (h' : NitroIn p r d x y t) : s = t := by
  have h1 := (nitro_exact p r d x y s).mpr h
  have h2 := (nitro_exact p r d x y t).mpr h'
  rw [h1] at h2
  cases h2; rfl

theorem PivotHashIn.unique {d : Disk} {x : String} {s t : Bytes} (h : PivotHashIn d x s) (h' : PivotHashIn d x t) :
    s = t := by
  have h1 := (pivot_hash_exact d x s).mpr h
  have h2 := (pivot_hash_exact d x t).mpr h'
  rw [h1] at h2
  cases h2; rfl

theorem KeyIn.unique {p : Prims} {d : Disk} {x : String} {s t : Bytes} (h : KeyIn p d x s) (h' : KeyIn p d x t) :
    s = t := by
  obtain ⟨k, h1, rfl⟩ := (publicFromFile_iff p d x s).mpr h
  obtain ⟨k', h2, rfl⟩ := (publicFromFile_iff p d x t).mpr h'
  rw [h1] at h2
  cases h2; rfl

theorem localPatchSet_ok {C : Setting S} {m : VersionedManifest} {dir : Option String} {ps : Option PatchSet} :
    (localPatchSet C m dir = .ok ps ∧ patchSetMatches m ps = true) ↔
    ps = patchOf m ∧ (∀ s, patchOf m = some s → ∃ x, dir = some x ∧ PatchSetIn C.prims C.disk x s) ∧
      (patchOf m = none → dir = none) := by
  cases m with
  | v2 m => cases dir <;> simp [localPatchSet, patchSetMatches, patchOf, eq_comm]
  | v1 m =>
    cases dir with
    | none => simp [localPatchSet, patchOf]
    | some x =>
      simp only [localPatchSet, ebind_ok, epure_ok, patch_set_exact, patchSetMatches, patchOf]
      constructor
      · rintro ⟨⟨s, hs, rfl⟩, h⟩
        simp only [Option.some.injEq, decide_eq_true_eq] at h
        subst h
        simp [hs]
      · rintro ⟨rfl, h, _⟩
        obtain ⟨y, hy, h⟩ := h _ rfl
        cases hy
        exact ⟨⟨_, h, rfl⟩, by simp⟩
  | v0 m =>
    cases dir with
    | none => simp [localPatchSet, patchOf]
    | some x =>
      simp only [localPatchSet, ebind_ok, epure_ok, patch_set_exact, patchSetMatches, patchOf]
      constructor
      · rintro ⟨⟨s, hs, rfl⟩, h⟩
        simp only [Option.some.injEq, decide_eq_true_eq] at h
        subst h
        simp [hs]
      · rintro ⟨rfl, h, _⟩
        obtain ⟨y, hy, h⟩ := h _ rfl
        cases hy
        exact ⟨⟨_, h, rfl⟩, by simp⟩

theorem readManifest_iff {d : Disk} {path : String} {m : VersionedManifest} :
    readManifest d path = .ok m ↔ ManifestIn d path m := by
  unfold readManifest ManifestIn
  simp only [ebind_ok, orStop_ok]

theorem readEnvelope_iff {d : Disk} {path : String} {e : Envelope} :
    readEnvelope d path = .ok e ↔ EnvelopeIn d path e := by
  unfold readEnvelope EnvelopeIn
  simp only [ebind_ok, orStop_ok]

/-- The checks pass exactly on a manifest that agrees with the local files. -/
theorem approveChecks_iff (C : Setting S) (a : ApproveArgs) (m : VersionedManifest) :
    approveChecks C a = .ok m ↔
      ManifestIn C.disk a.manifestPath m ∧ LocalMatch C.prims C.awsRoot C.disk a.places m := by
  unfold approveChecks
  simp only [ebind_ok, epure_ok, readManifest_iff, orStop_ok, guardStop_ok, set_exact, nitro_exact, pivot_hash_exact]
  constructor
  · rintro ⟨m', hm, k, hk, ps, hps, ms, hms, ss, hss, n, hn, ph, hph, _, hv, rfl⟩
    unfold approveVerifications at hv
    simp only [Bool.and_eq_true, decide_eq_true_eq] at hv
    obtain ⟨⟨⟨⟨⟨rfl, rfl⟩, hp⟩, rfl⟩, rfl⟩, hq⟩ := hv
    obtain ⟨_, h1, h2⟩ := localPatchSet_ok.mp ⟨hps, hp⟩
    exact ⟨hm, hms, hss, h1, h2, hn, hph, (publicFromFile_iff _ _ _ _).mp ⟨k, hk, hq.symm⟩⟩
  · rintro ⟨hm, h⟩
    obtain ⟨k, hk, hq⟩ := (publicFromFile_iff _ _ _ _).mpr h.quorumKey
    obtain ⟨hps, hp⟩ := (localPatchSet_ok (C := C)).mpr ⟨rfl, h.patchSet, h.noPatchSet⟩
    refine ⟨m, hm, k, hk, _, hps, _, h.manifestSet, _, h.shareSet, _, h.enclave, _, h.pivotHash, (), ?_, rfl⟩
    unfold approveVerifications
    simp [hp, hq]

theorem mem_allConfirmed {qs : List Question} {es : List Event} (h : AllConfirmed qs es) {q : Question} (hq : q ∈ qs) :
    Saw es q := by
  induction h with
  | nil => cases hq
  | cons h _ ih =>
    obtain ⟨ans, rfl, hc⟩ := h
    rcases List.mem_cons.mp hq with rfl | hq
    · exact ⟨ans, by simp, hc⟩
    · obtain ⟨a, h1, h2⟩ := ih hq
      exact ⟨a, by simp [h1], h2⟩

theorem reviewed_of {m : VersionedManifest} {es : List Event} (h : AllConfirmed (approveQuestions m) es) :
    Reviewed m es := by
  constructor
  all_goals first
    | exact mem_allConfirmed h (by simp [approveQuestions])
    | (rintro v rfl; exact mem_allConfirmed h (by simp [approveQuestions, dnsQuestions]))

theorem not_wrote_interview (qs : List Question) (input : List String) (path : String) (c : Bytes) :
    Event.wrote path c ∉ (interview qs input).2 := by
  induction qs generalizing input with
  | nil => simp [interview]
  | cons q qs ih =>
    unfold interview
    simp only
    split
    · simp [ih]
    · simp

theorem approvalOk (a : Approval) (h1 : 2 * a.signature.length < 256 * 1024 * 1024)
    (h2 : 2 * a.member.pubKey.length < 256 * 1024 * 1024) : JCodec.approval.ok a := by
  simp only [JCodec.approval, JCodec.quorumMember, JCodec.struct, Fields.imap, Fields.both, Fields.req, JCodec.hexVec,
    JCodec.string, Hex.strMaxLength, true_and]
  exact ⟨by omega, by omega⟩

theorem approval_reads (a : Approval) (h1 : 2 * a.signature.length < 256 * 1024 * 1024)
    (h2 : 2 * a.member.pubKey.length < 256 * 1024 * 1024) : fromJsonSlice JCodec.approval (approvalBytes a) = some a := by
  unfold approvalBytes
  rw [fromJsonSlice_some (JCodec.lawful_approval.parse_write (by decide) (approvalOk a h1 h2))]
  exact JCodec.lawful_approval.dec_enc a (approvalOk a h1 h2)

/-- The public key of two secrets is readable, and read back unchanged. -/
theorem public_of_secrets (p : Prims) (hp : p.Laws) (k : Pair) (h : p.scalarOk k.encSecret ∧ p.scalarOk k.signSecret) :
    Public.fromBytes p (k.publicKey p).toBytes = .ok (k.publicKey p) ∧ (k.publicKey p).toBytes.length = 130 := by
  have l1 := hp.point_length _ h.1
  have l2 := hp.point_length _ h.2
  refine ⟨(P256.public_fromBytes_iff _ _ _).2 ?_, by simp [Public.toBytes, Pair.publicKey, l1, l2]⟩
  simp only [Pair.publicKey, Public.toBytes]
  rw [List.take_append_of_le_length (by omega), List.take_of_length_le (by omega),
    List.drop_append_of_le_length (by omega), List.drop_of_length_le (by omega)]
  simp [l1, l2, hp.point_ok _ h.1, hp.point_ok _ h.2]

theorem signature_text (p : Prims) (hp : p.Laws) (pair : Pair) (hk : p.scalarOk pair.encSecret ∧ p.scalarOk pair.signSecret)
    (name : String) (hash sig : Bytes) (hv : (pair.publicKey p).verify p hash sig = .ok ()) :
    ApprovalText p name (pair.publicKey p).toBytes hash (approvalBytes ⟨sig, ⟨name, (pair.publicKey p).toBytes⟩⟩) := by
  obtain ⟨hpub, hlen⟩ := public_of_secrets p hp pair hk
  have hsig : sig.length = 64 := by
    refine hp.sig_length _ ?_
    unfold Public.verify at hv
    split at hv
    · assumption
    · cases hv
  refine ⟨_, approval_reads _ ?_ ?_, rfl, ?_⟩
  · show 2 * sig.length < _
    rw [hsig]; decide
  · show 2 * (pair.publicKey p).toBytes.length < _
    rw [hlen]; decide
  · rw [signed_iff]
    exact ⟨_, hpub, hv⟩

theorem signed_secrets (p : Prims) (hp : p.Laws) (pair : Pair) (hk : p.scalarOk pair.encSecret ∧ p.scalarOk pair.signSecret)
    (name : String) (hash : Bytes) :
    ApprovalText p name (pair.publicKey p).toBytes hash (approvalBytes (signApproval p pair name hash)) := by
  refine signature_text p hp pair hk name hash (pair.sign p hash) ?_
  simp [Public.verify, Pair.sign, Pair.publicKey, hp.sign_ok _ _ hk.2, hp.verify_sign _ _ hk.2]

theorem signed_approval (p : Prims) (hp : p.Laws) (seed : Bytes) (pair : Pair) (hk : Pair.fromMasterSeed p seed = .ok pair)
    (name : String) (hash : Bytes) :
    ApprovalText p name (pair.publicKey p).toBytes hash (approvalBytes (signApproval p pair name hash)) :=
  signed_secrets p hp pair (P256.pair_scalars p seed pair hk) name hash

theorem approvalName_for (member : String) (m : VersionedManifest) : IsNameFor member m (approvalName member m) := by
  refine ⟨dashed m.namespaceOf.name, ?_, ?_⟩
  · unfold approvalName
    rw [← Reaper.natText_toString, String.ofList_toList]
  · unfold dashed
    rw [String.toList_ofList]
    exact List.forall₂_map_right_iff.mpr (List.forall₂_same.mpr fun _ _ => rfl)

/-! ## Property theorems -/

/-- C44: the approval lies directly in the directory: its file name has no separator unless the alias has one. -/
theorem approval_name_flat {member : String} {m : VersionedManifest} {name : String} (h : IsNameFor member m name)
    (hm : '/' ∉ member.toList) : '/' ∉ name.toList := by
  obtain ⟨ns, rfl, hf⟩ := h
  have hns : '/' ∉ ns.toList := by
    generalize m.namespaceOf.name.toList = a at hf
    generalize ns.toList = b at hf
    induction hf with
    | nil => simp
    | @cons c d _ _ hcd _ ih =>
      rw [List.mem_cons, not_or]
      refine ⟨?_, ih⟩
      rw [hcd]
      split
      · decide
      · rename_i hc
        exact fun h => hc h.symm
  have hn : '/' ∉ (toString m.namespaceOf.nonce.toNat).toList := by
    rw [Reaper.natText_toString]
    intro hmem
    exact absurd (natText_digits _ _ hmem) (by decide)
  simp only [String.toList_append, List.mem_append, not_or]
  exact ⟨⟨⟨⟨⟨hm, by decide⟩, hns⟩, by decide⟩, hn⟩, by decide⟩

/-- The same for any two secrets. -/
theorem approve_safe_secrets (C : Setting S) (hp : C.prims.Laws) (pair : Pair)
    (hk : C.prims.scalarOk pair.encSecret ∧ C.prims.scalarOk pair.signSecret) (a : ApproveArgs) (input : List String) (s : S)
    (path : String) (contents : Bytes) (h : .wrote path contents ∈ (approveManifest C pair a input s).events) :
    ∃ m es, ManifestIn C.disk a.manifestPath m ∧ LocalMatch C.prims C.awsRoot C.disk a.places m ∧
      (approveManifest C pair a input s).events = es ++ [.wrote path contents] ∧
      (a.autoConfirm = false → Reviewed m es) ∧
      ApprovalText C.prims a.memberAlias (pair.publicKey C.prims).toBytes (m.hash C.prims) contents ∧
      (∃ name, IsNameFor a.memberAlias m name ∧ path = pathJoin a.approvalsDir name) ∧
      (approveManifest C pair a input s).state = s := by
  unfold approveManifest at h ⊢
  rcases Run.lift_cases (approveChecks C a) _ s with ⟨e, he, hr⟩ | ⟨m, hm, hr⟩
  · rw [hr] at h
    cases h
  · rw [hr] at h ⊢
    obtain ⟨h1, h2⟩ := (approveChecks_iff C a m).mp hm
    rw [confirm_bind] at h ⊢
    by_cases ha : a.autoConfirm = true
    · rw [if_pos ha] at h ⊢
      unfold write at h ⊢
      by_cases hw : C.disk.writable (pathJoin a.approvalsDir (approvalName a.memberAlias m)) = true
      · rw [if_pos hw] at h ⊢
        simp only [List.mem_singleton, Event.wrote.injEq] at h
        obtain ⟨rfl, rfl⟩ := h
        exact ⟨m, [], h1, h2, rfl, by simp [ha], signed_secrets _ hp pair hk _ _, ⟨_, approvalName_for _ _, rfl⟩, rfl⟩
      · rw [if_neg hw] at h
        cases h
    · rw [if_neg ha] at h ⊢
      by_cases hi : (interview (approveQuestions m) input).1 = true
      · rw [if_pos hi] at h ⊢
        unfold write at h ⊢
        by_cases hw : C.disk.writable (pathJoin a.approvalsDir (approvalName a.memberAlias m)) = true
        · rw [if_pos hw] at h ⊢
          simp only [List.mem_append, List.mem_singleton, Event.wrote.injEq] at h
          rcases h with h | ⟨rfl, rfl⟩
          · exact absurd h (not_wrote_interview _ _ _ _)
          · exact ⟨m, _, h1, h2, rfl, fun _ => reviewed_of (interview_confirmed _ _ hi),
              signed_secrets _ hp pair hk _ _, ⟨_, approvalName_for _ _, rfl⟩, rfl⟩
        · rw [if_neg hw] at h
          simp only [List.append_nil] at h
          exact absurd h (not_wrote_interview _ _ _ _)
      · rw [if_neg hi] at h
        exact absurd h (not_wrote_interview _ _ _ _)

/-- C44: an approval is written only for a manifest that agrees with the local files and was reviewed and confirmed
first; it is a genuine approval of that very manifest; nothing is sent. -/
theorem approve_safe (C : Setting S) (hp : C.prims.Laws) (seed : Bytes) (pair : Pair)
    (hk : Pair.fromMasterSeed C.prims seed = .ok pair) (a : ApproveArgs) (input : List String) (s : S)
    (path : String) (contents : Bytes) (h : .wrote path contents ∈ (approveManifest C pair a input s).events) :
    ∃ m es, ManifestIn C.disk a.manifestPath m ∧ LocalMatch C.prims C.awsRoot C.disk a.places m ∧
      (approveManifest C pair a input s).events = es ++ [.wrote path contents] ∧
      (a.autoConfirm = false → Reviewed m es) ∧
      ApprovalText C.prims a.memberAlias (pair.publicKey C.prims).toBytes (m.hash C.prims) contents ∧
      (∃ name, IsNameFor a.memberAlias m name ∧ path = pathJoin a.approvalsDir name) ∧
      (approveManifest C pair a input s).state = s :=
  approve_safe_secrets C hp pair (P256.pair_scalars _ seed pair hk) a input s path contents h

/-- C44: on a manifest that agrees with the local files, an operator who says yes to everything gets the approval. -/
theorem approve_complete (C : Setting S) (pair : Pair) (a : ApproveArgs) (input : List String) (s : S)
    (m : VersionedManifest) (hm : ManifestIn C.disk a.manifestPath m)
    (hl : LocalMatch C.prims C.awsRoot C.disk a.places m) (hi : 8 ≤ input.length) (hy : ∀ l ∈ input, IsYes l)
    (hw : ∀ path, C.disk.writable path = true) :
    (approveManifest C pair a input s).result = .ok () ∧
    ∃ path c, .wrote path c ∈ (approveManifest C pair a input s).events := by
  unfold approveManifest
  rw [Run.lift_ok ((approveChecks_iff C a m).mpr ⟨hm, hl⟩), confirm_bind]
  have hq : (approveQuestions m).length ≤ input.length := by
    refine Nat.le_trans ?_ hi
    cases m <;> simp [approveQuestions, dnsQuestions]
  have hin := interview_yes (approveQuestions m) input hq hy
  unfold write
  by_cases ha : a.autoConfirm = true
  · rw [if_pos ha, if_pos (hw _)]
    exact ⟨rfl, _, _, List.mem_singleton.mpr rfl⟩
  · rw [if_neg ha, if_pos hin, if_pos (hw _)]
    exact ⟨rfl, _, _, List.mem_append_right _ (List.mem_singleton.mpr rfl)⟩

/-- C44: a manifest that disagrees with a local file is never approved, and the operator is not even asked. -/
theorem approve_refuses (C : Setting S) (pair : Pair) (a : ApproveArgs) (input : List String) (s : S)
    (h : ∀ m, ManifestIn C.disk a.manifestPath m → ¬ LocalMatch C.prims C.awsRoot C.disk a.places m) :
    (approveManifest C pair a input s).events = [] := by
  unfold approveManifest
  rcases Run.lift_cases (approveChecks C a) _ s with ⟨e, he, hr⟩ | ⟨m, hm, hr⟩
  · rw [hr]
  · obtain ⟨h1, h2⟩ := (approveChecks_iff C a m).mp hm
    exact absurd h2 (h m h1)

/-- The same, when the version field of a V2 manifest is as it is in every manifest that was read. -/
theorem covers_version (p : Prims) (awsRoot : Bytes) (d : Disk) (w : Places) (m m' : VersionedManifest)
    (h : LocalMatch p awsRoot d w m) (h' : LocalMatch p awsRoot d w m') (hm : ∀ a, m = .v2 a → a.version = .v2)
    (hm' : ∀ a, m' = .v2 a → a.version = .v2) (hq : approveQuestions m = approveQuestions m') : SameButEnv m m' := by
  have e1 := h.manifestSet.unique h'.manifestSet
  have e2 := h.shareSet.unique h'.shareSet
  have e3 := h.enclave.unique h'.enclave
  have e4 := h.pivotHash.unique h'.pivotHash
  have e5 := h.quorumKey.unique h'.quorumKey
  have e6 : ∀ s s', patchOf m = some s → patchOf m' = some s' → s = s' := by
    intro s s' hs hs'
    obtain ⟨x, hx, h1⟩ := h.patchSet s hs
    obtain ⟨y, hy, h2⟩ := h'.patchSet s' hs'
    rw [hx] at hy
    cases hy
    exact h1.unique h2
  cases m with
  | v2 a =>
    cases m' with
    | v2 b =>
      have hva : a.version = .v2 := hm a rfl
      have hvb : b.version = .v2 := hm' b rfl
      obtain ⟨va, ⟨na, ca, ka⟩, ⟨ha, ra, ba, da, aa, ea⟩, msa, ssa, nca, dna⟩ := a
      obtain ⟨vb, ⟨nb, cb, kb⟩, ⟨hb, rb, bb, db, ab, eb⟩, msb, ssb, ncb, dnb⟩ := b
      simp only [approveQuestions, dnsQuestions, VersionedManifest.versionLabel, VersionedManifest.namespaceOf,
        VersionedManifest.restart, VersionedManifest.args, VersionedManifest.debugMode, VersionedManifest.bridgeConfig,
        VersionedManifest.manifestSet, VersionedManifest.shareSet, VersionedManifest.enclave,
        VersionedManifest.pivotHash] at hq e1 e2 e3 e4 e5 hva hvb
      simp at hq
      simp [SameButEnv, *]
    | v1 b => simp [approveQuestions, VersionedManifest.versionLabel] at hq
    | v0 b => simp [approveQuestions, VersionedManifest.versionLabel] at hq
  | v1 a =>
    cases m' with
    | v2 b => simp [approveQuestions, VersionedManifest.versionLabel] at hq
    | v1 b =>
      have e7 := e6 _ _ rfl rfl
      obtain ⟨⟨na, ca, ka⟩, ⟨ha, ra, ba, da, aa⟩, msa, ssa, nca, pa⟩ := a
      obtain ⟨⟨nb, cb, kb⟩, ⟨hb, rb, bb, db, ab⟩, msb, ssb, ncb, pb⟩ := b
      simp only [approveQuestions, dnsQuestions, VersionedManifest.versionLabel, VersionedManifest.namespaceOf,
        VersionedManifest.restart, VersionedManifest.args, VersionedManifest.debugMode, VersionedManifest.bridgeConfig,
        VersionedManifest.manifestSet, VersionedManifest.shareSet, VersionedManifest.enclave,
        VersionedManifest.pivotHash] at hq e1 e2 e3 e4 e5 e7
      simp at hq
      simp [SameButEnv, *]
    | v0 b => simp [approveQuestions, VersionedManifest.versionLabel] at hq
  | v0 a =>
    cases m' with
    | v2 b => simp [approveQuestions, VersionedManifest.versionLabel] at hq
    | v1 b => simp [approveQuestions, VersionedManifest.versionLabel] at hq
    | v0 b =>
      have e7 := e6 _ _ rfl rfl
      obtain ⟨⟨na, ca, ka⟩, ⟨ha, ra, aa⟩, msa, ssa, nca, pa⟩ := a
      obtain ⟨⟨nb, cb, kb⟩, ⟨hb, rb, ab⟩, msb, ssb, ncb, pb⟩ := b
      simp only [approveQuestions, dnsQuestions, VersionedManifest.versionLabel, VersionedManifest.namespaceOf,
        VersionedManifest.restart, VersionedManifest.args, VersionedManifest.debugMode, VersionedManifest.bridgeConfig,
        VersionedManifest.manifestSet, VersionedManifest.shareSet, VersionedManifest.enclave,
        VersionedManifest.pivotHash] at hq e1 e2 e3 e4 e5 e7
      simp at hq
      simp [SameButEnv, *]

/-- The version field of a well-formed V2 manifest. -/
theorem version_of_ok {m : VersionedManifest} (h : m.Ok) : ∀ a, m = .v2 a → a.version = .v2 := by
  rintro a rfl
  simp only [VersionedManifest.Ok, JCodec.manifestV2, JCodec.struct, Fields.imap, Fields.both, Fields.req,
    JCodec.v2Version] at h
  exact h.1

/-- C44: the checks and the questions together cover every field of a manifest except the pivot's environment:
two manifests that pass the same checks and raise the same questions differ in nothing else. -/
theorem approve_covers (p : Prims) (awsRoot : Bytes) (d : Disk) (w : Places) (m m' : VersionedManifest)
    (h : LocalMatch p awsRoot d w m) (h' : LocalMatch p awsRoot d w m') (hm : m.Ok) (hm' : m'.Ok)
    (hq : approveQuestions m = approveQuestions m') : SameButEnv m m' := by
  exact covers_version p awsRoot d w m m' h h' (version_of_ok hm) (version_of_ok hm') hq

/-- C44: the environment really is uncovered. Changing it leaves every check and every question as it was, but changes
the bytes that are hashed and signed. -/
theorem env_not_reviewed (p : Prims) (awsRoot : Bytes) (d : Disk) (w : Places) (m : ManifestV2) (env : Env.Map)
    (h : LocalMatch p awsRoot d w (.v2 m)) :
    let m' := { m with pivot := { m.pivot with env := env } }
    LocalMatch p awsRoot d w (.v2 m') ∧ approveQuestions (.v2 m') = approveQuestions (.v2 m) ∧
    (env ≠ m.pivot.env → (VersionedManifest.v2 m).Ok → (VersionedManifest.v2 m').Ok →
      (VersionedManifest.v2 m').hashInput ≠ (VersionedManifest.v2 m).hashInput) := by
  refine ⟨⟨h.manifestSet, h.shareSet, h.patchSet, h.noPatchSet, h.enclave, h.pivotHash, h.quorumKey⟩, rfl, ?_⟩
  intro hne h1 h2 he
  have := hashInput_injective (.v2 { m with pivot := { m.pivot with env := env } }) (.v2 m) h2 h1 rfl he
  simp only [VersionedManifest.v2.injEq] at this
  exact hne (congrArg (fun m : ManifestV2 => m.pivot.env) this)

end Qos.Client
