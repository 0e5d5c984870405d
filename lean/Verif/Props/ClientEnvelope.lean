import Verif.Props.ClientGenerate
/-!
# C47: assembling a manifest envelope

Concrete cases: `toy_deployment` in `Props/ClientPipeline.lean` assembles and writes an envelope.
-/
namespace Qos.Client
open P256 (Pair Public)
variable {S : Type}

theorem approvalName_iff (n : String) :
    (isApprovalFile n && !(['.', '_'].isPrefixOf n.toList)) = true ↔ IsApprovalName n := by
  unfold IsApprovalName isApprovalFile
  rw [Bool.and_eq_true, decide_eq_true_iff, splitStr_last (by decide), ← dotUnderscore_iff]
  have : (∃ r, n = r ++ String.singleton '.' ++ "approval") ↔ ∃ stem, n = stem ++ ".approval" := by
    constructor
    · rintro ⟨r, h⟩
      exact ⟨r, by rw [h]; exact String.toList_inj.mp (by simp)⟩
    · rintro ⟨r, h⟩
      exact ⟨r, by rw [h]; exact String.toList_inj.mp (by simp)⟩
  rw [this]
  cases ['.', '_'].isPrefixOf n.toList <;> simp

/-- The approval read is the one in the file, by a listed member, over the manifest's hash. -/
theorem readApproval_ok {C : Setting S} {m : VersionedManifest} {path : String} {a : Approval} :
    readApproval C m path = .ok a ↔ (∃ c, C.disk.file path = some c ∧ fromJsonSlice JCodec.approval c = some a) ∧
      a.member ∈ m.manifestSet.members ∧ a.member.Signed C.prims (m.hash C.prims) a.signature := by
  unfold readApproval
  simp only [ebind_ok, orStop_ok, guardStop_ok, mapStop_ok, epure_ok, signed_iff]
  constructor
  · rintro ⟨c, hc, a', ha, _, hm, k, hk, _, hv, rfl⟩
    exact ⟨⟨c, hc, ha⟩, by simpa using hm, k, hk, hv⟩
  · rintro ⟨⟨c, hc, ha⟩, hm, k, hk, hv⟩
    exact ⟨c, hc, a, ha, (), by simpa using hm, k, hk, (), hv, rfl⟩

theorem forall2_and {α β : Type} {r : α → β → Prop} {q : β → Prop} {l : List α} {k : List β} :
    List.Forall₂ (fun a b => r a b ∧ q b) l k ↔ List.Forall₂ r l k ∧ ∀ b ∈ k, q b := by
  constructor
  · intro h
    induction h with
    | nil => exact ⟨.nil, by simp⟩
    | cons h _ ih =>
      refine ⟨.cons h.1 ih.1, ?_⟩
      intro b hb
      rcases List.mem_cons.mp hb with rfl | hb
      · exact h.2
      · exact ih.2 b hb
  · rintro ⟨h, hq⟩
    induction h with
    | nil => exact .nil
    | cons h _ ih => exact .cons ⟨h, hq _ (by simp)⟩ (ih fun b hb => hq b (by simp [hb]))

theorem findApprovals_ok {C : Setting S} {dir : String} {m : VersionedManifest} {as : List Approval} :
    findApprovals C dir m = .ok as ↔ ApprovalsIn C.disk dir as ∧
      (∀ a ∈ as, a.member ∈ m.manifestSet.members ∧ a.member.Signed C.prims (m.hash C.prims) a.signature) ∧
      m.manifestSet.threshold.toNat ≤ as.length := by
  unfold findApprovals ApprovalsIn
  simp only [ebind_ok, findFileNames_ok, mapM_ok, readApproval_ok, guardStop_ok, epure_ok, decide_eq_true_eq, forall2_and]
  have key : ∀ names : List String,
      (names.filter fun n => !(['.', '_'].isPrefixOf n.toList)).filter isApprovalFile =
      names.filter fun n => @decide (IsApprovalName n) (Classical.propDecidable _) := by
    intro names
    rw [List.filter_filter]
    apply List.filter_congr
    intro n _
    have := approvalName_iff n
    cases h : (isApprovalFile n && !(['.', '_'].isPrefixOf n.toList)) with
    | true => simp [this.mp h]
    | false =>
      have hn : ¬ IsApprovalName n := fun hk => by rw [this.mpr hk] at h; cases h
      simp [hn]
  constructor
  · rintro ⟨_, ⟨names, hd, rfl⟩, as', ⟨h1, h2⟩, _, h3, rfl⟩
    rw [key] at h1
    exact ⟨⟨names, hd, h1⟩, h2, h3⟩
  · rintro ⟨⟨names, hd, h1⟩, h2, h3⟩
    rw [← key] at h1
    exact ⟨_, ⟨names, hd, rfl⟩, as, ⟨h1, h2⟩, (), h3, rfl⟩

theorem envelopeOf_fields (as : List Approval) (m : VersionedManifest) : (envelopeOf as m).manifest = m ∧
    (envelopeOf as m).manifestSetApprovals = as ∧ (envelopeOf as m).shareSetApprovals = [] := by
  cases m <;> exact ⟨rfl, rfl, rfl⟩

theorem envelope_eta {e : Envelope} (h : e.shareSetApprovals = []) : envelopeOf e.manifestSetApprovals e.manifest = e := by
  cases e with
  | v2 e => cases e; simp only [Envelope.shareSetApprovals] at h; subst h; rfl
  | v1 e => cases e; simp only [Envelope.shareSetApprovals] at h; subst h; rfl
  | v0 e => cases e; simp only [Envelope.shareSetApprovals] at h; subst h; rfl

/-- C47: the envelope assembled contains the manifest in the file, exactly the approvals in the directory, and they are
a quorum of the manifest set. Conversely a directory with a quorum yields its envelope (up to colliding member
hashes). -/
theorem envelope_sound (C : Setting S) (dir mpath : String) (e : Envelope) (h : envelopeChecks C dir mpath = .ok e) :
    ManifestIn C.disk mpath e.manifest ∧ ApprovalsIn C.disk dir e.manifestSetApprovals ∧ e.shareSetApprovals = [] ∧
      Quorum C.prims (e.manifest.hash C.prims) e.manifest.manifestSet e.manifestSetApprovals := by
  unfold envelopeChecks at h
  simp only [ebind_ok, readManifest_iff, findApprovals_ok, mapStop_ok, epure_ok] at h
  obtain ⟨m, hm, as, ⟨h1, _, _⟩, _, hc, rfl⟩ := h
  obtain ⟨e1, e2, e3⟩ := envelopeOf_fields as m
  have := check_approvals_sound C.prims _ hc
  rw [e1, e2] at this ⊢
  exact ⟨hm, h1, e3, this⟩

theorem envelope_complete (C : Setting S) (dir mpath : String) (e : Envelope) (hm : ManifestIn C.disk mpath e.manifest)
    (ha : ApprovalsIn C.disk dir e.manifestSetApprovals) (hs : e.shareSetApprovals = [])
    (hq : Quorum C.prims (e.manifest.hash C.prims) e.manifest.manifestSet e.manifestSetApprovals)
    (hc : ∀ a ∈ e.manifestSetApprovals, ∀ b ∈ e.manifestSetApprovals,
      a.member.hash C.prims = b.member.hash C.prims → a.member = b.member) :
    envelopeChecks C dir mpath = .ok e := by
  unfold envelopeChecks
  simp only [ebind_ok, readManifest_iff, findApprovals_ok, mapStop_ok, epure_ok]
  exact ⟨_, hm, _, ⟨ha, fun a h => ⟨hq.listed a h, hq.signed a h⟩, hq.enough⟩, (),
    by rw [envelope_eta hs]; exact check_approvals_complete _ _ hq hc, envelope_eta hs⟩

theorem approvalsIn_ok {d : Disk} {dir : String} {as : List Approval} (h : ApprovalsIn d dir as) :
    ∀ a ∈ as, JCodec.approval.ok a := by
  obtain ⟨names, _, h⟩ := h
  revert h
  generalize names.filter _ = l
  intro h
  induction h with
  | nil => simp
  | cons h _ ih =>
    intro a ha
    rcases List.mem_cons.mp ha with rfl | ha
    · obtain ⟨c, _, hc⟩ := h
      unfold fromJsonSlice at hc
      split at hc
      · exact JCodec.lawful_approval.dec_ok _ _ hc
      · cases hc
    · exact ih a ha

/-- Every manifest read from JSON can be stored and read again. -/
theorem json_manifest_ok (c : Bytes) (m : VersionedManifest) (h : VersionedManifest.tryFromSliceCompat c = some m)
    (hj : Borsh.decodeManifest c = none) : m.Ok := by
  have key : ∀ {α : Type} {k : JCodec α} (hk : k.Lawful) {a : α}, fromJsonSlice k c = some a → k.ok a := by
    intro α k hk a h
    unfold fromJsonSlice at h
    split at h
    · exact hk.dec_ok _ _ h
    · cases h
  unfold VersionedManifest.tryFromSliceCompat at h
  split at h
  · obtain ⟨m', hm, rfl⟩ := Option.map_eq_some_iff.mp h
    exact key JCodec.lawful_manifestV2 hm
  · split at h
    · cases h; exact key JCodec.lawful_manifest (by assumption)
    · split at h
      · cases h; exact key JCodec.lawful_manifestV0 (by assumption)
      · rw [hj] at h; cases h

/-- C47: an envelope is written only around the manifest in the file, with exactly the approvals in the directory,
which form a quorum; and the file reads back as that envelope. -/
theorem envelope_written (C : Setting S) (dir mpath : String) (out : Option String) (s : S) (path : String) (c : Bytes)
    (h : .wrote path c ∈ (generateManifestEnvelope C dir mpath out s).events)
    (hok : ∀ m, ManifestIn C.disk mpath m → m.Ok) :
    path = out.getD (pathJoin dir "manifest_envelope") ∧ ∃ e, Envelope.tryFromSliceCompat c = some e ∧
      ManifestIn C.disk mpath e.manifest ∧ ApprovalsIn C.disk dir e.manifestSetApprovals ∧ e.shareSetApprovals = [] ∧
      Quorum C.prims (e.manifest.hash C.prims) e.manifest.manifestSet e.manifestSetApprovals := by
  unfold generateManifestEnvelope at h
  rcases Run.lift_cases (envelopeChecks C dir mpath) _ s with ⟨e, he, hrun⟩ | ⟨e, he, hrun⟩
  · rw [hrun] at h
    cases h
  · rw [hrun] at h
    obtain ⟨h1, h2, h3, h4⟩ := envelope_sound C dir mpath e he
    have hao := approvalsIn_ok h2
    have hm := hok _ h1
    have hsh : ∀ a ∈ e.shareSetApprovals, JCodec.approval.ok a := by rw [h3]; simp
    have hOk : e.Ok := by
      cases e with
      | v2 e => exact ⟨hm, hao, hsh⟩
      | v1 e => exact ⟨hm, hao, hsh⟩
      | v0 e => exact ⟨hm, hao, hsh⟩
    obtain ⟨b, hb, hback⟩ := storage_roundtrip e hOk
    rw [Run.lift_ok (a := b) (by rw [hb]; rfl)] at h
    unfold write at h
    split at h
    · simp only [List.mem_singleton, Event.wrote.injEq] at h
      obtain ⟨rfl, rfl⟩ := h
      exact ⟨rfl, e, hback, h1, h2, h3, h4⟩
    · cases h

end Qos.Client
