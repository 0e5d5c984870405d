import Verif.Lemmas.Boot
import Verif.Props.Approvals
/-!
# Boot, provisioning and injection keep the invariant: the pieces
-/
namespace Qos
open P256 Handles Services

variable {E : Env} {b : Boot} {reqs : List Msg}

/-! ## Envelopes -/

namespace Envelope

theorem withShares_nil (e : Envelope) : e.withShares [] = e := by
  cases e <;> simp [withShares]

theorem withShares_withShares (e : Envelope) (l l' : List Approval) :
    (e.withShares l).withShares l' = e.withShares (l ++ l') := by
  cases e <;> simp [withShares]

theorem push_eq (e : Envelope) (a : Approval) : e.pushShareApproval a = e.withShares [a] := by
  cases e <;> rfl

theorem manifest_withShares (e : Envelope) (l : List Approval) : (e.withShares l).manifest = e.manifest := by
  cases e <;> rfl

theorem manifestSet_withShares (e : Envelope) (l : List Approval) :
    (e.withShares l).manifestSetApprovals = e.manifestSetApprovals := by
  cases e <;> rfl

theorem shares_withShares (e : Envelope) (l : List Approval) :
    (e.withShares l).shareSetApprovals = e.shareSetApprovals ++ l := by
  cases e <;> rfl

/-- Appending well-formed approvals keeps an envelope well formed. -/
theorem withShares_ok {e : Envelope} {l : List Approval} (he : e.Ok) (hl : ∀ a ∈ l, JCodec.approval.ok a) :
    (e.withShares l).Ok := by
  have happ : ∀ l' : List Approval, (JCodec.vec JCodec.approval).ok l' →
      (JCodec.vec JCodec.approval).ok (l' ++ l) := by
    intro l' h' a ha
    rcases List.mem_append.1 ha with h | h
    · exact h' a h
    · exact hl a h
  cases e with
  | v2 e => exact ⟨he.1, he.2.1, happ _ he.2.2⟩
  | v1 e => exact ⟨he.1, he.2.1, happ _ he.2.2⟩
  | v0 e => exact ⟨he.1, he.2.1, happ _ he.2.2⟩

theorem approval_ok_iff (a : Approval) :
    JCodec.approval.ok a ↔ 2 * a.signature.length < Hex.strMaxLength ∧ JCodec.quorumMember.ok a.member := Iff.rfl

theorem share_member_ok {e : Envelope} (he : e.Ok) : ∀ m ∈ e.manifest.shareSet.members, JCodec.quorumMember.ok m := by
  cases e with
  | v2 e => exact he.1.2.2.2.2.1.2
  | v1 e => exact he.1.2.2.2.1.2
  | v0 e => exact he.1.2.2.2.1.2

end Envelope

/-- An approval that verifies and names a share-set member of a well-formed envelope is itself well formed. -/
theorem approval_ok {p : Prims} (hp : p.Laws) {e : Envelope} (he : e.Ok) {a : Approval} {h : Bytes}
    (hv : a.verify p h = .ok ()) (hm : a.member ∈ e.manifest.shareSet.members) : JCodec.approval.ok a := by
  have hs := (approval_verify_iff p a h).1 hv
  have hl := hp.sig_length _ hs.2.1
  refine ⟨?_, Envelope.share_member_ok he _ hm⟩
  show 2 * a.signature.length < Hex.strMaxLength
  rw [hl]; decide

/-- The envelope with posted approvals can be stored and read back. -/
theorem Boot.stored (hE : E.Ok) (hb : b.Ok E reqs) {posts : List (Bytes × Approval)} (hp : b.Posted E reqs posts) :
    (b.envelope.withShares (posts.map (·.2))).Ok := by
  refine Envelope.withShares_ok hb.wellFormed ?_
  intro a ha
  obtain ⟨x, hx, rfl⟩ := List.mem_map.1 ha
  exact approval_ok hE.laws hb.wellFormed (hp.signed x hx) (hp.listed x hx)

/-! ## Reading -/

theorem getManifestEnvelope_ends {s : St} {e : Envelope} {buf : Bytes} (he : e.Ok) (hb : e.toStorageVec = some buf)
    (hh : Holds s.files E.paths.manifest buf) {X : ProtocolError → St → Prop} {Q : Envelope → St → Prop}
    (hQ : Q e (bump s)) (hX : X .failedToGetManifestEnvelope (bump s)) : Ends (getManifestEnvelope E) s Q X := by
  obtain ⟨f, hf, rfl⟩ := hh
  obtain ⟨b', hb', hr⟩ := storage_roundtrip e he
  rw [hb, Option.some.injEq] at hb'
  subst hb'
  unfold getManifestEnvelope
  refine ends_bind (ends_run (readFile_run _ _ _) ?_)
  by_cases hio : E.io s.ios = .ok
  · rw [if_pos hio, hf]
    simp only [Option.map_some, hr]
    exact ends_pure hQ
  · rw [if_neg hio]
    exact ends_fail hX

/-- What a key file holds can be read back. -/
theorem readPair_ends {s : St} {path : String} {wrap : P256Error → ProtocolError} {k : Pair}
    (hl : k.seed.length = 32) (hk : Pair.fromMasterSeed E.prims k.seed = .ok k)
    (hh : Holds s.files path k.toMasterSeedHex) {X : ProtocolError → St → Prop} {Q : Pair → St → Prop}
    (hQ : Q k (bump s)) (hX : ∀ e, X e (bump s)) : Ends (readPair E path wrap) s Q X := by
  obtain ⟨f, hf, hd⟩ := hh
  unfold readPair
  refine ends_bind (ends_run (readFile_run _ _ _) ?_)
  by_cases hio : E.io s.ios = .ok
  · rw [if_pos hio, hf]
    simp only [Option.map_some, hd, hex_file_roundtrip _ _ hl, hk]
    exact ends_pure hQ
  · rw [if_neg hio]
    exact ends_fail (hX _)

theorem Boot.Ok.setup_seed (hE : E.Ok) (hb : b.Ok E reqs) :
    b.setup.seed.length = 32 ∧ Pair.fromMasterSeed E.prims b.setup.seed = .ok b.setup := by
  have h := pair_seed _ _ _ hb.setup
  rw [h]; exact ⟨hE.seeds 0, hb.setup⟩

theorem Boot.Ok.live_seed (hE : E.Ok) (hb : b.Ok E reqs) :
    b.live.seed.length = 32 ∧ Pair.fromMasterSeed E.prims b.live.seed = .ok b.live := by
  have h := pair_seed _ _ _ hb.live
  rw [h]; exact ⟨hE.seeds 1, hb.live⟩

/-! ## Single files -/

theorem Paths.Distinct.ne {p : Paths} (h : p.Distinct) :
    p.ephemeral ≠ p.quorum ∧ p.ephemeral ≠ p.manifest ∧ p.ephemeral ≠ p.pivot ∧ p.quorum ≠ p.manifest ∧
    p.quorum ≠ p.pivot ∧ p.manifest ≠ p.pivot := by
  have := h.nodup
  simp [Paths.all] at this
  tauto

/-- Changing one file other than the quorum key, while there is no quorum key. -/
theorem Boot.Snapshot.change {fs fs' : Files} (hs : b.Snapshot E reqs fs) (hq : fs E.paths.quorum = none)
    {q : String} (hne : q ≠ E.paths.quorum) (hsame : ∀ x ∈ E.paths.all, x ≠ q → fs' x = fs x)
    (he : q = E.paths.ephemeral → ∀ f, fs' q = some f →
      f.data = b.setup.toMasterSeedHex ∨ f.data = b.live.toMasterSeedHex)
    (hp : q = E.paths.pivot → ∀ f, fs' q = some f → f.data <+: b.pivot)
    (hm : q = E.paths.manifest → ∀ f, fs' q = some f → ∃ posts buf, b.Posted E reqs posts ∧
      (b.envelope.withShares (posts.map (·.2))).toStorageVec = some buf ∧ f.data <+: buf) :
    b.Snapshot E reqs fs' where
  ephemeral f hf := by
    by_cases h : E.paths.ephemeral = q
    · subst h; exact he rfl f hf
    · exact hs.ephemeral f (by rw [← hsame _ (mem_eph _) h]; exact hf)
  pivot f hf := by
    by_cases h : E.paths.pivot = q
    · subst h; exact hp rfl f hf
    · exact hs.pivot f (by rw [← hsame _ (mem_pivot _) h]; exact hf)
  manifest f hf := by
    by_cases h : E.paths.manifest = q
    · subst h; exact hm rfl f hf
    · exact hs.manifest f (by rw [← hsame _ (mem_manifest _) h]; exact hf)
  quorum f hf := by
    rw [hsame _ (mem_quorum _) (Ne.symm hne), hq] at hf
    cases hf

theorem set_same_of {fs : Files} {q : String} {f : Option File} : ∀ x ∈ E.paths.all, x ≠ q → fs.set q f x = fs x :=
  fun _ _ h => set_other _ _ h

/-- `chmod` keeps the invariant, and the contents of all files. -/
theorem chmod_ends {path : String} {mode : Nat} {s : St} (h : b.Since E reqs s.trace s.files) :
    ∃ r s', chmod E path mode s = (.ok r, s') ∧ b.Since E reqs s'.trace s'.files ∧ Rest s s' ∧
      (∀ q d, Holds s.files q d → Holds s'.files q d) ∧ (∀ q, s.files q = none → s'.files q = none) ∧
      (∀ q ∈ E.paths.all, q ≠ path → s'.files q = s.files q) := by
  rw [chmod_run]
  have triv : ∃ r s', ((Except.ok false, bump s) : Except ProtocolError Bool × St) = (.ok r, s') ∧
      b.Since E reqs s'.trace s'.files ∧ Rest s s' ∧
      (∀ q d, Holds s.files q d → Holds s'.files q d) ∧ (∀ q, s.files q = none → s'.files q = none) ∧
      (∀ q ∈ E.paths.all, q ≠ path → s'.files q = s.files q) :=
    ⟨false, bump s, rfl, h, ⟨rfl, rfl, rfl, rfl, rfl⟩, fun _ _ h => h, fun _ h => h, fun _ _ _ => rfl⟩
  cases hio : E.io s.ios with
  | fail => exact triv
  | short k => exact triv
  | ok =>
    cases hf : s.files path with
    | none => exact triv
    | some f =>
      have hkeep : ∀ q d, Holds s.files q d → Holds (s.files.set path (some { f with mode := mode })) q d := by
        rintro q d ⟨g, hg, rfl⟩
        by_cases hq : q = path
        · subst hq
          rw [hf, Option.some.injEq] at hg
          subst hg
          exact ⟨_, set_same _ _ _, rfl⟩
        · exact ⟨g, by rw [set_other _ _ hq]; exact hg, rfl⟩
      have hback : ∀ q g, s.files.set path (some { f with mode := mode }) q = some g → Holds s.files q g.data := by
        intro q g hg
        by_cases hq : q = path
        · subst hq
          rw [set_same, Option.some.injEq] at hg
          subst hg
          exact ⟨f, hf, rfl⟩
        · rw [set_other _ _ hq] at hg
          exact ⟨g, hg, rfl⟩
      refine ⟨true, _, rfl, ?_, ⟨rfl, rfl, rfl, rfl, rfl⟩, hkeep, ?_, fun q _ hq => set_other _ _ hq⟩
      · refine h.put ?_ ?_
        · constructor
          · intro g hg
            obtain ⟨g', h1, h2⟩ := hback _ _ hg
            rw [← h2]; exact h.now.ephemeral g' h1
          · intro g hg
            obtain ⟨g', h1, h2⟩ := hback _ _ hg
            rw [← h2]; exact h.now.pivot g' h1
          · intro g hg
            obtain ⟨g', h1, h2⟩ := hback _ _ hg
            rw [← h2]; exact h.now.manifest g' h1
          · intro g hg
            obtain ⟨g', h1, h2⟩ := hback _ _ hg
            obtain ⟨k, posts, hc⟩ := h.now.quorum g' h1
            obtain ⟨buf, hb1, hb2⟩ := hc.manifest
            exact ⟨k, posts, ⟨by rw [← h2]; exact hc.content, hc.seed, hc.names, hkeep _ _ hc.ephemeral,
              hkeep _ _ hc.pivot, ⟨buf, hb1, hkeep _ _ hb2⟩, hc.posted, hc.origin⟩⟩
        · constructor
          · intro g hg
            exact hkeep _ _ ⟨g, hg, rfl⟩
          · intro g hg
            obtain ⟨g', h1, h2⟩ := hkeep _ _ ⟨g, hg, rfl⟩
            exact ⟨g', h1, by rw [h2]; exact List.prefix_refl _⟩
      · intro q hq
        by_cases hp : q = path
        · rw [hp, hf] at hq; cases hq
        · show Files.set _ path _ q = none
          rw [set_other _ _ hp, hq]

/-- `put_pivot`. -/
theorem putPivot_ends (hE : E.Ok) {s : St} (h : b.Since E reqs s.trace s.files)
    (hq : s.files E.paths.quorum = none) :
    Ends (putPivot E b.pivot) s
      (fun _ s' => b.Since E reqs s'.trace s'.files ∧ Rest s s' ∧ Holds s'.files E.paths.pivot b.pivot ∧
        ∀ q ∈ E.paths.all, q ≠ E.paths.pivot → s'.files q = s.files q)
      (fun _ s' => b.Since E reqs s'.trace s'.files ∧ Rest s s') := by
  have hne := hE.paths.ne
  unfold putPivot
  refine ends_bind (ends_run (fileExists_run _ _) ?_)
  refine ends_bind (ends_ensure (fun hpres => ?_) fun _ => ⟨h, rest_refl s⟩)
  have hnone : s.files E.paths.pivot = none := by simpa using hpres
  refine ends_bind (ends_run (makeParent_run _ _) ?_)
  refine ends_bind (ends_ensure (fun _ => ?_) fun _ => ⟨h, ⟨rfl, rfl, rfl, rfl, rfl⟩⟩)
  obtain ⟨w, s2, h1, h2, h3, h4⟩ := writeFile_ends (E := E) (b := b) (reqs := reqs) E.paths.pivot b.pivot (bump s) h
    (fun j m => h.now.change hq hne.2.2.2.2.1.symm set_same_of (fun e => absurd e.symm hne.2.2.1)
      (fun _ f hf => by
        rw [set_same, Option.some.injEq] at hf
        subst hf
        exact List.take_prefix _ _)
      (fun e => absurd e.symm hne.2.2.2.2.2))
    (fun m => ⟨fun f hf => (by rw [show s.files E.paths.quorum = some f from hf] at hq; cases hq),
      fun f hf => (by rw [show s.files E.paths.pivot = some f from hf] at hnone; cases hnone)⟩)
    (fun j m => ⟨fun f hf => ⟨f, by rw [set_other _ _ hne.2.2.2.2.1] at hf ⊢; exact hf, rfl⟩,
      fun f hf => by
        rw [set_same, Option.some.injEq] at hf
        subst hf
        exact ⟨_, set_same _ _ _, List.take_prefix_take_left (Nat.le_succ j)⟩⟩)
  refine ends_bind (ends_run h1 ?_)
  have hrest : Rest s s2 := Rest.trans (b := bump s) ⟨rfl, rfl, rfl, rfl, rfl⟩ h3
  refine ends_bind (ends_ensure (fun hw => ?_) fun _ => ⟨h2, hrest⟩)
  obtain ⟨m, hfs⟩ := h4 hw
  obtain ⟨r, s3, g1, g2, g3, g4, _, g6⟩ := chmod_ends (E := E) (b := b) (reqs := reqs) (path := E.paths.pivot)
    (mode := 0o111) h2
  refine ends_bind (ends_run g1 ?_)
  refine ends_ensure (fun _ => ⟨g2, hrest.trans g3, ?_, ?_⟩) fun _ => ⟨g2, hrest.trans g3⟩
  · exact g4 _ _ ⟨_, by rw [hfs]; exact set_same _ _ _, rfl⟩
  · intro q hq' hqp
    rw [g6 q hq' hqp, hfs]
    exact set_other _ _ hqp

/-- `put_manifest_envelope` at boot. -/
theorem putManifestEnvelope_ends (hE : E.Ok) {s : St} (h : b.Since E reqs s.trace s.files)
    (hq : s.files E.paths.quorum = none) :
    Ends (putManifestEnvelope E b.envelope) s
      (fun _ s' => b.Since E reqs s'.trace s'.files ∧ Rest s s' ∧
        (∃ buf, b.envelope.toStorageVec = some buf ∧ Holds s'.files E.paths.manifest buf) ∧
        ∀ q ∈ E.paths.all, q ≠ E.paths.manifest → s'.files q = s.files q)
      (fun _ s' => b.Since E reqs s'.trace s'.files ∧ Rest s s') := by
  have hne := hE.paths.ne
  unfold putManifestEnvelope
  cases hv : b.envelope.toStorageVec with
  | none => exact ends_fail ⟨h, rest_refl s⟩
  | some buf =>
    refine ends_mono (writeAsReadOnly_ends hE (mem_manifest _) buf _ s h ?_) ?_ (fun _ _ hx => hx)
    · intro fs f hf hsame hfs
      refine h.now.change hq hne.2.2.2.1.symm hsame (fun e => absurd e.symm hne.2.1)
        (fun e => absurd e hne.2.2.2.2.2) ?_
      intro _ g hg
      rw [hfs, Option.some.injEq] at hg
      subst hg
      refine ⟨[], buf, ⟨List.nil_sublist _, by simp, by simp⟩, ?_, by rw [hf]; exact List.prefix_refl _⟩
      rw [List.map_nil, Envelope.withShares_nil, hv]
    · intro _ s' ⟨h1, h2, h3, h4⟩
      exact ⟨h1, h2, ⟨buf, rfl, ⟨_, h3, rfl⟩⟩, h4⟩

/-- `put_ephemeral_key`: of the setup or the live key, before the quorum key exists. -/
theorem putEphemeral_ends (hE : E.Ok) {s : St} (h : b.Since E reqs s.trace s.files)
    (hq : s.files E.paths.quorum = none) {k : Pair} (hk : k = b.setup ∨ k = b.live) :
    Ends (writeAsReadOnly E E.paths.ephemeral k.toMasterSeedHex .failedToPutEphemeralKey) s
      (fun _ s' => b.Since E reqs s'.trace s'.files ∧ Rest s s' ∧
        Holds s'.files E.paths.ephemeral k.toMasterSeedHex ∧
        ∀ q ∈ E.paths.all, q ≠ E.paths.ephemeral → s'.files q = s.files q)
      (fun _ s' => b.Since E reqs s'.trace s'.files ∧ Rest s s') := by
  have hne := hE.paths.ne
  refine ends_mono (writeAsReadOnly_ends hE (mem_eph _) _ _ s h ?_) ?_ (fun _ _ hx => hx)
  · intro fs f hf hsame hfs
    refine h.now.change hq hne.1 hsame ?_ (fun e => absurd e hne.2.2.1) (fun e => absurd e hne.2.1)
    intro _ g hg
    rw [hfs, Option.some.injEq] at hg
    subst hg
    rw [hf]
    rcases hk with rfl | rfl
    · exact .inl rfl
    · exact .inr rfl
  · intro _ s' ⟨h1, h2, h3, h4⟩
    exact ⟨h1, h2, ⟨_, h3, rfl⟩, h4⟩

/-- `rotate_ephemeral_key` to the live key. -/
theorem rotate_ends (hE : E.Ok) {s : St} (h : b.Since E reqs s.trace s.files)
    (hq : s.files E.paths.quorum = none) :
    Ends (rotateEphemeralKey E b.live) s
      (fun _ s' => b.Since E reqs s'.trace s'.files ∧ Rest s s' ∧
        Holds s'.files E.paths.ephemeral b.live.toMasterSeedHex ∧
        ∀ q ∈ E.paths.all, q ≠ E.paths.ephemeral → s'.files q = s.files q)
      (fun _ s' => b.Since E reqs s'.trace s'.files ∧ Rest s s') := by
  have hne := hE.paths.ne
  unfold rotateEphemeralKey
  refine ends_bind (ends_run (fileExists_run _ _) ?_)
  refine ends_bind (ends_ensure (fun _ => ?_) fun _ => ⟨h, rest_refl s⟩)
  have bad : Ends (M.ensure false (.cannotDeleteEphemeralKey "remove_file failed") >>= fun _ =>
      writeAsReadOnly E E.paths.ephemeral b.live.toMasterSeedHex .failedToPutEphemeralKey) (bump s)
      (fun _ s' => b.Since E reqs s'.trace s'.files ∧ Rest s s' ∧
        Holds s'.files E.paths.ephemeral b.live.toMasterSeedHex ∧
        ∀ q ∈ E.paths.all, q ≠ E.paths.ephemeral → s'.files q = s.files q)
      (fun _ s' => b.Since E reqs s'.trace s'.files ∧ Rest s s') :=
    ends_bind (ends_ensure (fun hc => nomatch hc) fun _ => ⟨h, ⟨rfl, rfl, rfl, rfl, rfl⟩⟩)
  cases hio : E.io s.ios with
  | fail => exact ends_bind (ends_run (by rw [removeFile_run, hio]) bad)
  | short k => exact ends_bind (ends_run (by rw [removeFile_run, hio]) bad)
  | ok =>
    cases hf : s.files E.paths.ephemeral with
    | none => exact ends_bind (ends_run (by rw [removeFile_run, hio, hf]) bad)
    | some f =>
      refine ends_bind (ends_run (by rw [removeFile_run, hio, hf]) ?_)
      refine ends_bind (ends_ensure (fun _ => ?_) fun hc => nomatch hc)
      have hS : b.Since E reqs (St.put (bump s) (s.files.set E.paths.ephemeral none)).trace
          (St.put (bump s) (s.files.set E.paths.ephemeral none)).files := by
        refine h.put (h.now.change hq hne.1 set_same_of ?_ (fun e => absurd e hne.2.2.1)
          (fun e => absurd e hne.2.1)) ?_
        · intro _ g hg
          rw [set_same] at hg; cases hg
        · exact later_of_agree (set_other _ _ hne.1.symm) (set_other _ _ hne.2.2.1.symm)
      refine ends_mono (putEphemeral_ends hE hS (by exact (set_other _ _ hne.1.symm).trans hq) (.inr rfl)) ?_ ?_
      · intro _ s' ⟨h1, h2, h3, h4⟩
        refine ⟨h1, Rest.trans (b := St.put (bump s) (s.files.set E.paths.ephemeral none)) ⟨rfl, rfl, rfl, rfl, rfl⟩ h2, h3, ?_⟩
        intro q hq' hqe
        exact (h4 q hq' hqe).trans (set_other _ _ hqe)
      · intro _ s' ⟨h1, h2⟩
        exact ⟨h1, Rest.trans (b := St.put (bump s) (s.files.set E.paths.ephemeral none)) ⟨rfl, rfl, rfl, rfl, rfl⟩ h2⟩

/-- `put_quorum_key`, everything else being in place. -/
theorem putQuorumKey_ends (hE : E.Ok) {s : St} (h : b.Since E reqs s.trace s.files) {key : Pair}
    {posts : List (Bytes × Approval)} (hc : b.Complete E reqs s.files key.toMasterSeedHex key posts) :
    Ends (putQuorumKey E key) s
      (fun _ s' => b.Since E reqs s'.trace s'.files ∧ Rest s s' ∧
        Holds s'.files E.paths.quorum key.toMasterSeedHex ∧
        ∀ q ∈ E.paths.all, q ≠ E.paths.quorum → s'.files q = s.files q)
      (fun _ s' => b.Since E reqs s'.trace s'.files ∧ Rest s s') := by
  have hne := hE.paths.ne
  unfold putQuorumKey
  refine ends_mono (writeAsReadOnly_ends hE (mem_quorum _) _ _ s h ?_) ?_ (fun _ _ hx => hx)
  · intro fs f hf hsame hfs
    constructor
    · intro g hg
      rw [hsame _ (mem_eph _) hne.1] at hg
      exact h.now.ephemeral g hg
    · intro g hg
      rw [hsame _ (mem_pivot _) hne.2.2.2.2.1.symm] at hg
      exact h.now.pivot g hg
    · intro g hg
      rw [hsame _ (mem_manifest _) hne.2.2.2.1.symm] at hg
      exact h.now.manifest g hg
    · intro g hg
      rw [hfs, Option.some.injEq] at hg
      subst hg
      rw [hf]
      exact ⟨key, posts, hc.congr (hsame _ (mem_eph _) hne.1) (hsame _ (mem_pivot _) hne.2.2.2.2.1.symm)
        (hsame _ (mem_manifest _) hne.2.2.2.1.symm)⟩
  · intro _ s' ⟨h1, h2, h3, h4⟩
    exact ⟨h1, h2, ⟨_, h3, rfl⟩, h4⟩

/-- `mutate_manifest_envelope` appending one approval. -/
theorem mutate_ends (hE : E.Ok) {s : St} (h : b.Since E reqs s.trace s.files)
    (hq : s.files E.paths.quorum = none) {posts : List (Bytes × Approval)} {x : Bytes} {a : Approval} {buf : Bytes}
    (hold : b.Posted E reqs posts) (hnew : b.Posted E reqs (posts ++ [(x, a)]))
    (hbuf : (b.envelope.withShares (posts.map (·.2))).toStorageVec = some buf)
    (hh : Holds s.files E.paths.manifest buf) :
    Ends (mutateManifestEnvelope E (·.pushShareApproval a)) s
      (fun _ s' => b.Since E reqs s'.trace s'.files ∧ Rest s s' ∧
        (∃ buf, (b.envelope.withShares ((posts ++ [(x, a)]).map (·.2))).toStorageVec = some buf ∧
          Holds s'.files E.paths.manifest buf) ∧
        ∀ q ∈ E.paths.all, q ≠ E.paths.manifest → s'.files q = s.files q)
      (fun _ s' => b.Since E reqs s'.trace s'.files ∧ Rest s s') := by
  have hne := hE.paths.ne
  unfold mutateManifestEnvelope
  refine ends_bind (getManifestEnvelope_ends (b.stored hE h.ok hold) hbuf hh ?_ ⟨h, ⟨rfl, rfl, rfl, rfl, rfl⟩⟩)
  obtain ⟨r, s1, g1, g2, g3, g4, g5, g6⟩ := chmod_ends (E := E) (b := b) (reqs := reqs) (path := E.paths.manifest)
    (mode := 0o666) (s := bump s) h
  have hr1 : Rest s s1 := Rest.trans (b := bump s) ⟨rfl, rfl, rfl, rfl, rfl⟩ g3
  refine ends_bind (ends_run g1 ?_)
  refine ends_bind (ends_ensure (fun _ => ?_) fun _ => ⟨g2, hr1⟩)
  beta_reduce
  rw [Envelope.push_eq, Envelope.withShares_withShares]
  have e : posts.map (·.2) ++ [a] = (posts ++ [(x, a)]).map (·.2) := by simp
  rw [e]
  cases hv : (b.envelope.withShares ((posts ++ [(x, a)]).map (·.2))).toStorageVec with
  | none => exact ends_fail ⟨g2, hr1⟩
  | some buf' =>
    have hq1 : s1.files E.paths.quorum = none := g5 _ hq
    obtain ⟨w, s2, h1, h2, h3, h4⟩ := writeFile_ends (E := E) (b := b) (reqs := reqs) E.paths.manifest buf' s1 g2
      (fun j m => g2.now.change hq1 hne.2.2.2.1.symm set_same_of (fun e => absurd e.symm hne.2.1)
        (fun e => absurd e hne.2.2.2.2.2)
        (fun _ f hf => by
          rw [set_same, Option.some.injEq] at hf
          subst hf
          exact ⟨_, _, hnew, hv, List.take_prefix _ _⟩))
      (fun m => later_of_agree (set_other _ _ hne.2.2.2.1) (set_other _ _ hne.2.2.2.2.2.symm))
      (fun j m => later_of_agree (by rw [set_other _ _ hne.2.2.2.1, set_other _ _ hne.2.2.2.1])
        (by rw [set_other _ _ hne.2.2.2.2.2.symm, set_other _ _ hne.2.2.2.2.2.symm]))
    refine ends_bind (ends_run h1 ?_)
    have hr2 : Rest s s2 := hr1.trans h3
    refine ends_bind (ends_ensure (fun hw => ?_) fun _ => ⟨h2, hr2⟩)
    obtain ⟨m, hfs⟩ := h4 hw
    obtain ⟨r, s3, k1, k2, k3, k4, _, k6⟩ := chmod_ends (E := E) (b := b) (reqs := reqs) (path := E.paths.manifest)
      (mode := 0o444) h2
    refine ends_bind (ends_run k1 ?_)
    refine ends_ensure (fun _ => ⟨k2, hr2.trans k3, ⟨buf', rfl, ?_⟩, ?_⟩) fun _ => ⟨k2, hr2.trans k3⟩
    · exact k4 _ _ ⟨_, by rw [hfs]; exact set_same _ _ _, rfl⟩
    · intro q hq' hqm
      rw [k6 q hq' hqm, hfs, set_other _ _ hqm]
      exact g6 q hq' hqm

end Qos
