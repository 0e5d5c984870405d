import Verif.Spec.Boot
import Verif.Lemmas.Frames
import Verif.Props.Storage
import Verif.Props.P256
/-!
# The boot invariant is kept by every file operation
-/
namespace Qos
open P256 Handles Services

variable {E : Env} {b : Boot} {reqs : List Msg}

/-! ## Monotonicity and congruence -/

theorem Boot.Posted.mono {reqs' : List Msg} (h : reqs.Sublist reqs') {posts : List (Bytes × Approval)}
    (hp : b.Posted E reqs posts) : b.Posted E reqs' posts := ⟨hp.asked.trans h, hp.signed, hp.listed⟩

theorem Boot.Origin.mono {reqs' : List Msg} (h : reqs.Sublist reqs') {posts : List (Bytes × Approval)} {k : Pair}
    (ho : b.Origin E reqs posts k) : b.Origin E reqs' posts k := by
  cases ho with
  | provisioned shares h1 h2 h3 h4 h5 => exact .provisioned shares h1 h2 h3 h4 h5
  | injected ct sig h1 h2 h3 h4 h5 => exact .injected ct sig h1 h2 (h.subset h3) h4 h5

theorem Boot.Snapshot.mono {reqs' : List Msg} (h : reqs.Sublist reqs') {fs : Files} (hs : b.Snapshot E reqs fs) :
    b.Snapshot E reqs' fs where
  ephemeral := hs.ephemeral
  pivot := hs.pivot
  manifest f hf := by
    obtain ⟨posts, buf, h1, h2⟩ := hs.manifest f hf
    exact ⟨posts, buf, h1.mono h, h2⟩
  quorum f hf := by
    obtain ⟨k, posts, hc⟩ := hs.quorum f hf
    exact ⟨k, posts, ⟨hc.content, hc.seed, hc.names, hc.ephemeral, hc.pivot, hc.manifest, hc.posted.mono h,
      hc.origin.mono h⟩⟩

theorem Boot.EventOk.mono {reqs' : List Msg} (h : reqs.Sublist reqs') {ev : Event} (he : b.EventOk E reqs ev) :
    b.EventOk E reqs' ev := by
  cases ev with
  | files fs => exact Boot.Snapshot.mono h he
  | nsm r a => cases r <;> first | trivial | exact he

theorem Boot.Ok.mono {reqs' : List Msg} (h : reqs.Sublist reqs') (hb : b.Ok E reqs) : b.Ok E reqs' := by
  obtain ⟨m, hm, hr⟩ := hb.requested
  exact ⟨⟨m, h.subset hm, hr⟩, hb.approved, hb.noShares, hb.pivotHash, hb.wellFormed, hb.setup, hb.live⟩

theorem Boot.Since.mono {reqs' : List Msg} (h : reqs.Sublist reqs') {t : List Event} {fs : Files}
    (hs : b.Since E reqs t fs) : b.Since E reqs' t fs := by
  obtain ⟨pre, post, h1, h2, h3, h4⟩ := hs.split
  exact ⟨hs.ok.mono h, ⟨pre, post, h1, h2, fun ev hev => (h3 ev hev).mono h, h4⟩, hs.now.mono h⟩

/-- Two file states agree on the four files. -/
def Agree (p : Paths) (fs fs' : Files) : Prop := ∀ q ∈ p.all, fs' q = fs q

theorem agree_refl (p : Paths) (fs : Files) : Agree p fs fs := fun _ _ => rfl
theorem Agree.trans {p : Paths} {a b c : Files} (h1 : Agree p a b) (h2 : Agree p b c) : Agree p a c :=
  fun q hq => (h2 q hq).trans (h1 q hq)

theorem mem_eph (p : Paths) : p.ephemeral ∈ p.all := by simp [Paths.all]
theorem mem_quorum (p : Paths) : p.quorum ∈ p.all := by simp [Paths.all]
theorem mem_manifest (p : Paths) : p.manifest ∈ p.all := by simp [Paths.all]
theorem mem_pivot (p : Paths) : p.pivot ∈ p.all := by simp [Paths.all]

theorem Holds.congr {fs fs' : Files} {q : String} {d : Bytes} (h : Holds fs q d) (e : fs' q = fs q) :
    Holds fs' q d := by
  obtain ⟨f, h1, h2⟩ := h
  exact ⟨f, by rw [e, h1], h2⟩

theorem Boot.Complete.congr {fs fs' : Files} {d : Bytes} {k : Pair} {posts : List (Bytes × Approval)}
    (hc : b.Complete E reqs fs d k posts) (he : fs' E.paths.ephemeral = fs E.paths.ephemeral)
    (hp : fs' E.paths.pivot = fs E.paths.pivot) (hm : fs' E.paths.manifest = fs E.paths.manifest) :
    b.Complete E reqs fs' d k posts := by
  obtain ⟨buf, hb1, hb2⟩ := hc.manifest
  exact ⟨hc.content, hc.seed, hc.names, hc.ephemeral.congr he, hc.pivot.congr hp, ⟨buf, hb1, hb2.congr hm⟩,
    hc.posted, hc.origin⟩

theorem Boot.Snapshot.congr {fs fs' : Files} (hs : b.Snapshot E reqs fs) (h : Agree E.paths fs fs') :
    b.Snapshot E reqs fs' where
  ephemeral f hf := hs.ephemeral f (by rw [← h _ (mem_eph _)]; exact hf)
  pivot f hf := hs.pivot f (by rw [← h _ (mem_pivot _)]; exact hf)
  manifest f hf := hs.manifest f (by rw [← h _ (mem_manifest _)]; exact hf)
  quorum f hf := by
    obtain ⟨k, posts, hc⟩ := hs.quorum f (by rw [← h _ (mem_quorum _)]; exact hf)
    exact ⟨k, posts, hc.congr (h _ (mem_eph _)) (h _ (mem_pivot _)) (h _ (mem_manifest _))⟩

theorem later_refl (p : Paths) (fs : Files) : Later p fs fs :=
  ⟨fun f hf => ⟨f, hf, rfl⟩, fun f hf => ⟨f, hf, List.prefix_refl _⟩⟩

theorem Later.trans {p : Paths} {a b c : Files} (h1 : Later p a b) (h2 : Later p b c) : Later p a c := by
  constructor
  · intro f hf
    obtain ⟨f', hf', e⟩ := h1.quorum f hf
    obtain ⟨f'', hf'', e'⟩ := h2.quorum f' hf'
    exact ⟨f'', hf'', e'.trans e⟩
  · intro f hf
    obtain ⟨f', hf', e⟩ := h1.pivot f hf
    obtain ⟨f'', hf'', e'⟩ := h2.pivot f' hf'
    exact ⟨f'', hf'', e.trans e'⟩

theorem later_of_agree {p : Paths} {fs fs' : Files} (hq : fs' p.quorum = fs p.quorum) (hp : fs' p.pivot = fs p.pivot) :
    Later p fs fs' :=
  ⟨fun f hf => ⟨f, by rw [hq, hf], rfl⟩, fun f hf => ⟨f, by rw [hp, hf], List.prefix_refl _⟩⟩

theorem EventLater.trans {p : Paths} {ev : Event} {fs fs' : Files} (h1 : EventLater p ev (.files fs))
    (h2 : Later p fs fs') : EventLater p ev (.files fs') := by
  cases ev with
  | files f0 => exact Later.trans h1 h2
  | nsm r a => trivial

/-- A change of files that keeps the snapshot property keeps the invariant. -/
theorem Boot.Since.put {t : List Event} {fs fs' : Files} (h : b.Since E reqs t fs) (hs : b.Snapshot E reqs fs')
    (hl : Later E.paths fs fs') : b.Since E reqs (t ++ [.files fs']) fs' := by
  obtain ⟨pre, post, rfl, hc, h1, h2, h3⟩ := h.split
  refine ⟨h.ok, ⟨pre, post ++ [.files fs'], by rw [List.append_assoc], hc, ?_, ?_, ?_⟩, hs⟩
  · intro ev hev
    rcases List.mem_append.1 hev with hev | hev
    · exact h1 ev hev
    · rw [List.mem_singleton.1 hev]; exact hs
  · rw [List.pairwise_append]
    refine ⟨h2, by simp, ?_⟩
    intro x hx y hy
    rw [List.mem_singleton.1 hy]
    exact (h3 x hx).trans hl
  · intro ev hev
    rcases List.mem_append.1 hev with hev | hev
    · exact (h3 ev hev).trans hl
    · rw [List.mem_singleton.1 hev]; exact later_refl _ _

/-- Attestation requests keep the invariant. -/
theorem Boot.Since.attest {t : List Event} {fs : Files} (h : b.Since E reqs t fs) {ev : Event}
    (he : ev.isAttestation) : b.Since E reqs (t ++ [ev]) fs := by
  obtain ⟨pre, post, rfl, hc, h1, h2, h3⟩ := h.split
  have hev : ∀ x, EventLater E.paths x ev ∧ EventLater E.paths ev x ∧ b.EventOk E reqs ev := by
    intro x
    cases ev with
    | files fs => exact absurd he (by simp [Event.isAttestation])
    | nsm r a =>
      refine ⟨by cases x <;> trivial, by cases x <;> trivial, ?_⟩
      cases r <;> first | trivial | exact absurd he (by simp [Event.isAttestation])
  refine ⟨h.ok, ⟨pre, post ++ [ev], by rw [List.append_assoc], hc, ?_, ?_, ?_⟩, h.now⟩
  · intro x hx
    rcases List.mem_append.1 hx with hx | hx
    · exact h1 x hx
    · rw [List.mem_singleton.1 hx]; exact (hev ev).2.2
  · rw [List.pairwise_append]
    refine ⟨h2, by simp, ?_⟩
    intro x hx y hy
    rw [List.mem_singleton.1 hy]
    exact (hev x).1
  · intro x hx
    rcases List.mem_append.1 hx with hx | hx
    · exact h3 x hx
    · rw [List.mem_singleton.1 hx]; exact (hev (.files fs)).2.1

/-- A quiet stretch keeps the invariant. -/
theorem Boot.Since.quiet {s s' : St} (h : b.Since E reqs s.trace s.files) (hq : Quiet s s') :
    b.Since E reqs s'.trace s'.files := by
  obtain ⟨evs, he, ha⟩ := hq.trace
  rw [he, hq.files]
  clear he
  generalize s.trace = t at h
  induction evs generalizing t with
  | nil => simpa using h
  | cons ev evs ih =>
    have := ih (fun e he => ha e (by simp [he])) (t ++ [ev]) (h.attest (ha ev (by simp)))
    simpa using this

/-! ## File operations -/

/-- Phase, shares, pending key, generated seeds and device history are unchanged. -/
structure Rest (s s' : St) : Prop where
  phase : s'.phase = s.phase
  shares : s'.shares = s.shares
  pending : s'.pending = s.pending
  seeds : s'.seeds = s.seeds
  nsm : s'.nsmHist = s.nsmHist

theorem rest_refl (s : St) : Rest s s := ⟨rfl, rfl, rfl, rfl, rfl⟩
theorem Rest.trans {a b c : St} (h1 : Rest a b) (h2 : Rest b c) : Rest a c :=
  ⟨h2.phase.trans h1.phase, h2.shares.trans h1.shares, h2.pending.trans h1.pending, h2.seeds.trans h1.seeds,
    h2.nsm.trans h1.nsm⟩

theorem set_same (fs : Files) (q : String) (f : Option File) : fs.set q f q = f := by simp [Files.set]
theorem set_other (fs : Files) {q q' : String} (f : Option File) (h : q' ≠ q) : fs.set q f q' = fs q' := by
  simp [Files.set, h]
theorem set_set (fs : Files) (q : String) (f g : Option File) : (fs.set q f).set q g = fs.set q g := by
  funext x; by_cases h : x = q <;> simp [Files.set, h]

/-- The state after `k` bytes were written to `q`. -/
theorem writeUpTo_ends (q : String) (buf : Bytes) (k : Nat) (s : St) (h : b.Since E reqs s.trace s.files)
    (hok : ∀ j m, b.Snapshot E reqs (s.files.set q (some ⟨buf.take j, m⟩)))
    (h0 : ∀ m, Later E.paths s.files (s.files.set q (some ⟨buf.take 0, m⟩)))
    (hstep : ∀ j m, Later E.paths (s.files.set q (some ⟨buf.take j, m⟩))
      (s.files.set q (some ⟨buf.take (j + 1), m⟩))) :
    ∃ s' m, writeUpTo E q buf k s = (.ok (), s') ∧ b.Since E reqs s'.trace s'.files ∧ Rest s s' ∧
      s'.files = s.files.set q (some ⟨buf.take k, m⟩) ∧ s'.ios = s.ios := by
  induction k with
  | zero =>
    refine ⟨_, _, writeUpTo_zero E q buf s, ?_, ⟨rfl, rfl, rfl, rfl, rfl⟩, rfl, rfl⟩
    exact h.put (hok _ _) (h0 _)
  | succ k ih =>
    obtain ⟨s1, m, h1, h2, h3, h4, h5⟩ := ih
    rw [writeUpTo_succ]
    unfold M.bind
    rw [h1]
    have hw : s1.files.set q (some (written E s1.files q buf (k + 1))) =
        s.files.set q (some ⟨buf.take (k + 1), m⟩) := by
      rw [h4, set_set]
      simp [written, set_same]
    refine ⟨_, m, rfl, ?_, ?_, hw, h5⟩
    · show b.Since E reqs (s1.trace ++ [.files _]) _
      refine h2.put ?_ ?_
      · rw [hw]; exact hok _ _
      · rw [hw, h4]; exact hstep _ _
    · exact h3.trans ⟨rfl, rfl, rfl, rfl, rfl⟩

/-- `fs::write` to `q`, in the terms of the invariant. -/
theorem writeFile_ends (q : String) (buf : Bytes) (s : St) (h : b.Since E reqs s.trace s.files)
    (hok : ∀ j m, b.Snapshot E reqs (s.files.set q (some ⟨buf.take j, m⟩)))
    (h0 : ∀ m, Later E.paths s.files (s.files.set q (some ⟨buf.take 0, m⟩)))
    (hstep : ∀ j m, Later E.paths (s.files.set q (some ⟨buf.take j, m⟩))
      (s.files.set q (some ⟨buf.take (j + 1), m⟩))) :
    ∃ r s', writeFile E q buf s = (.ok r, s') ∧ b.Since E reqs s'.trace s'.files ∧ Rest s s' ∧
      (r = true → ∃ m, s'.files = s.files.set q (some ⟨buf, m⟩)) := by
  rw [writeFile_run]
  cases hio : E.io s.ios with
  | fail => exact ⟨false, bump s, rfl, h, ⟨rfl, rfl, rfl, rfl, rfl⟩, by simp⟩
  | ok =>
    obtain ⟨s1, m, h1, h2, h3, h4, _⟩ := writeUpTo_ends q buf buf.length (bump s) h hok h0 hstep
    simp only [M.bind, h1]
    exact ⟨true, s1, rfl, h2, (Rest.trans (b := bump s) ⟨rfl, rfl, rfl, rfl, rfl⟩ h3),
      fun _ => ⟨m, by rw [h4, List.take_length]; rfl⟩⟩
  | short k =>
    obtain ⟨s1, m, h1, h2, h3, h4, _⟩ := writeUpTo_ends q buf (min k buf.length) (bump s) h hok h0 hstep
    simp only [M.bind, h1]
    exact ⟨false, s1, rfl, h2, (Rest.trans (b := bump s) ⟨rfl, rfl, rfl, rfl, rfl⟩ h3), by simp⟩

theorem agree_set {p : Paths} {fs : Files} {q : String} (hq : q ∉ p.all) (f : Option File) : Agree p fs (fs.set q f) := by
  intro x hx
  exact set_other fs f (fun h => hq (h ▸ hx))

theorem Agree.later {p : Paths} {fs fs' : Files} (h : Agree p fs fs') : Later p fs fs' :=
  later_of_agree (h _ (mem_quorum _)) (h _ (mem_pivot _))

/-- `write_as_read_only`: it leaves a good state, and on success the file is there. -/
theorem writeAsReadOnly_ends (hE : E.Ok) {path : String} (hp : path ∈ E.paths.all) (buf : Bytes) (err : ProtocolError)
    (s : St) (h : b.Since E reqs s.trace s.files)
    (hok : ∀ fs f, f.data = buf → (∀ q ∈ E.paths.all, q ≠ path → fs q = s.files q) → fs path = some f →
      b.Snapshot E reqs fs) :
    Ends (writeAsReadOnly E path buf err) s
      (fun _ s' => b.Since E reqs s'.trace s'.files ∧ Rest s s' ∧ s'.files path = some ⟨buf, 0o444⟩ ∧
        ∀ q ∈ E.paths.all, q ≠ path → s'.files q = s.files q)
      (fun _ s' => b.Since E reqs s'.trace s'.files ∧ Rest s s') := by
  have htmp : withTmpExtension path ∉ E.paths.all := fun hc => hE.paths.tmp _ hp _ hc rfl
  have hne : path ≠ withTmpExtension path := fun e => htmp (e ▸ hp)
  unfold writeAsReadOnly
  refine ends_bind (ends_run (fileExists_run _ _) ?_)
  refine ends_bind (ends_ensure (fun hpres => ?_) fun _ => ⟨h, rest_refl s⟩)
  have hnone : s.files path = none := by simpa using hpres
  refine ends_bind (ends_run (makeParent_run _ _) ?_)
  refine ends_bind (ends_ensure (fun _ => ?_) fun _ => ⟨h, ⟨rfl, rfl, rfl, rfl, rfl⟩⟩)
  obtain ⟨w, s2, h1, h2, h3, h4⟩ := writeFile_ends (E := E) (b := b) (reqs := reqs) (withTmpExtension path) buf (bump s) h
    (fun j m => h.now.congr (agree_set htmp _)) (fun m => (agree_set htmp _).later)
    (fun j m => by
      refine Agree.later ?_
      intro q hq
      have : q ≠ withTmpExtension path := fun e => htmp (e ▸ hq)
      rw [set_other _ _ this, set_other _ _ this])
  refine ends_bind (ends_run h1 ?_)
  have hrest : Rest s s2 := Rest.trans (b := bump s) ⟨rfl, rfl, rfl, rfl, rfl⟩ h3
  refine ends_bind (ends_ensure (fun hw => ?_) fun _ => ⟨h2, hrest⟩)
  obtain ⟨m, hfs⟩ := h4 hw
  have hagree : ∀ q ∈ E.paths.all, s2.files q = s.files q := by
    intro q hq
    rw [hfs]
    exact agree_set (fs := s.files) htmp _ q hq
  have hsrc : s2.files (withTmpExtension path) = some ⟨buf, m⟩ := by rw [hfs, set_same]
  have keep : Ends (M.ensure false .ioError >>= fun _ => (chmod E path 0o444 >>= fun perms => M.ensure perms err))
      (bump s2)
      (fun _ s' => b.Since E reqs s'.trace s'.files ∧ Rest s s' ∧ s'.files path = some ⟨buf, 0o444⟩ ∧
        ∀ q ∈ E.paths.all, q ≠ path → s'.files q = s.files q)
      (fun _ s' => b.Since E reqs s'.trace s'.files ∧ Rest s s') :=
    ends_bind (ends_ensure (fun hc => nomatch hc) fun _ => ⟨h2, hrest.trans ⟨rfl, rfl, rfl, rfl, rfl⟩⟩)
  cases hio : E.io s2.ios with
  | fail => exact ends_bind (ends_run (by rw [renameFile_run, hio, hsrc]) keep)
  | short k => exact ends_bind (ends_run (by rw [renameFile_run, hio, hsrc]) keep)
  | ok =>
    refine ends_bind (ends_run (by rw [renameFile_run, hio, hsrc]) ?_)
    have hother : ∀ q ∈ E.paths.all, q ≠ path →
        ((s2.files.set (withTmpExtension path) none).set path (some ⟨buf, m⟩)) q = s.files q := by
      intro q hq hqp
      have hqt : q ≠ withTmpExtension path := fun e => htmp (e ▸ hq)
      rw [set_other _ _ hqp, set_other _ _ hqt]
      exact hagree q hq
    have hlater : ∀ fs' : Files, (∀ q ∈ E.paths.all, q ≠ path → fs' q = s.files q) → Later E.paths s2.files fs' := by
      intro fs' hfs'
      constructor
      · intro f hf
        have hq : E.paths.quorum ≠ path := by
          intro e
          rw [hagree _ (mem_quorum _), e, hnone] at hf
          cases hf
        exact ⟨f, by rw [hfs' _ (mem_quorum _) hq, ← hagree _ (mem_quorum _), hf], rfl⟩
      · intro f hf
        have hq : E.paths.pivot ≠ path := by
          intro e
          rw [hagree _ (mem_pivot _), e, hnone] at hf
          cases hf
        exact ⟨f, by rw [hfs' _ (mem_pivot _) hq, ← hagree _ (mem_pivot _), hf], List.prefix_refl _⟩
    refine ends_bind (ends_ensure (fun _ => ?_) fun hc => nomatch hc)
    have hS3 : b.Since E reqs
        (s2.trace ++ [.files ((s2.files.set (withTmpExtension path) none).set path (some ⟨buf, m⟩))])
        ((s2.files.set (withTmpExtension path) none).set path (some ⟨buf, m⟩)) :=
      h2.put (hok _ ⟨buf, m⟩ rfl hother (set_same _ _ _)) (hlater _ hother)
    have hcur : (St.put (bump s2) ((s2.files.set (withTmpExtension path) none).set path (some ⟨buf, m⟩))).files path =
        some ⟨buf, m⟩ := set_same _ _ _
    have keep2 : Ends (M.ensure false err)
        (bump (St.put (bump s2) ((s2.files.set (withTmpExtension path) none).set path (some ⟨buf, m⟩))))
        (fun _ s' => b.Since E reqs s'.trace s'.files ∧ Rest s s' ∧ s'.files path = some ⟨buf, 0o444⟩ ∧
          ∀ q ∈ E.paths.all, q ≠ path → s'.files q = s.files q)
        (fun _ s' => b.Since E reqs s'.trace s'.files ∧ Rest s s') :=
      ends_ensure (fun hc => nomatch hc) fun _ => ⟨hS3, hrest.trans ⟨rfl, rfl, rfl, rfl, rfl⟩⟩
    cases hio2 : E.io (St.put (bump s2) ((s2.files.set (withTmpExtension path) none).set path (some ⟨buf, m⟩))).ios with
    | fail => exact ends_bind (ends_run (by rw [chmod_run, hio2, hcur]) keep2)
    | short k => exact ends_bind (ends_run (by rw [chmod_run, hio2, hcur]) keep2)
    | ok =>
      refine ends_bind (ends_run (by rw [chmod_run, hio2, hcur]) ?_)
      refine ends_ensure (fun _ => ?_) fun hc => nomatch hc
      refine ⟨?_, hrest.trans ⟨rfl, rfl, rfl, rfl, rfl⟩, set_same _ _ _, ?_⟩
      · refine hS3.put (hok _ ⟨buf, 0o444⟩ rfl ?_ (set_same _ _ _)) ?_
        · intro q hq hqp
          rw [set_other _ _ hqp]
          exact hother q hq hqp
        · constructor
          · intro f hf
            by_cases hq : E.paths.quorum = path
            · rw [hq] at hf ⊢
              rw [set_same] at hf
              cases hf
              exact ⟨⟨buf, 0o444⟩, set_same _ _ _, rfl⟩
            · exact ⟨f, by rw [set_other _ _ hq]; exact hf, rfl⟩
          · intro f hf
            by_cases hq : E.paths.pivot = path
            · rw [hq] at hf ⊢
              rw [set_same] at hf
              cases hf
              exact ⟨⟨buf, 0o444⟩, set_same _ _ _, List.prefix_refl _⟩
            · exact ⟨f, by rw [set_other _ _ hq]; exact hf, List.prefix_refl _⟩
      · intro q hq hqp
        exact (set_other _ _ hqp).trans (hother q hq hqp)

end Qos
