import Verif.Lemmas.Reach
import Verif.Spec.Moments
/-!
# C06–C10, C12: what is booted, and when the quorum key appears

All theorems quantify over every lawful surrounding (`Env.Ok`: lawful primitives, distinct paths; the device,
the randomness and all I/O outcomes are arbitrary), every history of well-formed requests from a start without the
four files, and every moment, including every intermediate state of a file operation.

Concrete cases: `Props/EnclaveExamples.lean` has one `example` for each theorem of this file.
-/
namespace Qos
open P256 Handles Services StateMachine Lifecycle

variable {E : Env} {fs0 : Files} {h : List (Msg × Msg)} {s : St}

/-- Histories the theorems talk about. -/
structure History (E : Env) (fs0 : Files) (h : List (Msg × Msg)) (s : St) : Prop where
  env : E.Ok
  fresh : Fresh E.paths fs0
  reach : Reach E fs0 h s
  wellFormed : ∀ q ∈ requests h, q.WellFormed

theorem History.inv (H : History E fs0 h s) : Idle fs0 h s ∨ Unbooted fs0 h s ∨ ∃ b, Booted E b h s :=
  reach_inv H.env H.fresh H.reach H.wellFormed

theorem Booted.since {b : Boot} (hb : Booted E b h s) : b.Since E (requests h) s.trace s.files := by
  cases hb with
  | waiting _ h => exact h.since
  | provisioned _ _ h => exact h.since
  | broken _ h => exact h

theorem Boot.Since.snapshot {b : Boot} {reqs : List Msg} {t : List Event} {fs fs' : Files}
    (hs : b.Since E reqs t fs) (h : Event.files fs' ∈ t) : b.Snapshot E reqs fs' := by
  obtain ⟨pre, post, rfl, hc, hok, _⟩ := hs.split
  rcases List.mem_append.1 h with h | h
  · exfalso
    obtain ⟨v1, v2, v3, w1, w2, w3, m1, m2, mx, l1, l2, d, _, _, _, _, he⟩ := hc
    rw [he] at h
    simp at h
  · exact hok _ h

theorem Boot.Ok.approvedBoot {b : Boot} {reqs : List Msg} (hb : b.Ok E reqs) :
    ApprovedBoot E.prims b.envelope b.pivot :=
  ⟨check_approvals_sound _ _ hb.approved, hb.noShares, hb.pivotHash⟩

theorem Boot.Ok.asked {b : Boot} {reqs : List Msg} (hb : b.Ok E reqs) :
    ∃ m ∈ reqs, m.BootsWith b.envelope b.pivot := by
  obtain ⟨m, hm, hr⟩ := hb.requested
  refine ⟨m, hm, ?_⟩
  unfold Boot.RequestedBy at hr
  split at hr
  · exact .inr (.inr hr)
  · rcases hr with hr | hr
    · exact .inl hr
    · exact .inr (.inl hr)

/-- A file among the four at any moment belongs to a boot. -/
theorem History.moment (H : History E fs0 h s) {fs : Files} (hm : Moment fs0 s fs) {q : String} (hq : q ∈ E.paths.all)
    {f : File} (hf : fs q = some f) : ∃ b, Booted E b h s ∧ b.Snapshot E (requests h) fs := by
  have notfresh : fs ≠ fs0 := by
    rintro rfl
    rw [H.fresh q hq] at hf; cases hf
  rcases H.inv with hi | hu | ⟨b, hb⟩
  · exfalso
    rcases hm with hm | hm | hm
    · exact notfresh hm
    · rw [hi.trace] at hm; cases hm
    · exact notfresh (hm.trans hi.files)
  · exfalso
    rcases hm with hm | hm | hm
    · exact notfresh hm
    · obtain ⟨r, a, he⟩ := hu.untouched.2 _ hm
      cases he
    · exact notfresh (hm.trans hu.untouched.1)
  · refine ⟨b, hb, ?_⟩
    rcases hm with hm | hm | hm
    · exact absurd hm notfresh
    · exact hb.since.snapshot hm
    · rw [hm]; exact hb.since.now

/-! ## C06 -/

/-- C06: whenever a manifest or pivot file exists, it belongs to one boot request of the history whose envelope
carries a quorum of manifest-set approvals and whose pivot hashes to the manifest's pivot hash; the manifest file is
(a prefix of) the storage form of exactly that envelope with share-set approvals appended, the pivot file is (a prefix
of) exactly that pivot. Proper prefixes occur only while a write is in progress or after one failed
(`stored_exactly`). -/
theorem stored_is_approved (H : History E fs0 h s) {fs : Files} (hm : Moment fs0 s fs)
    (hex : fs E.paths.manifest ≠ none ∨ fs E.paths.pivot ≠ none) :
    ∃ e pivot, (∃ m ∈ requests h, m.BootsWith e pivot) ∧ ApprovedBoot E.prims e pivot ∧
      (∀ f, fs E.paths.manifest = some f →
        ∃ as buf, (e.withShares as).toStorageVec = some buf ∧ f.data <+: buf) ∧
      (∀ f, fs E.paths.pivot = some f → f.data <+: pivot) := by
  have : ∃ b, Booted E b h s ∧ b.Snapshot E (requests h) fs := by
    rcases hex with hex | hex
    · obtain ⟨f, hf⟩ := Option.ne_none_iff_exists'.1 hex
      exact H.moment hm (mem_manifest _) hf
    · obtain ⟨f, hf⟩ := Option.ne_none_iff_exists'.1 hex
      exact H.moment hm (mem_pivot _) hf
  obtain ⟨b, hb, hs⟩ := this
  refine ⟨b.envelope, b.pivot, hb.since.ok.asked, hb.since.ok.approvedBoot, ?_, hs.pivot⟩
  intro f hf
  obtain ⟨posts, buf, _, h1, h2⟩ := hs.manifest f hf
  exact ⟨_, buf, h1, h2⟩

/-- Phases in which a manifest is installed. -/
def installedPhases : List Phase := [.waitingForQuorumShards, .waitingForForwardedKey, .quorumKeyProvisioned]

theorem History.booted (H : History E fs0 h s) (hp : s.phase ∈ installedPhases) : ∃ b, Booted E b h s := by
  rcases H.inv with hi | hu | hb
  · rw [hi.phase] at hp; exact absurd hp (by decide)
  · exfalso
    have := hu.phase
    revert hp this
    generalize s.phase = p
    cases p <;> decide
  · exact hb

/-- What is on disk in an installed phase. -/
structure Installed (E : Env) (e : Envelope) (pivot : Bytes) (fs : Files) : Prop where
  manifest : ∃ buf, e.toStorageVec = some buf ∧ Holds fs E.paths.manifest buf
  pivot : Holds fs E.paths.pivot pivot
  readable : ∃ buf, e.toStorageVec = some buf ∧ Envelope.tryFromSliceCompat buf = some e
  wellFormed : e.Ok

theorem Booted.installed {b : Boot} (hE : E.Ok) (hb : Booted E b h s) (hp : s.phase ∈ installedPhases) :
    Installed E (b.envelope.withShares ((posted h).map (·.2))) b.pivot s.files ∧
    b.Posted E (requests h) (posted h) := by
  cases hb with
  | waiting _ hw =>
    obtain ⟨buf, h1, h2⟩ := storage_roundtrip _ (b.stored hE hw.since.ok hw.posted)
    exact ⟨⟨hw.manifest, hw.pivot, ⟨buf, h1, h2⟩, b.stored hE hw.since.ok hw.posted⟩, hw.posted⟩
  | provisioned k _ hw =>
    obtain ⟨buf, h1, h2⟩ := storage_roundtrip _ (b.stored hE hw.since.ok hw.complete.posted)
    exact ⟨⟨hw.complete.manifest, hw.complete.pivot, ⟨buf, h1, h2⟩, b.stored hE hw.since.ok hw.complete.posted⟩, hw.complete.posted⟩
  | broken h1 _ => rw [h1] at hp; exact absurd hp (by decide)

/-- C06: while shares or a key are awaited and after provisioning, the stored manifest is exactly the approved
envelope of a boot request plus the share-set approvals accepted so far, and the stored pivot is exactly that request's
pivot. -/
theorem stored_exactly (H : History E fs0 h s) (hp : s.phase ∈ installedPhases) :
    ∃ e pivot, (∃ m ∈ requests h, m.BootsWith e pivot) ∧ ApprovedBoot E.prims e pivot ∧
      Installed E (e.withShares ((posted h).map (·.2))) pivot s.files := by
  obtain ⟨b, hb⟩ := H.booted hp
  exact ⟨b.envelope, b.pivot, hb.since.ok.asked, hb.since.ok.approvedBoot, (hb.installed H.env hp).1⟩

/-- C06: the manifest request reports exactly that envelope (or nothing, when the file cannot be read). -/
theorem manifest_reported (H : History E fs0 h s) (hp : s.phase ∈ installedPhases) :
    ∃ e pivot, (∃ m ∈ requests h, m.BootsWith e pivot) ∧ ApprovedBoot E.prims e pivot ∧
      Installed E (e.withShares ((posted h).map (·.2))) pivot s.files ∧
      ((handle E .manifestEnvelopeRequest s).1 =
          .manifestEnvelopeResponse (some (e.withShares ((posted h).map (·.2)))) ∨
        (E.io s.ios ≠ .ok ∧ (handle E .manifestEnvelopeRequest s).1 = .manifestEnvelopeResponse none)) := by
  obtain ⟨e, pivot, h1, h2, h3⟩ := stored_exactly H hp
  refine ⟨e, pivot, h1, h2, h3, ?_⟩
  obtain ⟨buf, hb, f, hf, hd⟩ := h3.manifest
  obtain ⟨buf', hb', hr⟩ := h3.readable
  rw [hb, Option.some.injEq] at hb'
  subst hb'
  rw [handle_manifestEnvelope (by intro hc; rw [hc] at hp; exact absurd hp (by decide))]
  unfold getManifestEnvelope
  rw [bind_run, readFile_run]
  by_cases hio : E.io s.ios = .ok
  · left
    simp only [if_pos hio, hf, Option.map_some, hd, hr]
    rfl
  · right
    refine ⟨hio, ?_⟩
    simp only [if_neg hio]
    rfl

/-- C06: a boot is never replaced. Whatever requests follow, a later installed phase still stores the same
envelope, with only share-set approvals appended at the end, and the same pivot; and even a failed write only leaves a
prefix of such a manifest or of that pivot. -/
theorem boot_is_permanent (H : History E fs0 h s) (hp : s.phase ∈ installedPhases) (qs : List Msg) :
    ∃ e pivot, ApprovedBoot E.prims e pivot ∧
      Installed E (e.withShares ((posted h).map (·.2))) pivot s.files ∧
      ((after E s qs).phase ∈ installedPhases → Installed E
        (e.withShares ((posted h).map (·.2) ++ (posted (transcript E s qs)).map (·.2))) pivot (after E s qs).files) ∧
      (∀ fs, Moment fs0 (after E s qs) fs →
        (∀ f, fs E.paths.manifest = some f →
          ∃ as buf, (e.withShares as).toStorageVec = some buf ∧ f.data <+: buf) ∧
        (∀ f, fs E.paths.pivot = some f → f.data <+: pivot)) := by
  obtain ⟨b, hb⟩ := H.booted hp
  have hb' := hb.after H.env qs
  refine ⟨b.envelope, b.pivot, hb.since.ok.approvedBoot, (hb.installed H.env hp).1, ?_, ?_⟩
  · intro hp'
    have := (hb'.installed H.env hp').1
    rwa [posted_append, List.map_append] at this
  · intro fs hm
    have hs : (∀ q ∈ E.paths.all, fs q = none) ∨ b.Snapshot E (requests (h ++ transcript E s qs)) fs := by
      rcases hm with hm | hm | hm
      · left; rw [hm]; exact H.fresh
      · right; exact hb'.since.snapshot hm
      · right; rw [hm]; exact hb'.since.now
    rcases hs with hn | hs
    · exact ⟨fun f hf => (by rw [hn _ (mem_manifest _)] at hf; cases hf),
        fun f hf => (by rw [hn _ (mem_pivot _)] at hf; cases hf)⟩
    · refine ⟨?_, hs.pivot⟩
      intro f hf
      obtain ⟨posts, buf, _, h1, h2⟩ := hs.manifest f hf
      exact ⟨_, buf, h1, h2⟩

/-! ## C07 -/

/-- C07: a boot request that is not approved, carries share-set approvals or has the wrong pivot is answered
with an error, ends in `UnrecoverableError`, and leaves files, device, shares and pending key exactly as they were. -/
theorem rejected_boot (E : Env) {m : Msg} {e : Envelope} {pivot : Bytes} (hm : m.BootsWith e pivot) (s : St)
    (hs : s.phase = .waitingForBootInstruction)
    (hbad : ¬ (e.checkApprovals E.prims = .ok ()) ∨ e.shareSetApprovals ≠ [] ∨
      E.prims.sha256 pivot ≠ e.manifest.pivotHash) :
    ∃ er, handle E m s = (.protocolErrorResponse er, { s with phase := .unrecoverableError }) := by
  have hc : ∃ er, checkBoot E e pivot = .error er := by
    cases hx : checkBoot E e pivot with
    | error er => exact ⟨er, rfl⟩
    | ok u =>
      cases u
      obtain ⟨h1, h2, h3⟩ := checkBoot_ok hx
      rcases hbad with h | h | h
      · exact absurd h1 h
      · exact absurd h2 h
      · exact absurd h3 h
  obtain ⟨er, hc⟩ := hc
  have hr : putManifestAndPivot E e pivot s = (.error er, s) := by
    unfold putManifestAndPivot
    rw [bind_run, hc]
    rfl
  refine ⟨er, ?_⟩
  rcases hm with hm | hm | hm
  · rw [handle_standard hs (.inl hm), hr]
  · rw [handle_standard hs (.inr hm), hr]
  · rw [hm, handle_forward hs, hr]

/-- C07, C12: no file is ever touched unless the history's device traffic began with a complete, successful commitment
and locking of the bank for an approved boot. -/
theorem no_files_without_commitment (H : History E fs0 h s) :
    (s.files = fs0 ∧ ∀ fs, Event.files fs ∉ s.trace) ∨
    ∃ b : Boot, (∃ m ∈ requests h, b.RequestedBy m) ∧ ApprovedBoot E.prims b.envelope b.pivot ∧
      ∃ pre post, s.trace = pre ++ post ∧ Committed E b pre := by
  rcases H.inv with hi | hu | ⟨b, hb⟩
  · left
    exact ⟨hi.files, fun fs hf => by rw [hi.trace] at hf; cases hf⟩
  · left
    refine ⟨hu.untouched.1, fun fs hf => ?_⟩
    obtain ⟨r, a, he⟩ := hu.untouched.2 _ hf
    cases he
  · right
    obtain ⟨pre, post, h1, h2, _⟩ := hb.since.split
    exact ⟨b, hb.since.ok.requested, hb.since.ok.approvedBoot, pre, post, h1, h2⟩

/-- C07: a boot that is answered with an error before the bank was committed leaves the files as they were, and
the enclave is in `UnrecoverableError`. -/
theorem failed_boot_untouched (H : History E fs0 h s) (hs : s.phase = .waitingForBootInstruction) {m : Msg}
    {e : Envelope} {pivot : Bytes} (hm : m.BootsWith e pivot) (hwf : m.WellFormed)
    (hno : ¬ ∃ (b : Boot) (pre post : List Event), b.envelope = e ∧ b.pivot = pivot ∧
      (handle E m s).2.trace = pre ++ post ∧ Committed E b pre) :
    (handle E m s).2.phase = .unrecoverableError ∧ (handle E m s).2.files = fs0 ∧
      ∀ fs, Event.files fs ∉ (handle E m s).2.trace := by
  have hi : Idle fs0 h s := by
    rcases H.inv with hi | hu | ⟨b, hb⟩
    · exact hi
    · have := hu.phase; rw [hs] at this; exact absurd this (by decide)
    · exfalso
      cases hb with
      | waiting h1 _ => rw [hs] at h1; revert h1; split <;> decide
      | provisioned _ h1 _ => rw [hs] at h1; cases h1
      | broken h1 _ => rw [hs] at h1; cases h1
  have he : e.Ok := by
    rcases hm with rfl | rfl | rfl <;> exact hwf
  have core : ∀ fwd, (∀ setup live, (Boot.mk fwd e pivot setup live).RequestedBy m) →
      (∀ r s', putManifestAndPivot E e pivot s = (.ok r, s') → (handle E m s).2 =
        { s' with phase := if fwd then .waitingForForwardedKey else .waitingForQuorumShards }) →
      (∀ er s', putManifestAndPivot E e pivot s = (.error er, s') → (handle E m s).2 =
        { s' with phase := .unrecoverableError }) →
      (handle E m s).2.phase = .unrecoverableError ∧ (handle E m s).2.files = fs0 ∧
      ∀ fs, Event.files fs ∉ (handle E m s).2.trace := by
    intro fwd hreq hok herr
    have hends := putManifestAndPivot_ends (reqs := requests h ++ [m]) H.env H.fresh he fwd (by simp) hreq hi.files
      hi.trace hi.seeds hi.shares
    match hr : putManifestAndPivot E e pivot s with
    | (.ok r, s') =>
      exfalso
      obtain ⟨b, b1, b2, b3, hw⟩ := ends_ok hends hr
      obtain ⟨pre, post, k1, k2, _⟩ := hw.since.split
      exact hno ⟨b, pre, post, b2, b3, by rw [hok r s' hr]; exact k1, k2⟩
    | (.error er, s') =>
      rw [herr er s' hr]
      rcases ends_error hends hr with hun | ⟨b, b2, b3, hS⟩
      · refine ⟨rfl, hun.1, fun fs hf => ?_⟩
        obtain ⟨r, a, he⟩ := hun.2 _ hf
        cases he
      · exfalso
        obtain ⟨pre, post, k1, k2, _⟩ := hS.split
        exact hno ⟨b, pre, post, b2, b3, by rw [herr er s' hr]; exact k1, k2⟩
  rcases hm with hm | hm | hm
  · have hh := handle_standard (E := E) hs (.inl hm)
    exact core false (fun _ _ => .inl hm) (fun r s' hr => by rw [hh, hr]; rfl) (fun er s' hr => by rw [hh, hr])
  · have hh := handle_standard (E := E) hs (.inr hm)
    exact core false (fun _ _ => .inr hm) (fun r s' hr => by rw [hh, hr]; rfl) (fun er s' hr => by rw [hh, hr])
  · have hh := handle_forward (E := E) hs e pivot
    rw [← hm] at hh
    exact core true (fun _ _ => hm) (fun r s' hr => by rw [hh, hr]; rfl) (fun er s' hr => by rw [hh, hr])

/-! ## C08 -/

/-- C08: at every moment at which a quorum key file exists: it is the complete hex form of a master seed whose
public key is the quorum key of the stored manifest; manifest and pivot files are complete and are those of one
approved boot request of the history; and the ephemeral key file holds the second generated key (the live key), not the
first (the setup key). -/
theorem quorum_key_complete (H : History E fs0 h s) {fs : Files} (hm : Moment fs0 s fs) {f : File}
    (hf : fs E.paths.quorum = some f) :
    ∃ (e : Envelope) (pivot : Bytes) (as : List Approval) (key setup live : Pair),
      (∃ m ∈ requests h, m.BootsWith e pivot) ∧ ApprovedBoot E.prims e pivot ∧
      f.data = Hex.encode key.seed ∧ key.seed.length = 32 ∧ Pair.fromMasterSeed E.prims key.seed = .ok key ∧
      (key.publicKey E.prims).toBytes = e.manifest.namespaceOf.quorumKey ∧
      Installed E (e.withShares as) pivot fs ∧
      Pair.fromMasterSeed E.prims (E.seedAt 0) = .ok setup ∧ Pair.fromMasterSeed E.prims (E.seedAt 1) = .ok live ∧
      Holds fs E.paths.ephemeral (Hex.encode live.seed) ∧
      (E.seedAt 0 ≠ E.seedAt 1 → ¬ Holds fs E.paths.ephemeral (Hex.encode setup.seed)) := by
  obtain ⟨b, hb, hs⟩ := H.moment hm (mem_quorum _) hf
  obtain ⟨key, posts, hc⟩ := hs.quorum f hf
  have hok := hb.since.ok
  obtain ⟨buf, hb1, hb2⟩ := hc.manifest
  obtain ⟨buf', r1, r2⟩ := storage_roundtrip _ (b.stored H.env hok hc.posted)
  refine ⟨b.envelope, b.pivot, posts.map (·.2), key, b.setup, b.live, hok.asked, hok.approvedBoot, hc.content,
    hc.seed.1, hc.seed.2, hc.names, ⟨⟨buf, hb1, hb2⟩, hc.pivot, ⟨buf', r1, r2⟩, b.stored H.env hok hc.posted⟩, hok.setup, hok.live, hc.ephemeral, ?_⟩
  rintro hne ⟨g, hg, hd⟩
  obtain ⟨g', hg', hd'⟩ := hc.ephemeral
  rw [hg, Option.some.injEq] at hg'
  subst hg'
  rw [hd] at hd'
  have := Hex.hex_encode_injective _ _ hd'
  rw [pair_seed _ _ _ hok.setup, pair_seed _ _ _ hok.live] at this
  exact hne this

/-! ## C09 -/

/-- C09: a quorum key file, once there, keeps its content at every later moment (its mode may change from
writable to read-only). -/
theorem quorum_key_written_once (H : History E fs0 h s) {fs fs' : Files} (ho : InOrder fs0 s fs fs') {f : File}
    (hf : fs E.paths.quorum = some f) : Holds fs' E.paths.quorum f.data := by
  rcases ho with ⟨rfl, hm⟩ | ⟨l1, l2, l3, ht⟩ | ⟨hmem, rfl⟩ | rfl
  · rw [H.fresh _ (mem_quorum _)] at hf; cases hf
  · obtain ⟨b, hb, _⟩ := H.moment (.inr (.inl (by rw [ht]; simp))) (mem_quorum _) hf
    obtain ⟨pre, post, h1, hc, hok, hpw, hnow⟩ := hb.since.split
    have hl : Later E.paths fs fs' := by
      obtain ⟨v1, v2, v3, w1, w2, w3, m1, m2, mx, a1, a2, d, _, _, _, _, he⟩ := hc
      have hpre : ∀ ev ∈ pre, ∃ r a, ev = Event.nsm r a := by
        intro ev hev
        rw [he] at hev
        simp only [List.mem_cons, List.not_mem_nil, or_false] at hev
        rcases hev with rfl | rfl | rfl | rfl | rfl | rfl | rfl | rfl | rfl <;> exact ⟨_, _, rfl⟩
      have hsub : [Event.files fs, Event.files fs'].Sublist post := by
        have hs1 : [Event.files fs, Event.files fs'].Sublist (pre ++ post) := by
          rw [← h1, ht]
          have : [Event.files fs, Event.files fs'] = [Event.files fs] ++ [Event.files fs'] := rfl
          rw [this]
          refine List.Sublist.append ?_ ?_
          · rw [show l1 ++ Event.files fs :: l2 = l1 ++ (Event.files fs :: l2) from rfl]
            exact (List.singleton_sublist.2 (by simp))
          · exact List.singleton_sublist.2 (by simp)
        clear he h1 ht
        induction pre with
        | nil => simpa using hs1
        | cons ev pre ih =>
          apply ih (fun x hx => hpre x (by simp [hx]))
          rw [List.cons_append] at hs1
          cases hs1 with
          | cons _ h => exact h
          | cons_cons _ h =>
            obtain ⟨r, a, hx⟩ := hpre _ List.mem_cons_self
            cases hx
      have := List.Pairwise.sublist hsub hpw
      rw [List.pairwise_pair] at this
      exact this
    exact hl.quorum f hf
  · obtain ⟨b, hb, _⟩ := H.moment (.inr (.inl hmem)) (mem_quorum _) hf
    obtain ⟨pre, post, h1, hc, hok, hpw, hnow⟩ := hb.since.split
    have hp : Event.files fs ∈ post := by
      rw [h1] at hmem
      rcases List.mem_append.1 hmem with hx | hx
      · exfalso
        obtain ⟨v1, v2, v3, w1, w2, w3, m1, m2, mx, a1, a2, d, _, _, _, _, he⟩ := hc
        rw [he] at hx
        simp at hx
      · exact hx
    exact (hnow _ hp : Later E.paths fs s.files).quorum f hf
  · exact ⟨f, hf, rfl⟩

/-- C09: and it keeps it whatever requests follow. -/
theorem quorum_key_permanent (H : History E fs0 h s) {f : File} (hf : s.files E.paths.quorum = some f)
    (qs : List Msg) : Holds (after E s qs).files E.paths.quorum f.data := by
  have hE := H.env
  obtain ⟨b, hb, -⟩ := H.moment (.inr (.inr rfl)) (mem_quorum _) hf
  clear H
  induction qs generalizing h s with
  | nil => exact ⟨f, hf, rfl⟩
  | cons q qs ih =>
    have hstep : Quiet s (handle E q s).2 := by
      cases hb with
      | waiting _ hw => rw [hw.quorum] at hf; cases hf
      | provisioned k hp hw hn =>
        by_cases hk : kind q ∈ readOnly
        · exact read_only_requests E q s hk
        · rw [unserved_rejected E q s]
          · exact quiet_pre.refl s
          · rw [hp]
            revert hk
            generalize kind q = k
            cases k <;> decide
      | broken hp _ => exact final_phase_frozen E s (by rw [hp]; decide) [q]
    exact ih (by rw [hstep.files]; exact hf) (hb.step hE q)

/-- C09: storing on top of an existing ephemeral key, quorum key, manifest or pivot fails and changes nothing. -/
theorem put_existing_refused (E : Env) (s : St) :
    (∀ k f, s.files E.paths.ephemeral = some f →
      putEphemeralKey E k s = (.error .cannotModifyPostPivotStatic, s)) ∧
    (∀ k f, s.files E.paths.quorum = some f → putQuorumKey E k s = (.error .cannotModifyPostPivotStatic, s)) ∧
    (∀ x f, s.files E.paths.pivot = some f → putPivot E x s = (.error .cannotModifyPostPivotStatic, s)) ∧
    (∀ e f, e.Ok → s.files E.paths.manifest = some f →
      putManifestEnvelope E e s = (.error .cannotModifyPostPivotStatic, s)) := by
  have hw : ∀ path buf err f, s.files path = some f →
      writeAsReadOnly E path buf err s = (.error .cannotModifyPostPivotStatic, s) := by
    intro path buf err f hf
    unfold writeAsReadOnly
    rw [bind_run, fileExists_run, hf]
    rfl
  refine ⟨fun k f hf => hw _ _ _ f hf, fun k f hf => hw _ _ _ f hf, ?_, ?_⟩
  · intro x f hf
    unfold putPivot
    rw [bind_run, fileExists_run, hf]
    rfl
  · intro e f he hf
    obtain ⟨buf, hb, _⟩ := storage_roundtrip e he
    unfold putManifestEnvelope
    rw [hb]
    exact hw _ _ _ f hf

/-! ## C10 -/

/-- Accepted shares: posted in this order by requests of the history, each with a signature over the manifest hash by a
member of the share set; each ciphertext decrypts under the setup key to a non-empty share. -/
structure AcceptedShares (E : Env) (e : Envelope) (setup : Pair) (reqs : List Msg)
    (posts : List (Bytes × Approval)) (shares : List Bytes) : Prop where
  asked : (posts.map fun x => Msg.provisionRequest x.1 x.2).Sublist reqs
  signed : ∀ x ∈ posts, x.2.member.Signed E.prims (e.manifest.hash E.prims) x.2.signature
  listed : ∀ x ∈ posts, x.2.member ∈ e.manifest.shareSet.members
  decrypted : List.Forall₂ (fun x sh => setup.decrypt E.prims x.1 = .ok sh ∧ sh ≠ []) posts shares

/-- C10: at every moment at which a quorum key exists in a boot by provisioning (a standard boot request), at least
`threshold` and at least one shares had been accepted, the key is what they reconstruct to, and the stored envelope
carries exactly their approvals, in order. -/
theorem provisioned_by_threshold (H : History E fs0 h s) {fs : Files} (hm : Moment fs0 s fs) {f : File}
    (hf : fs E.paths.quorum = some f) :
    ∃ (e : Envelope) (pivot : Bytes) (setup : Pair) (seed : Bytes), ApprovedBoot E.prims e pivot ∧
      Pair.fromMasterSeed E.prims (E.seedAt 0) = .ok setup ∧ f.data = Hex.encode seed ∧
      ((∃ posts shares, AcceptedShares E e setup (requests h) posts shares ∧
          e.manifest.shareSet.threshold.toNat ≤ posts.length ∧ 1 ≤ posts.length ∧
          Shamir.sharesReconstruct shares = .ok seed ∧ Installed E (e.withShares (posts.map (·.2))) pivot fs ∧
          ∃ m ∈ requests h, m = .bootStandardRequest e pivot ∨ m = .bootStandardJsonEnvelopeRequest e pivot) ∨
       (Msg.bootKeyForwardRequest e pivot ∈ requests h ∧ Installed E e pivot fs ∧
          ∃ ct sig, Msg.injectKeyRequest ct sig ∈ requests h ∧ setup.decrypt E.prims ct = .ok seed)) := by
  obtain ⟨b, hb, hs⟩ := H.moment hm (mem_quorum _) hf
  obtain ⟨key, posts, hc⟩ := hs.quorum f hf
  have hok := hb.since.ok
  obtain ⟨buf', r1, r2⟩ := storage_roundtrip _ (b.stored H.env hok hc.posted)
  have hinst : Installed E (b.envelope.withShares (posts.map (·.2))) b.pivot fs :=
    ⟨hc.manifest, hc.pivot, ⟨buf', r1, r2⟩, b.stored H.env hok hc.posted⟩
  refine ⟨b.envelope, b.pivot, b.setup, key.seed, hok.approvedBoot, hok.setup, hc.content, ?_⟩
  obtain ⟨m, hm, hreq⟩ := hok.requested
  unfold Boot.RequestedBy at hreq
  cases hc.origin with
  | provisioned shares o1 o2 o3 o4 o5 =>
    left
    rw [if_neg (by rw [o1]; simp)] at hreq
    refine ⟨posts, shares, ⟨hc.posted.asked, ?_, hc.posted.listed, o2⟩, o3, o4, o5, hinst, m, hm, hreq⟩
    intro x hx
    exact (approval_verify_iff _ _ _).1 (hc.posted.signed x hx)
  | injected ct sig o1 o2 o3 o4 o5 =>
    right
    rw [if_pos o1] at hreq
    subst hreq o2
    rw [List.map_nil, Envelope.withShares_nil] at hinst
    exact ⟨hm, hinst, ct, sig, o3, o5⟩

/-! ## C12 -/

/-- C12: whenever any file has been written, the device traffic before the first file event is exactly a
successful commitment and locking of the whole bank, to the hash of the booted manifest and the public keys of the two
generated keys; and everything the device is asked after that is attestation. So no register is extended or locked
after the first write. -/
theorem bank_locked_first (H : History E fs0 h s) (hw : s.files ≠ fs0 ∨ ∃ fs, Event.files fs ∈ s.trace) :
    ∃ b : Boot, (∃ m ∈ requests h, b.RequestedBy m) ∧ ApprovedBoot E.prims b.envelope b.pivot ∧
      Pair.fromMasterSeed E.prims (E.seedAt 0) = .ok b.setup ∧
      Pair.fromMasterSeed E.prims (E.seedAt 1) = .ok b.live ∧
      ∃ pre post, s.trace = pre ++ post ∧ Committed E b pre ∧
        ∀ r a, Event.nsm r a ∈ post → ∃ u n k, r = .attestation u n k := by
  rcases H.inv with hi | hu | ⟨b, hb⟩
  · exfalso
    rcases hw with hw | ⟨fs, hw⟩
    · exact hw hi.files
    · rw [hi.trace] at hw; cases hw
  · exfalso
    rcases hw with hw | ⟨fs, hw⟩
    · exact hw hu.untouched.1
    · obtain ⟨r, a, he⟩ := hu.untouched.2 _ hw
      cases he
  · obtain ⟨pre, post, h1, h2, h3, _⟩ := hb.since.split
    refine ⟨b, hb.since.ok.requested, hb.since.ok.approvedBoot, hb.since.ok.setup, hb.since.ok.live, pre, post, h1, h2, ?_⟩
    intro r a hra
    have := h3 _ hra
    cases r <;> first | exact ⟨_, _, _, rfl⟩ | exact absurd this (by simp [Boot.EventOk])

end Qos
