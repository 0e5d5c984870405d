import Verif.Lemmas.BootInv
import Verif.Lemmas.Served
/-!
# The invariant of all reachable states
-/
namespace Qos
open P256 Handles Services StateMachine Lifecycle

variable {E : Env} {b : Boot} {fs0 : Files}

theorem posted_append (h h' : List (Msg × Msg)) : posted (h ++ h') = posted h ++ posted h' := by
  induction h with
  | nil => rfl
  | cons x h ih =>
    obtain ⟨q, r⟩ := x
    cases q <;> cases r <;> simp [posted, ih]

theorem posted_other (h : List (Msg × Msg)) (q r : Msg)
    (hn : ∀ x a y, q = .provisionRequest x a → r ≠ .provisionResponse y) :
    posted (h ++ [(q, r)]) = posted h := by
  rw [posted_append]
  cases q <;> cases r <;> simp [posted] <;> exact absurd rfl (hn _ _ _ rfl)

theorem requests_append (h h' : List (Msg × Msg)) : requests (h ++ h') = requests h ++ requests h' := by
  simp [requests]

/-- A boot has begun to write: waiting for the key, provisioned, or broken. -/
inductive Booted (E : Env) (b : Boot) (h : List (Msg × Msg)) (s : St) : Prop
  | waiting : s.phase = (if b.forward then .waitingForForwardedKey else .waitingForQuorumShards) →
      b.Waiting E (requests h) (posted h) s → Booted E b h s
  | provisioned (key : Pair) : s.phase = .quorumKeyProvisioned →
      b.Provisioned E (requests h) (posted h) key s → s.pending = none → Booted E b h s
  | broken : s.phase = .unrecoverableError → b.Since E (requests h) s.trace s.files → Booted E b h s

/-- Nothing was booted yet. -/
structure Idle (fs0 : Files) (h : List (Msg × Msg)) (s : St) : Prop where
  phase : s.phase = .waitingForBootInstruction
  shares : s.shares = []
  pending : s.pending = none
  files : s.files = fs0
  trace : s.trace = []
  seeds : s.seeds = 0
  posted : posted h = []

/-- A genesis, or a boot that was rejected before anything was written. -/
structure Unbooted (fs0 : Files) (h : List (Msg × Msg)) (s : St) : Prop where
  phase : s.phase ∈ final
  untouched : Untouched fs0 s
  posted : posted h = []

theorem Boot.Waiting.quiet {reqs reqs' : List Msg} {posts : List (Bytes × Approval)} {s s' : St}
    (hw : b.Waiting E reqs posts s) (hsub : reqs.Sublist reqs') (hq : Quiet s s') : b.Waiting E reqs' posts s' := by
  have hf := hq.files
  exact ⟨(hw.since.quiet hq).mono hsub, hw.posted.mono hsub, by rw [hq.shares]; exact hw.decrypted, hw.forward,
    by rw [hq.pending]; exact hw.pending, by rw [hf]; exact hw.ephemeral, by rw [hf]; exact hw.pivot,
    by rw [hf]; exact hw.manifest, by rw [hf]; exact hw.quorum⟩

theorem Boot.Complete.mono {reqs reqs' : List Msg} {posts : List (Bytes × Approval)} {fs : Files} {d : Bytes}
    {k : Pair} (hc : b.Complete E reqs fs d k posts) (hsub : reqs.Sublist reqs') :
    b.Complete E reqs' fs d k posts :=
  ⟨hc.content, hc.seed, hc.names, hc.ephemeral, hc.pivot, hc.manifest, hc.posted.mono hsub, hc.origin.mono hsub⟩

theorem Boot.Provisioned.quiet {reqs reqs' : List Msg} {posts : List (Bytes × Approval)} {key : Pair} {s s' : St}
    (hw : b.Provisioned E reqs posts key s) (hsub : reqs.Sublist reqs') (hq : Quiet s s') :
    b.Provisioned E reqs' posts key s' := by
  have hf := hq.files
  exact ⟨(hw.since.quiet hq).mono hsub, by rw [hf]; exact hw.quorum, by rw [hf]; exact hw.complete.mono hsub⟩

/-- A quiet request keeps everything. -/
theorem Booted.quiet {h : List (Msg × Msg)} {s s' : St} (hb : Booted E b h s) (q r : Msg)
    (hn : ∀ x a y, q = .provisionRequest x a → r ≠ .provisionResponse y) (hq : Quiet s s') :
    Booted E b (h ++ [(q, r)]) s' := by
  have hsub : (requests h).Sublist (requests (h ++ [(q, r)])) := by
    rw [requests_append]; exact List.sublist_append_left _ _
  have hp := posted_other h q r hn
  cases hb with
  | waiting h1 h2 => exact .waiting (by rw [hq.phase]; exact h1) (by rw [hp]; exact h2.quiet hsub hq)
  | provisioned key h1 h2 h3 =>
    exact .provisioned key (by rw [hq.phase]; exact h1) (by rw [hp]; exact h2.quiet hsub hq)
      (by rw [hq.pending]; exact h3)
  | broken h1 h2 => exact .broken (by rw [hq.phase]; exact h1) ((h2.quiet hq).mono hsub)

theorem kind_ne_provision {q : Msg} (h : kind q ≠ .provision) (r : Msg) :
    ∀ x a y, q = .provisionRequest x a → r ≠ .provisionResponse y := by
  rintro x a y rfl
  exact absurd rfl h

/-- One more request after a boot. -/
theorem Booted.step (hE : E.Ok) {h : List (Msg × Msg)} {s : St} (hb : Booted E b h s) (q : Msg) :
    Booted E b (h ++ [(q, (handle E q s).1)]) (handle E q s).2 := by
  by_cases hk : kind q ∈ readOnly
  · exact hb.quiet q _ (kind_ne_provision (fun e => by rw [e] at hk; revert hk; decide) _)
      (read_only_requests E q s hk)
  by_cases hs : kind q ∈ served s.phase
  swap
  · rw [unserved_rejected E q s hs]
    exact hb.quiet q _ (fun _ _ _ _ => by simp) (quiet_pre.refl s)
  have hreqs : ∀ r, requests (h ++ [(q, r)]) = requests h ++ [q] := fun r => by simp [requests]
  cases hb with
  | provisioned key h1 h2 h3 =>
    exfalso
    rw [h1] at hs
    revert hk hs
    generalize kind q = k
    cases k <;> decide
  | broken h1 h2 =>
    exfalso
    rw [h1] at hs
    revert hk hs
    generalize kind q = k
    cases k <;> decide
  | waiting h1 h2 =>
    by_cases hf : b.forward = true
    · rw [if_pos hf] at h1
      rw [h1] at hs
      have hkind : kind q = .injectKey := by
        revert hk hs
        generalize kind q = k
        cases k <;> decide
      cases q <;> simp only [kind] at hkind <;> try (cases hkind; done)
      rename_i ct sig
      have hp0 : posted h = [] := h2.forward hf
      rw [hp0] at h2
      rw [handle_inject h1]
      have hends := injectKey_ends (b := b) (ct := ct) (sig := sig) hE h2 hf rfl
      match hr : injectKey E ct sig s with
      | (.ok u, s') =>
        obtain ⟨key, k1, k2⟩ := ends_ok hends hr
        refine .provisioned key rfl ?_ k2
        rw [posted_other _ _ _ (by simp), hp0, hreqs]
        exact ⟨k1.since, k1.quorum, k1.complete⟩
      | (.error e, s') =>
        have k1 := ends_error hends hr
        refine .broken rfl ?_
        rw [hreqs]; exact k1
    · have hf' : b.forward = false := by simpa using hf
      rw [if_neg hf] at h1
      rw [h1] at hs
      have hkind : kind q = .provision := by
        revert hk hs
        generalize kind q = k
        cases k <;> decide
      cases q <;> simp only [kind] at hkind <;> try (cases hkind; done)
      rename_i x a
      rw [handle_provision h1]
      have hends := provision_ends (b := b) (x := x) (a := a) hE h2 hf' rfl
      match hr : provision E x a s with
      | (.ok false, s') =>
        have k1 := ends_ok hends hr
        rw [if_neg (by simp)] at k1
        refine .waiting ?_ ?_
        · rw [if_neg hf]
          have hp := (phase_provision E x a).run s
          rw [hr] at hp
          exact Eq.trans hp h1
        · rw [hreqs, posted_append]
          exact k1.1
      | (.ok true, s') =>
        have k1 := ends_ok hends hr
        rw [if_pos rfl] at k1
        obtain ⟨key, k1, k2⟩ := k1
        refine .provisioned key rfl ?_ k2
        rw [hreqs, posted_append]
        exact ⟨k1.since, k1.quorum, k1.complete⟩
      | (.error e, s') =>
        have k1 := ends_error hends hr
        refine .broken rfl ?_
        rw [hreqs]; exact k1

theorem Quiet.untouched {s s' : St} (h : Quiet s s') (hu : Untouched fs0 s) : Untouched fs0 s' := by
  obtain ⟨evs, ht, ha⟩ := h.trace
  refine ⟨h.files.trans hu.1, ?_⟩
  intro ev hev
  rw [ht] at hev
  rcases List.mem_append.1 hev with h | h
  · exact hu.2 ev h
  · have := ha ev h
    cases ev with
    | files fs => exact absurd this (by simp [Event.isAttestation])
    | nsm r a => exact ⟨r, a, rfl⟩

theorem Unbooted.step {h : List (Msg × Msg)} {s : St} (hu : Unbooted fs0 h s) (q : Msg) :
    Unbooted fs0 (h ++ [(q, (handle E q s).1)]) (handle E q s).2 := by
  have hq : Quiet s (handle E q s).2 := final_phase_frozen E s hu.phase [q]
  refine ⟨by rw [hq.phase]; exact hu.phase, hq.untouched hu.untouched, ?_⟩
  rw [posted_other _ _ _ ?_, hu.posted]
  rintro x a y rfl
  rw [unserved_rejected E _ s]
  · simp
  · have := hu.phase
    revert this
    generalize s.phase = p
    cases p <;> simp [final, kind, served]

/-! ### The start phase -/

/-- Genesis touches no file. -/
theorem device_encryptTo (E : Env) (k : Public) (m : Bytes) : Keeps (Untouched fs0 · → Untouched fs0 ·) (encryptTo E k m) :=
  ⟨fun _ h => h⟩

theorem untouched_pre : Preorderly (fun s s' => Untouched fs0 s → Untouched fs0 s') :=
  ⟨fun _ h => h, fun _ _ _ h1 h2 h => h2 (h1 h)⟩

theorem untouched_callNsm (E : Env) (r : NsmRequest) :
    Keeps (fun s s' => Untouched fs0 s → Untouched fs0 s') (callNsm E r) :=
  ⟨fun s h => ((device_callNsm E r).run s).untouched h⟩

theorem untouched_memberOutputs (E : Env) (l : List Bytes) (ms : List QuorumMember) :
    Keeps (fun s s' => Untouched fs0 s → Untouched fs0 s') (memberOutputs E l ms) := by
  induction l generalizing ms with
  | nil => unfold memberOutputs; keeps_tac untouched_pre
  | cons b l ih =>
    cases ms with
    | nil => unfold memberOutputs; keeps_tac untouched_pre
    | cons m ms =>
      have := ih ms
      unfold memberOutputs memberOutput
      keeps_tac untouched_pre
      exact ⟨fun _ h => h⟩

theorem untouched_bootGenesis (E : Env) (g : GenesisSet) (k : Option Bytes) :
    Keeps (fun s s' => Untouched fs0 s → Untouched fs0 s') (bootGenesis E g k) := by
  unfold bootGenesis wrapForDr
  keeps_tac untouched_pre <;>
    first
      | apply untouched_memberOutputs
      | apply untouched_callNsm
      | exact ⟨fun _ h => h⟩

/-- One request in the start phase. -/
theorem Idle.step (hE : E.Ok) (h0 : Fresh E.paths fs0) {h : List (Msg × Msg)} {s : St} (hi : Idle fs0 h s) (q : Msg)
    (hwf : q.WellFormed) :
    Idle fs0 (h ++ [(q, (handle E q s).1)]) (handle E q s).2 ∨
    Unbooted fs0 (h ++ [(q, (handle E q s).1)]) (handle E q s).2 ∨
    ∃ b, Booted E b (h ++ [(q, (handle E q s).1)]) (handle E q s).2 := by
  have hphase := hi.phase
  have hu : Untouched fs0 s := ⟨hi.files, by rw [hi.trace]; simp⟩
  have hpost : Qos.posted (h ++ [(q, (handle E q s).1)]) = [] := by
    rw [posted_other _ _ _ ?_, hi.posted]
    rintro x a y rfl
    rw [unserved_rejected E _ s (by rw [hphase]; simp [kind, served])]
    simp
  have hreqs : requests (h ++ [(q, (handle E q s).1)]) = requests h ++ [q] := by simp [requests]
  have hmem : q ∈ requests h ++ [q] := by simp
  -- outcome of a boot
  have boot : ∀ e x fwd, e.Ok → (∀ setup live, (Boot.mk fwd e x setup live).RequestedBy q) →
      (∀ r s', putManifestAndPivot E e x s = (.ok r, s') → (handle E q s).2 =
        { s' with phase := if fwd then .waitingForForwardedKey else .waitingForQuorumShards }) →
      (∀ er s', putManifestAndPivot E e x s = (.error er, s') → (handle E q s).2 =
        { s' with phase := .unrecoverableError }) →
      Unbooted fs0 (h ++ [(q, (handle E q s).1)]) (handle E q s).2 ∨
      ∃ b, Booted E b (h ++ [(q, (handle E q s).1)]) (handle E q s).2 := by
    intro e x fwd he hreq hok herr
    have hends := putManifestAndPivot_ends (reqs := requests h ++ [q]) hE h0 he fwd hmem hreq hi.files hi.trace
      hi.seeds hi.shares
    match hr : putManifestAndPivot E e x s with
    | (.ok r, s') =>
      obtain ⟨b, b1, b2, b3, hw⟩ := ends_ok hends hr
      refine .inr ⟨b, ?_⟩
      rw [hok r s' hr]
      refine .waiting (by rw [b1]) ?_
      rw [hpost, hreqs]
      exact ⟨hw.since, hw.posted, hw.decrypted, hw.forward, hw.pending, hw.ephemeral, hw.pivot, hw.manifest,
        hw.quorum⟩
    | (.error er, s') =>
      rcases ends_error hends hr with hun | ⟨b, b1, b2, hS⟩
      · refine .inl ⟨?_, ?_, hpost⟩
        · rw [herr er s' hr]; exact List.mem_cons_self
        · rw [herr er s' hr]; exact hun
      · refine .inr ⟨b, ?_⟩
        rw [herr er s' hr]
        refine .broken rfl ?_
        rw [hreqs]; exact hS
  by_cases hs : kind q ∈ served s.phase
  swap
  · have := unserved_rejected E q s hs
    left
    rw [this] at hpost ⊢
    exact ⟨hi.phase, hi.shares, hi.pending, hi.files, hi.trace, hi.seeds, hpost⟩
  cases q with
  | statusRequest =>
    left
    rw [status_reports_phase] at hpost ⊢
    exact ⟨hi.phase, hi.shares, hi.pending, hi.files, hi.trace, hi.seeds, hpost⟩
  | versionRequest =>
    left
    have e : handle E .versionRequest s = (.versionResponse E.version E.commit, s) := by
      simp only [handle, hphase, routes, dispatch, status, version, pure_run]
      simp [afterHandler, finish, transition, hphase]
    rw [e] at hpost ⊢
    exact ⟨hi.phase, hi.shares, hi.pending, hi.files, hi.trace, hi.seeds, hpost⟩
  | manifestEnvelopeRequest =>
    left
    have hm := handle_manifestEnvelope (E := E) (s := s) (by rw [hphase]; decide)
    have hr : (getManifestEnvelope E s).2 = bump s := by
      unfold getManifestEnvelope
      rw [bind_run, readFile_run]
      simp only
      generalize (if E.io s.ios = .ok then (s.files E.paths.manifest).map (·.data) else none) = r
      cases r with
      | none => rfl
      | some c => cases hc : Envelope.tryFromSliceCompat c <;> simp only [hc] <;> rfl
    rw [hm] at hpost ⊢
    refine ⟨?_, ?_, ?_, ?_, ?_, ?_, hpost⟩ <;> simp only [hr, bump]
    · exact hi.phase
    · exact hi.shares
    · exact hi.pending
    · exact hi.files
    · exact hi.trace
    · exact hi.seeds
  | bootGenesisRequest g k =>
    right; left
    have hh := handle_genesis (E := E) hphase g k
    have hg := (untouched_bootGenesis (fs0 := fs0) E g k).run s hu
    refine ⟨?_, ?_, hpost⟩
    · rw [hh]
      match bootGenesis E g k s with
      | (.ok r, s') => exact List.mem_cons_of_mem _ List.mem_cons_self
      | (.error e, s') => exact List.mem_cons_self
    · rw [hh]
      match hr : bootGenesis E g k s with
      | (.ok r, s') => rw [hr] at hg; exact hg
      | (.error e, s') => rw [hr] at hg; exact hg
  | bootStandardRequest e x =>
    right
    have hh := handle_standard (E := E) hphase (.inl (rfl : Msg.bootStandardRequest e x = _))
    exact boot e x false hwf (fun _ _ => .inl rfl) (fun r s' hr => by rw [hh, hr]; rfl)
      (fun er s' hr => by rw [hh, hr])
  | bootStandardJsonEnvelopeRequest e x =>
    right
    have hh := handle_standard (E := E) hphase (.inr (rfl : Msg.bootStandardJsonEnvelopeRequest e x = _))
    exact boot e x false hwf (fun _ _ => .inr rfl) (fun r s' hr => by rw [hh, hr]; rfl)
      (fun er s' hr => by rw [hh, hr])
  | bootKeyForwardRequest e x =>
    right
    have hh := handle_forward (E := E) hphase e x
    exact boot e x true hwf (fun _ _ => rfl) (fun r s' hr => by rw [hh, hr]; rfl)
      (fun er s' hr => by rw [hh, hr])
  | _ => exact absurd hs (by rw [hphase]; simp [kind, served])

/-- Every reachable state. -/
theorem reach_inv (hE : E.Ok) (h0 : Fresh E.paths fs0) {h : List (Msg × Msg)} {s : St} (hr : Reach E fs0 h s)
    (hwf : ∀ q ∈ requests h, q.WellFormed) : Idle fs0 h s ∨ Unbooted fs0 h s ∨ ∃ b, Booted E b h s := by
  induction hr with
  | start => exact .inl ⟨rfl, rfl, rfl, rfl, rfl, rfl, rfl⟩
  | @step h' s' q hr ih =>
    have hw : (∀ m ∈ requests h', m.WellFormed) ∧ q.WellFormed := by
      rw [requests_append] at hwf
      exact ⟨fun m hm => hwf m (by simp [hm]), hwf q (by simp [requests])⟩
    rcases ih hw.1 with h1 | h1 | ⟨b, h1⟩
    · exact h1.step hE h0 q hw.2
    · exact .inr (.inl (h1.step q))
    · exact .inr (.inr ⟨b, h1.step hE q⟩)

/-- A boot stays the same boot. -/
theorem Booted.after (hE : E.Ok) {h : List (Msg × Msg)} {s : St} (hb : Booted E b h s) (qs : List Msg) :
    Booted E b (h ++ transcript E s qs) (Lifecycle.after E s qs) := by
  induction qs generalizing h s with
  | nil => simpa [transcript, Lifecycle.after] using hb
  | cons q qs ih =>
    have := ih (hb.step hE q)
    simpa [transcript, Lifecycle.after] using this

theorem Reach.after {h : List (Msg × Msg)} {s : St} (hr : Reach E fs0 h s) (qs : List Msg) :
    Reach E fs0 (h ++ transcript E s qs) (Lifecycle.after E s qs) := by
  induction qs generalizing h s with
  | nil => simpa [transcript, Lifecycle.after] using hr
  | cons q qs ih =>
    have := ih (Reach.step q hr)
    simpa [transcript, Lifecycle.after] using this

end Qos
