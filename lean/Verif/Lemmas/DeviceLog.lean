import Verif.Lemmas.Generic
import Verif.Lemmas.Reach
import Verif.Spec.Device
import Verif.Props.Nsm
/-!
# The trace is a faithful log of the device traffic
-/
namespace Qos
open P256 Handles Services StateMachine

variable {E : Env}

/-- The device history is what the trace records, and every recorded answer is the device's. -/
structure Faithful (E : Env) (s : St) : Prop where
  hist : s.nsmHist = s.trace.filterMap Event.request
  answers : ∀ pre r a post, s.trace = pre ++ .nsm r a :: post → a = E.nsm (pre.filterMap Event.request) r

theorem Faithful.files {s : St} (h : Faithful E s) (fs : Files) :
    Faithful E { s with files := fs, trace := s.trace ++ [.files fs] } := by
  refine ⟨?_, ?_⟩
  · show s.nsmHist = (s.trace ++ [Event.files fs]).filterMap Event.request
    rw [List.filterMap_append, ← h.hist]; simp [Event.request]
  · intro pre r a post he
    have he' : s.trace ++ [.files fs] = pre ++ .nsm r a :: post := he
    rcases List.eq_nil_or_concat post with rfl | ⟨post', x, rfl⟩
    · have := List.append_inj_right' he' (by simp)
      cases this
    · have hx : s.trace ++ [.files fs] = (pre ++ .nsm r a :: post') ++ [x] := by simpa using he'
      exact h.answers pre r a post' (List.append_inj_left' hx (by simp))

theorem Faithful.ask {s : St} (h : Faithful E s) (r : NsmRequest) : Faithful E (callNsm E r s).2 := by
  refine ⟨?_, ?_⟩
  · show s.nsmHist ++ [r] = (s.trace ++ [Event.nsm r (E.nsm s.nsmHist r)]).filterMap Event.request
    rw [List.filterMap_append, ← h.hist]; rfl
  · intro pre r' a post he
    have he' : s.trace ++ [.nsm r (E.nsm s.nsmHist r)] = pre ++ .nsm r' a :: post := he
    rcases List.eq_nil_or_concat post with rfl | ⟨post', x, rfl⟩
    · have h1 := List.append_inj_right' he' (by simp)
      have h2 := List.append_inj_left' he' (by simp)
      cases h1
      rw [← h2, ← h.hist]
    · have hx : s.trace ++ [.nsm r (E.nsm s.nsmHist r)] = (pre ++ .nsm r' a :: post') ++ [x] := by simpa using he'
      exact h.answers pre r' a post' (List.append_inj_left' hx (by simp))

theorem faithful_prim : Prim E (fun s s' => Faithful E s → Faithful E s') where
  pre := ⟨fun _ h => h, fun _ _ _ h1 h2 h => h2 (h1 h)⟩
  io := ⟨fun _ h => ⟨h.hist, h.answers⟩⟩
  files fs := ⟨fun _ h => h.files fs⟩
  nsm r := ⟨fun _ h => h.ask r⟩
  gen := ⟨fun _ h => ⟨h.hist, h.answers⟩⟩
  enc _ _ := ⟨fun _ h => ⟨h.hist, h.answers⟩⟩
  split _ _ _ := ⟨fun _ h => ⟨h.hist, h.answers⟩⟩
  mem _ _ _ _ h := ⟨h.hist, h.answers⟩

theorem Reach.faithful {fs0 : Files} {h : List (Msg × Msg)} {s : St} (hr : Reach E fs0 h s) : Faithful E s := by
  induction hr with
  | start => exact ⟨rfl, fun pre r a post he => by simp [St.initial] at he⟩
  | step q _ ih => exact faithful_prim.handle q _ ih

/-! ## With the NSM model as device -/

namespace MockNsm

theorem run_append (p : Prims) (pki : Pki) (l l' : List NsmRequest) : ∀ s, run p pki s (l ++ l') =
    match run p pki s l with
    | none => none
    | some (s1, as) => match run p pki s1 l' with
      | none => none
      | some (s2, as') => some (s2, as ++ as') := by
  induction l with
  | nil => intro s; simp only [List.nil_append, run]; cases run p pki s l' <;> rfl
  | cons r l ih =>
    intro s
    simp only [List.cons_append, run]
    cases hp : process p pki s r with
    | none => rfl
    | some x =>
      obtain ⟨s1, a⟩ := x
      simp only [ih]
      cases run p pki s1 l with
      | none => rfl
      | some y =>
        obtain ⟨s2, as⟩ := y
        simp only
        cases run p pki s2 l' <;> rfl

theorem run_length (p : Prims) (pki : Pki) (l : List NsmRequest) : ∀ s s' as, run p pki s l = some (s', as) →
    as.length = l.length := by
  induction l with
  | nil => intro s s' as h; simp only [run] at h; cases h; rfl
  | cons r l ih =>
    intro s s' as h
    simp only [run] at h
    split at h
    · cases h
    split at h
    · cases h
    rename_i hr
    cases h
    simp [ih _ _ _ hr]

end MockNsm

/-- The trace of a faithful log replays on the model. -/
theorem Faithful.replay {pki : MockNsm.Pki} {start : MockNsm.State} (hp : E.prims.Laws) (hd : HonestDevice E pki start) {s : St}
    (h : Faithful E s) : ∀ t t', s.trace = t ++ t' → ∃ d : MockNsm.State, d.Sized ∧
      MockNsm.run E.prims pki start (t.filterMap Event.request) = some (d, t.filterMap Event.response) := by
  intro t
  induction t using List.reverseRecOn with
  | nil => intro t' _; exact ⟨start, hd.started.sized, rfl⟩
  | append_singleton t ev ih =>
    intro t' he
    obtain ⟨d, hs, hr⟩ := ih (ev :: t') (by simpa using he)
    cases ev with
    | files fs => exact ⟨d, hs, by
      rw [List.filterMap_append, List.filterMap_append]
      simpa [List.filterMap_cons, Event.request, Event.response] using hr⟩
    | nsm r a =>
      have ha := h.answers t r a t' (by simpa using he)
      obtain ⟨d', as, h1, _, h3⟩ := MockNsm.never_panics E.prims hp pki [r] d hs
      refine ⟨d', h3, ?_⟩
      simp only [List.filterMap_append, List.filterMap_cons, List.filterMap_nil, Event.request, Event.response]
      rw [MockNsm.run_append, hr]
      simp only [h1]
      simp only [MockNsm.run] at h1
      split at h1
      · cases h1
      rename_i s1 b hb
      cases h1
      have : a = b := by
        rw [ha, hd.nsm]
        unfold mockDevice
        rw [hr]
        simp [hb]
      rw [this]

/-- A register that the device reported as locked stays so. -/
theorem Faithful.locked {pki : MockNsm.Pki} {start : MockNsm.State} (hp : E.prims.Laws) (hd : HonestDevice E pki start) {s : St}
    (h : Faithful E s) {i : UInt16} {v : Bytes} {t t' : List Event}
    (ht : s.trace = t ++ .nsm (.describePCR i) (.describePCR true v) :: t') :
    ∃ d as, MockNsm.run E.prims pki start s.nsmHist = some (d, as) ∧
      MockNsm.reading E.prims pki d i = some (true, v) := by
  obtain ⟨d0, hs0, h0⟩ := h.replay hp hd t _ ht
  have hans := h.answers t _ _ t' ht
  rw [hd.nsm] at hans
  unfold mockDevice at hans
  simp only [h0] at hans
  have hread : MockNsm.reading E.prims pki d0 i = some (true, v) := by
    unfold MockNsm.reading
    cases hq : MockNsm.process E.prims pki d0 (.describePCR i) with
    | none => rw [hq] at hans; cases hans
    | some x =>
      obtain ⟨d1, a⟩ := x
      rw [hq] at hans
      simp only at hans
      subst hans
      rfl
  obtain ⟨d, as, h1, _, _⟩ := MockNsm.never_panics E.prims hp pki
    ((Event.nsm (.describePCR i) (.describePCR true v) :: t').filterMap Event.request) d0 hs0
  refine ⟨d, t.filterMap Event.response ++ as, ?_, (MockNsm.locked_forever _ _ _ _ _ _ h1 i v hread).1⟩
  rw [h.hist, ht, List.filterMap_append, MockNsm.run_append, h0]
  simp only [h1]

end Qos
