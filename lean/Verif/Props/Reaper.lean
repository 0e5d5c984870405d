import Verif.Lemmas.Reaper
import Verif.Props.Boot
/-!
# C34: when the pivot is started, with what, and how often

All theorems hold for every schedule: every sequence of file states seen, every outcome of every system call, every
sequence of exits, and any length.

Concrete cases: `toy_launch` in `Props/ReaperEnclave.lean`.
-/
namespace Qos.Reaper
open Pool (Address)

variable {c : Config} {ts : List Tick}

theorem command_pivotOf (c : Config) (m : VersionedManifest) : PivotOf c m (command c m) := ⟨rfl, rfl, rfl, rfl⟩

theorem launches_append (a b : List Act) : launches (a ++ b) = launches a ++ launches b := by
  simp [launches]

theorem launches_setup {acts : List Act} (h : ∀ a ∈ acts, a.IsSetup) : launches acts = [] := by
  unfold launches
  rw [List.filterMap_eq_nil_iff]
  intro a ha
  have := h a ha
  cases a <;> simp_all [Act.IsSetup]

theorem not_launch_setup {acts : List Act} (h : ∀ a ∈ acts, a.IsSetup) (l : Launch) : Act.launch l ∉ acts :=
  fun hm => h _ hm

theorem relaunches_cycles (l : Launch) (ss : List Int) {rest : List Act} (h : Relaunches l rest) :
    ∃ rest', cycles l ss ++ .launch l :: rest = .launch l :: rest' ∧ Relaunches l rest' := by
  induction ss with
  | nil => exact ⟨rest, rfl, h⟩
  | cons s ss ih =>
    obtain ⟨rest', h1, h2⟩ := ih
    refine ⟨.exited s :: .launch l :: rest', ?_, .again s h2⟩
    rw [← h1]
    simp [cycles]

theorem relaunches_cycles' (l : Launch) (ss : List Int) (hne : ss ≠ []) (tail : List Act)
    (ht : tail = [] ∨ tail = [.panicked]) :
    ∃ rest', cycles l ss ++ tail = .launch l :: rest' ∧ Relaunches l rest' := by
  obtain ⟨pre, s, rfl⟩ := List.eq_nil_or_concat ss |>.resolve_left hne
  rw [List.concat_eq_append, cycles_snoc]
  obtain ⟨rest', h1, h2⟩ := relaunches_cycles l pre (rest := .exited s :: tail)
    (by rcases ht with rfl | rfl
        · exact .exited s
        · exact .exitPanicked s)
  exact ⟨rest', by rw [← h1]; simp, h2⟩

/-- C34: the whole behaviour of the reaper, for every schedule. Either the pivot has not been started; then nothing but
set-up has been done (possibly ended by a panic). Or the reaper has seen the quorum key file, the pivot file and the
manifest file and has read a manifest `m`; it has then set up exactly what `m` asks for, started the pivot as `m` says, and
goes on according to the restart policy of `m`. -/
theorem run_shape (c : Config) (ts : List Tick) :
    ((∀ l, Act.launch l ∉ (run c ts).2) ∧
      ∃ su, (∀ a ∈ su, a.IsSetup) ∧ ((run c ts).2 = su ∨ (run c ts).2 = su ++ [.panicked])) ∨
    ∃ m l su rest, (run c ts).2 = su ++ .launch l :: rest ∧ Ready c m ts ∧ SetUp c m su ∧ PivotOf c m l ∧
      (m.restart = .always → Relaunches l rest) ∧ (m.restart = .never → RunsOnce rest) := by
  have h := at_run c ts
  revert h
  generalize (run c ts).1 = r
  generalize (run c ts).2 = acts
  intro h
  have none : acts = [] → _ := fun h0 => Or.inl (b := ∃ m l su rest, acts = su ++ .launch l :: rest ∧ Ready c m ts ∧
      SetUp c m su ∧ PivotOf c m l ∧ (m.restart = .always → Relaunches l rest) ∧ (m.restart = .never → RunsOnce rest))
      (show (∀ l, Act.launch l ∉ acts) ∧ ∃ su, (∀ a ∈ su, a.IsSetup) ∧ (acts = su ∨ acts = su ++ [.panicked]) from
        ⟨by simp [h0], [], by simp, .inl h0⟩)
  cases h with
  | poll => exact none rfl
  | quorum => exact none rfl
  | pivot _ _ _ _ => exact none rfl
  | manifest _ _ _ _ _ _ => exact none rfl
  | load _ _ _ _ _ _ _ _ => exact none rfl
  | dns _ _ => exact none rfl
  | bridges m b l on acts hr hb hon hs => exact .inl ⟨not_launch_setup hs.only, acts, hs.only, .inl rfl⟩
  | spawn m su ss hr hs ha =>
    by_cases hne : ss = []
    · subst hne
      simp only [cycles, List.flatMap_nil, List.append_nil]
      exact .inl ⟨not_launch_setup hs.only, su, hs.only, .inl rfl⟩
    · obtain ⟨rest, h1, h2⟩ := relaunches_cycles' (command c m) ss hne [] (.inl rfl)
      rw [List.append_nil] at h1
      refine .inr ⟨m, _, su, rest, by rw [h1], hr, hs, command_pivotOf c m, fun _ => h2, fun hn => ?_⟩
      rw [ha hne] at hn; cases hn
  | wait m su ss hr hs ha =>
    obtain ⟨rest, h1, h2⟩ := relaunches_cycles (command c m) ss (rest := []) .running
    refine .inr ⟨m, _, su, rest, by rw [List.append_assoc, h1], hr, hs, command_pivotOf c m, fun _ => h2, fun hn => ?_⟩
    have : ss = [] := by
      by_contra hne
      rw [ha hne] at hn; cases hn
    subst this
    simp only [cycles, List.flatMap_nil, List.nil_append, List.cons.injEq, true_and] at h1
    exact .inr ⟨0, by rw [← h1]; exact List.nil_prefix⟩
  | again m su ss s hr hs ha =>
    obtain ⟨rest, h1, h2⟩ := relaunches_cycles (command c m) ss (rest := [.exited s]) (.exited s)
    refine .inr ⟨m, _, su, rest, by rw [List.append_assoc, h1], hr, hs, command_pivotOf c m, fun _ => h2, fun hn => ?_⟩
    have : ss = [] := by
      by_contra hne
      rw [ha hne] at hn; cases hn
    subst this
    simp only [cycles, List.flatMap_nil, List.nil_append, List.cons.injEq, true_and] at h1
    exact .inr ⟨s, by rw [← h1]; exact ⟨_, rfl⟩⟩
  | closing m su s hr hs hn =>
    refine .inr ⟨m, _, su, _, rfl, hr, hs, command_pivotOf c m, fun ha => ?_, fun _ => .inr ⟨s, [.returned], rfl⟩⟩
    rw [hn] at ha; cases ha
  | returned m su s hr hs hn =>
    refine .inr ⟨m, _, su, _, rfl, hr, hs, command_pivotOf c m, fun ha => ?_, fun _ => .inr ⟨s, [], rfl⟩⟩
    rw [hn] at ha; cases ha
  | early acts h =>
    refine .inl ⟨fun l hl => ?_, acts, h, .inr rfl⟩
    rcases List.mem_append.1 hl with hl | hl
    · exact h _ hl
    · simp at hl
  | failedSpawn m su ss hr hs ha =>
    by_cases hne : ss = []
    · subst hne
      simp only [cycles, List.flatMap_nil, List.append_nil]
      refine .inl ⟨fun l hl => ?_, su, hs.only, .inr rfl⟩
      rcases List.mem_append.1 hl with hl | hl
      · exact hs.only _ hl
      · simp at hl
    · obtain ⟨rest, h1, h2⟩ := relaunches_cycles' (command c m) ss hne [.panicked] (.inr rfl)
      refine .inr ⟨m, _, su, rest, by rw [List.append_assoc, h1], hr, hs, command_pivotOf c m, fun _ => h2, fun hn => ?_⟩
      rw [ha hne] at hn; cases hn
  | failedWait m su ss hr hs ha =>
    obtain ⟨rest, h1, h2⟩ := relaunches_cycles (command c m) ss (rest := [.panicked]) .panicked
    refine .inr ⟨m, _, su, rest, by rw [List.append_assoc, h1], hr, hs, command_pivotOf c m, fun _ => h2, fun hn => ?_⟩
    have : ss = [] := by
      by_contra hne
      rw [ha hne] at hn; cases hn
    subst this
    simp only [cycles, List.flatMap_nil, List.nil_append, List.cons.injEq, true_and] at h1
    exact .inl h1.symm

/-- C34: the pivot is started only when, in steps before this one, the quorum key file, the pivot file and the manifest
file were there and the manifest was read. -/
theorem launch_only_when_ready {t : Tick} {l : Launch} {new : List Act}
    (hnew : (run c (ts ++ [t])).2 = (run c ts).2 ++ new) (hl : Act.launch l ∈ new) :
    ∃ m, Ready c m ts ∧ PivotOf c m l := by
  rw [run_snoc] at hnew
  simp only at hnew
  rw [← List.append_cancel_left hnew] at hl
  have h := at_run c ts
  revert h hl
  generalize (run c ts).1 = r
  generalize (run c ts).2 = acts
  intro hl h
  cases h with
  | poll => simp [step] at hl
  | quorum => simp [step] at hl
  | pivot _ _ _ _ => simp [step] at hl
  | manifest _ _ _ _ _ _ => simp [step] at hl
  | load _ _ _ _ _ _ _ _ =>
    unfold step at hl
    simp only at hl
    split at hl <;> simp [crash] at hl
  | dns _ _ =>
    unfold step at hl
    simp only at hl
    split at hl
    · simp at hl
    · split at hl <;> simp [crash] at hl
  | bridges m b left on acts hr hb hon hs =>
    cases left with
    | nil => simp [step] at hl
    | cons b left =>
      simp only [step] at hl
      unfold bridgeStep at hl
      cases b with
      | server port host =>
        simp only at hl
        cases hi : ingressOf c.core port with
        | none => simp [hi, crash] at hl
        | some a =>
          obtain ⟨s, rfl, _⟩ := ingressOf_some hi
          simp [hi] at hl
      | client port host =>
        simp only at hl
        cases on with
        | true => simp at hl
        | false =>
          cases he : egressOf c with
          | none => simp [he, crash] at hl
          | some a =>
            obtain ⟨_, _, _, _, _, rfl⟩ := egressOf_some he
            simp [he] at hl
  | spawn m su ss hr hs ha =>
    unfold step at hl
    simp only at hl
    by_cases hc : t.callOk
    · rw [if_pos hc] at hl
      simp at hl
      subst hl
      exact ⟨m, hr, command_pivotOf c m⟩
    · rw [if_neg hc] at hl
      simp [crash] at hl
  | wait m su ss hr hs ha =>
    unfold step at hl
    simp only at hl
    split at hl
    · split at hl <;> simp at hl
    · simp [crash] at hl
  | again m su ss s hr hs ha =>
    unfold step at hl
    simp only at hl
    split at hl <;> simp at hl
  | closing _ _ _ _ _ _ => simp [step] at hl
  | returned _ _ _ _ _ _ => simp [step] at hl
  | early _ _ => simp [step] at hl
  | failedSpawn _ _ _ _ _ _ => simp [step] at hl
  | failedWait _ _ _ _ _ _ => simp [step] at hl

theorem relaunches_facts {l : Launch} {rest : List Act} (h : Relaunches l rest) :
    (∀ l' ∈ launches rest, l' = l) ∧ (exits rest).length ≤ (launches rest).length + 1 ∧
    (launches rest).length ≤ (exits rest).length ∧
    Act.stopServer ∉ rest ∧ Act.returned ∉ rest ∧ Act.aborted ∉ rest := by
  induction h with
  | running => simp [launches, exits]
  | exited s => simp [launches, exits]
  | again s _ ih =>
    obtain ⟨h1, h2, h3, h4, h5, h6⟩ := ih
    simp only [launches, exits] at *
    simp only [List.filterMap_cons, List.mem_cons, List.length_cons, forall_eq_or_imp, true_and]
    refine ⟨h1, by omega, by omega, by simp [h4], by simp [h5], by simp [h6]⟩
  | panicked => simp [launches, exits]
  | exitPanicked s => simp [launches, exits]

theorem exits_setup {acts : List Act} (h : ∀ a ∈ acts, a.IsSetup) : exits acts = [] := by
  unfold exits
  rw [List.filterMap_eq_nil_iff]
  intro a ha
  have := h a ha
  cases a <;> simp_all [Act.IsSetup]

/-- C34, policy `Never`: the pivot is started at most once, whatever happens. -/
theorem never_launched_twice (h : ∀ m, Ready c m ts → m.restart = .never) : (launches (run c ts).2).length ≤ 1 := by
  rcases run_shape c ts with ⟨_, su, hs, h1 | h1⟩ | ⟨m, l, su, rest, h1, hr, hs, _, _, hn⟩
  · rw [h1, launches_setup hs]; simp
  · rw [h1, launches_append, launches_setup hs]; simp [launches]
  · rw [h1, launches_append, launches_setup hs.only]
    rcases hn (h m hr) with rfl | ⟨s, hp⟩
    · simp [launches]
    · have : launches rest = [] := by
        have hsub : (launches rest).Sublist (launches [Act.exited s, .stopServer, .returned]) :=
          hp.sublist.filterMap _
        simpa [launches] using hsub
      simp only [launches] at *
      simp [this]

/-- C34, policy `Always`: the reaper never stops the server, never returns and never aborts the process; every start is
the same command; and every exit but possibly the last one has been followed by a new start. -/
theorem always_relaunched (h : ∀ m, Ready c m ts → m.restart = .always) :
    Act.stopServer ∉ (run c ts).2 ∧ Act.returned ∉ (run c ts).2 ∧
    (exits (run c ts).2).length ≤ (launches (run c ts).2).length ∧
    (launches (run c ts).2).length ≤ (exits (run c ts).2).length + 1 ∧
    (∀ l ∈ launches (run c ts).2, ∀ l' ∈ launches (run c ts).2, l = l') := by
  have mem : ∀ {su : List Act} {a : Act}, (∀ x ∈ su, x.IsSetup) → ¬ a.IsSetup → a ∉ su := fun hs hn hm => hn (hs _ hm)
  rcases run_shape c ts with ⟨hl, su, hs, h1 | h1⟩ | ⟨m, l, su, rest, h1, hr, hs, _, ha, _⟩
  · have e1 := launches_setup hs
    have e2 := exits_setup hs
    rw [h1]
    exact ⟨mem hs (by simp [Act.IsSetup]), mem hs (by simp [Act.IsSetup]), by simp [e1, e2], by simp [e1], by simp [e1]⟩
  · have e1 : launches (su ++ [.panicked]) = [] := by rw [launches_append, launches_setup hs]; rfl
    have e2 : exits (su ++ [.panicked]) = [] := by
      have := exits_setup hs
      simp only [exits] at *
      simp [this]
    rw [h1]
    refine ⟨?_, ?_, by simp [e1, e2], by simp [e1], by simp [e1]⟩
    · simp only [List.mem_append, List.mem_singleton]; rintro (hx | hx)
      · exact mem hs (by simp [Act.IsSetup]) hx
      · cases hx
    · simp only [List.mem_append, List.mem_singleton]; rintro (hx | hx)
      · exact mem hs (by simp [Act.IsSetup]) hx
      · cases hx
  · obtain ⟨f1, f2, f3, f4, f5, f6⟩ := relaunches_facts (ha (h m hr))
    have e1 : launches (run c ts).2 = l :: launches rest := by
      rw [h1, launches_append, launches_setup hs.only]; rfl
    have e2 : exits (run c ts).2 = exits rest := by
      have := exits_setup hs.only
      rw [h1]
      simp only [exits] at *
      simp [this]
    have hall : ∀ x ∈ launches (run c ts).2, x = l := by
      intro x hx
      rw [e1] at hx
      rcases List.mem_cons.1 hx with hx | hx
      · exact hx
      · exact f1 x hx
    refine ⟨?_, ?_, by rw [e1, e2]; simpa using f2, by rw [e1, e2]; simpa using f3, ?_⟩
    · rw [h1]
      simp only [List.mem_append, List.mem_cons]
      rintro (hx | hx | hx)
      · exact mem hs.only (by simp [Act.IsSetup]) hx
      · cases hx
      · exact f4 hx
    · rw [h1]
      simp only [List.mem_append, List.mem_cons]
      rintro (hx | hx | hx)
      · exact mem hs.only (by simp [Act.IsSetup]) hx
      · cases hx
      · exact f5 hx
    · intro a ha b hb
      rw [hall a ha, hall b hb]

/-- The `exit(1)` of the polling loop (reaper.rs:211-214) is never reached: `Quitting` is only set after the loop. -/
theorem never_aborts (c : Config) (ts : List Tick) : Act.aborted ∉ (run c ts).2 := by
  have mem : ∀ {su : List Act}, (∀ x ∈ su, x.IsSetup) → Act.aborted ∉ su := fun hs hm => hs _ hm
  rcases run_shape c ts with ⟨hl, su, hs, h1 | h1⟩ | ⟨m, l, su, rest, h1, hr, hs, _, ha, hn⟩
  · rw [h1]; exact mem hs
  · rw [h1]; simp [mem hs]
  · rw [h1]
    simp only [List.mem_append, List.mem_cons]
    rintro (hx | hx | hx)
    · exact mem hs.only hx
    · cases hx
    · cases hm : m.restart with
      | always => exact (relaunches_facts (ha hm)).2.2.2.2.2 hx
      | never =>
        rcases hn hm with rfl | ⟨s, hp⟩
        · simp at hx
        · have := hp.subset hx
          simp at this

end Qos.Reaper
