import Verif.Model.Nsm
import Verif.Props.P256
/-!
# C14: registers of the (mock) NSM

The device is observed through its responses only: `reading` is what a `DescribePCR` request answers.
-/
namespace Qos.MockNsm

/-- What the device answers to `DescribePCR` for a register: locked or not, and the value. -/
def reading (p : Prims) (pki : Pki) (s : State) (i : UInt16) : Option (Bool × Bytes) :=
  match process p pki s (.describePCR i) with
  | some (_, .describePCR l v) => some (l, v)
  | _ => none

/-- The data of the extensions of register `i` that the device acknowledged, in order. -/
def accepted (i : UInt16) : List NsmRequest → List NsmResponse → List Bytes
  | .extendPCR j d :: rs, .extendPCR _ :: as => if j = i then d :: accepted i rs as else accepted i rs as
  | _ :: rs, _ :: as => accepted i rs as
  | _, _ => []

theorem reading_eq (p : Prims) (pki : Pki) (s : State) (i : UInt16) (hi : i < s.maxPcrs) :
    reading p pki s i = some (s.locked i, s.value i) := by
  simp [reading, process, UInt16.not_le.2 hi]

theorem process_max (p : Prims) (pki : Pki) (s s' : State) (r : NsmRequest) (a : NsmResponse)
    (h : process p pki s r = some (s', a)) : s'.maxPcrs = s.maxPcrs := by
  unfold process at h
  repeat' split at h
  all_goals first | (cases h; rfl) | cases h

theorem process_step (p : Prims) (pki : Pki) (s s' : State) (r : NsmRequest) (a : NsmResponse)
    (h : process p pki s r = some (s', a)) (i : UInt16) :
    (s.locked i = true → s'.locked i = true) ∧
    s'.value i = (accepted i [r] [a]).foldl (fun v d => p.sha384 (v ++ d)) (s.value i) ∧
    (s.locked i = true → accepted i [r] [a] = []) ∧
    (accepted i [r] [a] ≠ [] → (s.value i).length = 48) := by
  cases r with
  | extendPCR j d =>
    simp only [process] at h
    split at h
    · cases h; simp [accepted]
    split at h
    · cases h; simp [accepted]
    rename_i hl
    split at h
    · cases h
    rename_i x hx
    cases h
    simp only [pcrExtend] at hx
    split at hx
    · cases hx
    rename_i hlen
    simp only [ne_eq, not_not] at hlen
    cases hx
    by_cases hj : j = i
    · subst hj
      simp [accepted, State.value] at hl hlen ⊢
      simp [hl, hlen]
    · have hj' : i ≠ j := fun e => hj e.symm
      simp [accepted, hj, hj', State.value]
  | describePCR j =>
    simp only [process] at h
    split at h
    · cases h; simp [accepted]
    cases h
    by_cases hj : i = j
    · subst hj; simp [accepted, State.value]
    · simp [accepted, hj, State.value]
  | lockPCR j =>
    simp only [process] at h
    split at h <;> cases h
    · simp [accepted]
    · simp +contextual [accepted, State.value]
  | lockPCRs j =>
    simp only [process] at h
    split at h <;> cases h
    · simp [accepted]
    · simp +contextual [accepted, State.value]
  | attestation => simp only [process] at h; cases h; simp [accepted]
  | describeNSM => simp only [process] at h; cases h; simp [accepted]
  | getRandom => simp only [process] at h; cases h; simp [accepted]

theorem accepted_cons (i : UInt16) (r : NsmRequest) (a : NsmResponse) (rs : List NsmRequest) (as : List NsmResponse) :
    accepted i (r :: rs) (a :: as) = accepted i [r] [a] ++ accepted i rs as := by
  cases r <;> cases a <;> simp [accepted]
  split <;> rfl

theorem run_step (p : Prims) (pki : Pki) (i : UInt16) (rs : List NsmRequest) : ∀ (s s' : State) (as : List NsmResponse),
    run p pki s rs = some (s', as) →
    s'.maxPcrs = s.maxPcrs ∧ (s.locked i = true → s'.locked i = true) ∧
    s'.value i = (accepted i rs as).foldl (fun v d => p.sha384 (v ++ d)) (s.value i) ∧
    (s.locked i = true → accepted i rs as = []) := by
  induction rs with
  | nil => intro s s' as h; simp only [run] at h; cases h; simp [accepted]
  | cons r rs ih =>
    intro s s' as h
    simp only [run] at h
    split at h
    · cases h
    rename_i s1 a hp
    split at h
    · cases h
    rename_i s2 as' hr
    cases h
    have ⟨h1, h2, h3, _⟩ := process_step p pki s s1 r a hp i
    have ⟨g0, g1, g2, g3⟩ := ih s1 _ _ hr
    rw [accepted_cons]
    refine ⟨by rw [g0, process_max p pki _ _ _ _ hp], fun hl => g1 (h1 hl), ?_, fun hl => ?_⟩
    · rw [g2, h2, List.foldl_append]
    · rw [h3 hl, g3 (h1 hl)]; rfl

/-- **C14.** After any sequence of requests, a register that read as locked still reads as locked with the
same value, and no extension of it was acknowledged in between. -/
theorem locked_forever (p : Prims) (pki : Pki) (s s' : State) (rs : List NsmRequest) (as : List NsmResponse)
    (h : run p pki s rs = some (s', as)) (i : UInt16) (v : Bytes)
    (hl : reading p pki s i = some (true, v)) :
    reading p pki s' i = some (true, v) ∧ accepted i rs as = [] := by
  have hi : i < s.maxPcrs := by
    rw [← UInt16.not_le]; intro hn
    simp [reading, process, hn] at hl
  rw [reading_eq p pki s i hi] at hl
  simp only [Option.some.injEq, Prod.mk.injEq] at hl
  have ⟨g0, g1, g2, g3⟩ := run_step p pki i rs s s' as h
  have ha := g3 hl.1
  rw [reading_eq p pki s' i (by rw [g0]; exact hi), g1 hl.1, g2, ha]
  exact ⟨by simp [hl.2], rfl⟩

/-- **C14.** Append only: the value of a register is the fold of SHA-384 over all extensions acknowledged
since, and nothing else changes it. -/
theorem register_is_fold (p : Prims) (pki : Pki) (s s' : State) (rs : List NsmRequest) (as : List NsmResponse)
    (h : run p pki s rs = some (s', as)) (i : UInt16) (l : Bool) (v : Bytes)
    (hl : reading p pki s i = some (l, v)) :
    ∃ l', (l = true → l' = true) ∧
      reading p pki s' i = some (l', (accepted i rs as).foldl (fun v d => p.sha384 (v ++ d)) v) := by
  have hi : i < s.maxPcrs := by
    rw [← UInt16.not_le]; intro hn
    simp [reading, process, hn] at hl
  rw [reading_eq p pki s i hi] at hl
  simp only [Option.some.injEq, Prod.mk.injEq] at hl
  have ⟨g0, g1, g2, g3⟩ := run_step p pki i rs s s' as h
  refine ⟨s'.locked i, fun e => g1 (by rw [hl.1]; exact e), ?_⟩
  rw [reading_eq p pki s' i (by rw [g0]; exact hi), g2, hl.2]

/-- **C14.** An acknowledged extension answers the new value of the register. -/
theorem extend_reports_value (p : Prims) (pki : Pki) (s s' : State) (i : UInt16) (d x : Bytes)
    (h : process p pki s (.extendPCR i d) = some (s', .extendPCR x)) :
    ∃ v, reading p pki s i = some (false, v) ∧ x = p.sha384 (v ++ d) ∧ reading p pki s' i = some (false, x) := by
  simp only [process] at h
  split at h
  · cases h
  rename_i hi
  split at h
  · cases h
  rename_i hl
  split at h
  · cases h
  rename_i y hy
  simp only [pcrExtend] at hy
  split at hy
  · cases hy
  cases hy
  cases h
  have hi' : i < s.maxPcrs := UInt16.not_le.1 hi
  refine ⟨s.value i, ?_, rfl, ?_⟩
  · rw [reading_eq p pki s i hi']; simp [hl]
  · rw [reading_eq]
    · simp [hl, State.value]
    · exact hi'

/-- **C14.** `LockPCRs` of the whole bank makes every register read as locked. -/
theorem lock_bank (p : Prims) (pki : Pki) (s s' : State) (a : NsmResponse)
    (h : process p pki s (.lockPCRs s.maxPcrs) = some (s', a)) (i : UInt16) (hi : i < s.maxPcrs) :
    a = .lockPCRs ∧ ∃ v, reading p pki s' i = some (true, v) ∧ ∃ l, reading p pki s i = some (l, v) := by
  simp only [process, UInt16.lt_irrefl, if_false] at h
  cases h
  refine ⟨rfl, s.value i, ?_, s.locked i, reading_eq p pki s i hi⟩
  rw [reading_eq]
  · simp [hi, State.value]
  · exact hi

/-- Registers all hold 48 bytes. -/
def State.Sized (s : State) : Prop := ∀ i, (s.value i).length = 48

/-- Without oddly sized seeds the device never panics: every request sequence is answered in full. -/
theorem never_panics (p : Prims) (hp : p.Laws) (pki : Pki) (rs : List NsmRequest) : ∀ s : State, s.Sized →
    ∃ s' as, run p pki s rs = some (s', as) ∧ as.length = rs.length ∧ s'.Sized := by
  induction rs with
  | nil => intro s hs; exact ⟨s, [], rfl, rfl, hs⟩
  | cons r rs ih =>
    intro s hs
    have : ∃ s1 a, process p pki s r = some (s1, a) := by
      cases r with
      | extendPCR j d =>
        simp only [process, pcrExtend, hs j]
        split
        · exact ⟨_, _, rfl⟩
        split
        · exact ⟨_, _, rfl⟩
        · exact ⟨_, _, rfl⟩
      | describePCR => simp only [process]; split <;> exact ⟨_, _, rfl⟩
      | lockPCR => simp only [process]; split <;> exact ⟨_, _, rfl⟩
      | lockPCRs => simp only [process]; split <;> exact ⟨_, _, rfl⟩
      | _ => exact ⟨_, _, rfl⟩
    obtain ⟨s1, a, h1⟩ := this
    have hs1 : s1.Sized := by
      intro i
      have ⟨_, h2, _, _⟩ := process_step p pki s s1 r a h1 i
      rw [h2]
      generalize accepted i [r] [a] = l
      have : ∀ (l : List Bytes) (v : Bytes), v.length = 48 →
          (l.foldl (fun v d => p.sha384 (v ++ d)) v).length = 48 := by
        intro l
        induction l with
        | nil => intro v hv; exact hv
        | cons d l ih => intro v _; exact ih _ (hp.sha384_length _)
      exact this l _ (hs i)
    obtain ⟨s', as, h2, h3, h4⟩ := ih s1 hs1
    exact ⟨s', a :: as, by simp [run, h1, h2], by simp [h3], h4⟩

theorem initial_sized : initial.Sized := by
  intro i
  unfold State.value initial
  simp only
  split <;> rfl

/-- A PKI for the examples: the signed document is its key, user data and registers 16 and 17. -/
def toyPki : Pki := ⟨[1], [2], [3], fun d =>
  d.publicKey.getD [] ++ d.userData.getD [] ++ (d.pcr 16).getD [] ++ (d.pcr 17).getD []⟩

-- Non-vacuity: extend register 16 twice, lock the bank, try to extend again: the last is refused.
example : ∃ s' as, run P256.toyPrims toyPki initial
    [.extendPCR 16 [1], .extendPCR 16 [2], .lockPCRs 32, .extendPCR 16 [3]] = some (s', as) ∧
    accepted 16 [.extendPCR 16 [1], .extendPCR 16 [2], .lockPCRs 32, .extendPCR 16 [3]] as = [[1], [2]] ∧
    as[3]? = some (.error .readOnlyIndex) :=
  ⟨_, _, rfl, by decide +kernel, by decide +kernel⟩
example : ∃ s' as, run P256.toyPrims toyPki initial [.lockPCRs 32] = some (s', as) ∧
    reading P256.toyPrims toyPki s' 5 = some (true, zeroPcr) := ⟨_, _, rfl, by decide +kernel⟩

end Qos.MockNsm
