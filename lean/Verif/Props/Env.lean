import Verif.Model.Env
import Verif.Lemmas.Text
import Mathlib.Data.List.Induction
/-!
# C31: the pivot environment is always well-formed and bounded
-/
namespace Qos.Env

/-! ## Specification -/

/-- `[A-Za-z_]`, spelled out. -/
def letters : List Char := "ABCDEFGHIJKLMNOPQRSTUVWXYZabcdefghijklmnopqrstuvwxyz_".toList
/-- `[A-Za-z0-9_]`, spelled out. -/
def wordChars : List Char := letters ++ "0123456789".toList

/-- The documented name grammar `[A-Za-z_][A-Za-z0-9_]*`, at most 1024 bytes. -/
def ValidName (s : String) : Prop :=
  (∃ c cs, s.toList = c :: cs ∧ c ∈ letters ∧ ∀ d ∈ cs, d ∈ wordChars) ∧ (utf8 s).length ≤ 1024

/-- No NUL, at most 64 KiB. -/
def ValidValue (s : String) : Prop := Char.ofNat 0 ∉ s.toList ∧ (utf8 s).length ≤ 65536

/-- A well-formed environment. -/
def WellFormed (m : Map) : Prop :=
  m.length ≤ 512 ∧ (m.map Prod.fst).Nodup ∧ ∀ kv ∈ m, ValidName kv.1 ∧ ValidValue kv.2

/-! ## Proofs -/

theorem char_range {c : Char} {lo hi : Nat} (l : List Char) (h : lo ≤ c.toNat ∧ c.toNat ≤ hi)
    (hl : ∀ n, lo ≤ n → n ≤ hi → Char.ofNat n ∈ l) : c ∈ l := by
  have := hl c.toNat h.1 h.2
  simpa using this

theorem isAlpha_iff (c : Char) : (isAlpha c || c == '_') = true ↔ c ∈ letters := by
  constructor
  · intro h
    simp only [isAlpha, Bool.or_eq_true, Bool.and_eq_true, decide_eq_true_eq, beq_iff_eq] at h
    rcases h with (h | h) | h
    · refine char_range letters h fun n h1 h2 => ?_
      interval_cases n <;> decide
    · refine char_range letters h fun n h1 h2 => ?_
      interval_cases n <;> decide
    · subst h; decide
  · have : ∀ c ∈ letters, (isAlpha c || c == '_') = true := by decide
    exact this c

theorem isAlnum_iff (c : Char) : (isAlnum c || c == '_') = true ↔ c ∈ wordChars := by
  constructor
  · intro h
    simp only [isAlnum, isAlpha, Bool.or_eq_true, Bool.and_eq_true, decide_eq_true_eq, beq_iff_eq] at h
    rcases h with ((h | h) | h) | h
    · refine char_range wordChars h fun n h1 h2 => ?_
      interval_cases n <;> decide
    · refine char_range wordChars h fun n h1 h2 => ?_
      interval_cases n <;> decide
    · refine char_range wordChars h fun n h1 h2 => ?_
      interval_cases n <;> decide
    · subst h; decide
  · have : ∀ c ∈ wordChars, (isAlnum c || c == '_') = true := by decide
    exact this c

/-- The name check accepts exactly the documented grammar, and never alters the name. -/
theorem newName_iff (s t : String) : newName s = some t ↔ t = s ∧ ValidName s := by
  unfold newName ValidName maxNameLen
  by_cases hlen : (utf8 s).length > 1024
  · simp only [hlen, if_true]
    constructor
    · intro h; cases h
    · rintro ⟨_, _, h⟩; omega
  · simp only [hlen, if_false]
    cases hs : s.toList with
    | nil => simp
    | cons c cs =>
      simp only
      have e : (cs.any fun c => !(isAlnum c || c == '_')) = true ↔ ¬ ∀ d ∈ cs, d ∈ wordChars := by
        rw [List.any_eq_true]
        constructor
        · rintro ⟨d, hd, h⟩ hall
          have := (isAlnum_iff d).mpr (hall d hd)
          rw [this] at h; cases h
        · intro h
          simp only [not_forall] at h
          obtain ⟨d, hd, h⟩ := h
          refine ⟨d, hd, ?_⟩
          rw [← isAlnum_iff] at h
          simpa using h
      by_cases h1 : (isAlpha c || c == '_') = true
      · simp only [h1, Bool.not_true, Bool.false_eq_true, if_false]
        by_cases h2 : ∀ d ∈ cs, d ∈ wordChars
        · rw [if_neg (by rw [e]; exact fun h => h h2)]
          simp only [Option.some.injEq]
          constructor
          · rintro rfl
            exact ⟨rfl, ⟨c, cs, by simp, (isAlpha_iff c).mp h1, h2⟩, by omega⟩
          · rintro ⟨rfl, _⟩; rfl
        · rw [if_pos (e.mpr h2)]
          constructor
          · intro h; cases h
          · rintro ⟨_, ⟨c', cs', heq, _, h⟩, _⟩
            simp only [List.cons.injEq] at heq
            rw [← heq.2] at h
            exact absurd h h2
      · simp only [h1]
        constructor
        · intro h; simp at h
        · rintro ⟨_, ⟨c', cs', heq, h, _⟩, _⟩
          simp only [List.cons.injEq] at heq
          rw [← heq.1] at h
          exact absurd ((isAlpha_iff c).mpr h) h1

example : newName "PATH_1" = some "PATH_1" ∧ newName "1PATH" = none ∧ newName "" = none
    ∧ newName "É" = none := by decide +kernel

/-- The value check accepts exactly NUL-free values of at most 64 KiB, unaltered. -/
theorem newValue_iff (s t : String) : newValue s = some t ↔ t = s ∧ ValidValue s := by
  unfold newValue ValidValue maxValueLen
  by_cases h0 : Char.ofNat 0 ∈ s.toList
  · simp [h0]
  · by_cases h1 : (utf8 s).length > 64 * 1024
    · rw [if_neg (by simpa using h0), if_pos h1]
      constructor
      · intro h; cases h
      · rintro ⟨_, _, h⟩; omega
    · rw [if_neg (by simpa using h0), if_neg h1]
      constructor
      · intro h; cases h; exact ⟨rfl, h0, by omega⟩
      · rintro ⟨rfl, _⟩; rfl

example : newValue "é!" = some "é!" ∧ newValue "a\x00b" = none := by decide +kernel

theorem withinLimits_iff (m : Map) : withinLimits m = true ↔ m.length ≤ 512 := by
  unfold withinLimits; exact decide_eq_true_iff

theorem mem_mapInsert {k v : String} {m : Map} {x : String × String} (hx : x ∈ mapInsert k v m) :
    x = (k, v) ∨ x ∈ m := by
  induction m with
  | nil => simp [mapInsert] at hx; exact Or.inl hx
  | cons y m ih2 =>
    obtain ⟨k2, v2⟩ := y
    simp only [mapInsert] at hx
    split at hx
    · rcases List.mem_cons.mp hx with h | h
      · exact Or.inl h
      · exact Or.inr (by simp [h])
    · split at hx
      · rcases List.mem_cons.mp hx with h | h
        · exact Or.inl h
        · exact Or.inr h
      · rcases List.mem_cons.mp hx with h | h
        · exact Or.inr (by simp [h])
        · rcases ih2 h with h | h
          · exact Or.inl h
          · exact Or.inr (by simp [h])

theorem lt_of_not {a b : String} (h : ¬ a < b) (hn : a ≠ b) : b < a := by
  by_contra hc
  exact hn (String.le_antisymm (String.not_lt.mp hc) (String.not_lt.mp h))

/-- Keys in order (the `BTreeMap` invariant). -/
def Sorted (m : Map) : Prop := m.Pairwise fun a b => a.1 < b.1

theorem sorted_insert {k v : String} {m : Map} (h : Sorted m) : Sorted (mapInsert k v m) := by
  unfold Sorted at *
  induction m with
  | nil => simp [mapInsert]
  | cons kv m ih =>
    obtain ⟨k', v'⟩ := kv
    simp only [List.pairwise_cons] at h
    simp only [mapInsert]
    split
    · rename_i hk; subst hk; exact List.pairwise_cons.mpr ⟨h.1, h.2⟩
    · rename_i hk
      split
      · rename_i hlt
        refine List.pairwise_cons.mpr ⟨?_, List.pairwise_cons.mpr h⟩
        intro x hx
        rcases List.mem_cons.mp hx with rfl | hx
        · exact hlt
        · exact String.lt_trans hlt (h.1 x hx)
      · rename_i hlt
        refine List.pairwise_cons.mpr ⟨?_, ih h.2⟩
        intro x hx
        rcases mem_mapInsert hx with rfl | hm
        · exact lt_of_not hlt hk
        · exact h.1 x hm

theorem sorted_nodup {m : Map} (h : Sorted m) : (m.map Prod.fst).Nodup := by
  rw [List.Nodup, List.pairwise_map]
  refine h.imp ?_
  intro a b hab heq
  rw [heq] at hab
  exact String.lt_irrefl _ hab

theorem get_mapInsert (k v : String) (m : Map) (x : String) :
    get x (mapInsert k v m) = if x = k then some v else get x m := by
  induction m with
  | nil => simp [mapInsert, get]
  | cons kv m ih =>
    obtain ⟨k', v'⟩ := kv
    simp only [mapInsert]
    split
    · rename_i hk; subst hk; simp only [get]; split <;> simp_all
    · split
      · simp only [get]
      · rename_i hk _
        simp only [get, ih]
        split
        · rename_i hx; subst hx; simp [Ne.symm hk]
        · rfl

theorem get_none_of_sorted {k : String} {m : Map} (h : ∀ x ∈ m, k < x.1) : get k m = none := by
  induction m with
  | nil => rfl
  | cons kv m ih =>
    obtain ⟨k', v'⟩ := kv
    have := h (k', v') (by simp)
    simp only [get]
    rw [if_neg, ih fun x hx => h x (by simp [hx])]
    rintro rfl
    exact String.lt_irrefl _ this

theorem mapInsert_of_min {k v : String} {m : Map} (h : ∀ x ∈ m, k < x.1) :
    mapInsert k v m = (k, v) :: m := by
  cases m with
  | nil => rfl
  | cons kv m =>
    obtain ⟨k', v'⟩ := kv
    have := h (k', v') (by simp)
    simp only [mapInsert]
    rw [if_neg, if_pos this]
    rintro rfl
    exact String.lt_irrefl _ this

theorem restore_insert {k v p : String} {m : Map} (hs : Sorted m) (hg : get k m = some p) :
    mapInsert k p (mapInsert k v m) = m := by
  induction m with
  | nil => simp [get] at hg
  | cons kv m ih =>
    obtain ⟨k', v'⟩ := kv
    simp only [get] at hg
    simp only [mapInsert]
    by_cases hk : k = k'
    · subst hk; simp only [if_true] at hg ⊢; cases hg; simp [mapInsert]
    · simp only [hk, if_false] at hg ⊢
      split
      · rename_i hlt
        exfalso
        simp only [Sorted, List.pairwise_cons] at hs
        have : get k m = none := get_none_of_sorted fun x hx => String.lt_trans hlt (hs.1 x hx)
        rw [this] at hg; cases hg
      · simp only [mapInsert, hk, if_false]
        rename_i hlt
        rw [if_neg hlt, ih (List.pairwise_cons.mp hs).2 hg]

theorem restore_remove {k v : String} {m : Map} (hg : get k m = none) :
    mapRemove k (mapInsert k v m) = m := by
  induction m with
  | nil => simp [mapInsert, mapRemove]
  | cons kv m ih =>
    obtain ⟨k', v'⟩ := kv
    simp only [get] at hg
    by_cases hk : k = k'
    · simp [hk] at hg
    · simp only [hk, if_false] at hg
      simp only [mapInsert, hk, if_false]
      split
      · simp [mapRemove]
      · simp [mapRemove, hk, ih hg]

theorem length_mapInsert (k v : String) (m : Map) (hs : Sorted m) :
    (mapInsert k v m).length = if (get k m).isSome then m.length else m.length + 1 := by
  induction m with
  | nil => simp [mapInsert, get]
  | cons kv m ih =>
    obtain ⟨k', v'⟩ := kv
    have hs' := List.pairwise_cons.mp hs
    simp only [mapInsert, get]
    by_cases hk : k = k'
    · simp [hk]
    · simp only [hk, if_false]
      split
      · rename_i hlt
        have : get k m = none := get_none_of_sorted fun x hx => String.lt_trans hlt (hs'.1 x hx)
        simp [this]
      · simp only [List.length_cons, ih hs'.2]
        split <;> omega

/-- Internal invariant: well-formed and in key order. -/
def Inv (m : Map) : Prop :=
  m.length ≤ 512 ∧ Sorted m ∧ ∀ kv ∈ m, ValidName kv.1 ∧ ValidValue kv.2

theorem inv_insert {m : Map} (h : Inv m) {n v : String} (hn : ValidName n) (hv : ValidValue v) :
    Inv (insert n v m).2 := by
  unfold insert
  simp only
  split
  · split
    · rename_i p hp; simp only [restore_insert h.2.1 hp]; exact h
    · rename_i hp; simp only [restore_remove hp]; exact h
  · rename_i hlim
    refine ⟨(withinLimits_iff _).mp (by simpa using hlim), sorted_insert h.2.1, ?_⟩
    intro kv hkv
    rcases mem_mapInsert hkv with rfl | hm
    · exact ⟨hn, hv⟩
    · exact h.2.2 kv hm

theorem validatePairs_some {ps qs : List (String × String)} (h : validatePairs ps = some qs) :
    qs = ps ∧ ∀ kv ∈ ps, ValidName kv.1 ∧ ValidValue kv.2 := by
  induction ps generalizing qs with
  | nil => simp only [validatePairs, Option.some.injEq] at h; subst h; simp
  | cons kv ps ih =>
    obtain ⟨k, v⟩ := kv
    simp only [validatePairs] at h
    split at h
    · rename_i k' v' r hk hv hr
      cases h
      obtain ⟨rfl, hk⟩ := (newName_iff _ _).mp hk
      obtain ⟨rfl, hv⟩ := (newValue_iff _ _).mp hv
      obtain ⟨rfl, ih⟩ := ih hr
      refine ⟨rfl, ?_⟩
      intro kv hkv
      rcases List.mem_cons.mp hkv with rfl | h
      · exact ⟨hk, hv⟩
      · exact ih kv h
    · cases h

theorem validatePairs_of {ps : List (String × String)}
    (h : ∀ kv ∈ ps, ValidName kv.1 ∧ ValidValue kv.2) : validatePairs ps = some ps := by
  induction ps with
  | nil => rfl
  | cons kv ps ih =>
    obtain ⟨k, v⟩ := kv
    have h1 := h (k, v) (by simp)
    simp only [validatePairs, (newName_iff k k).mpr ⟨rfl, h1.1⟩, (newValue_iff v v).mpr ⟨rfl, h1.2⟩,
      ih fun kv hkv => h kv (by simp [hkv])]

theorem collect_aux (ps : List (String × String)) (m : Map) (hs : Sorted m) :
    Sorted (ps.foldl (fun m kv => mapInsert kv.1 kv.2 m) m) ∧
    (∀ kv ∈ ps.foldl (fun m kv => mapInsert kv.1 kv.2 m) m, kv ∈ m ∨ kv ∈ ps) := by
  induction ps generalizing m with
  | nil => exact ⟨hs, fun kv h => Or.inl h⟩
  | cons kv ps ih =>
    obtain ⟨h1, h2⟩ := ih (mapInsert kv.1 kv.2 m) (sorted_insert hs)
    refine ⟨h1, fun x hx => ?_⟩
    rcases h2 x hx with h | h
    · rcases mem_mapInsert h with rfl | h
      · exact Or.inr (by simp)
      · exact Or.inl h
    · exact Or.inr (by simp [h])

theorem sorted_collect (ps : List (String × String)) : Sorted (collect ps) :=
  (collect_aux ps [] List.Pairwise.nil).1

theorem mem_collect {ps : List (String × String)} {kv} (h : kv ∈ collect ps) : kv ∈ ps := by
  rcases (collect_aux ps [] List.Pairwise.nil).2 kv h with h | h
  · cases h
  · exact h

theorem inv_decode {ps : List (String × String)} {m : Map} (h : decode ps = some m) : Inv m := by
  unfold decode at h
  split at h
  · rename_i qs hq
    obtain ⟨rfl, hv⟩ := validatePairs_some hq
    split at h
    · rename_i hl
      cases h
      exact ⟨(withinLimits_iff _).mp hl, sorted_collect _, fun kv hkv => hv kv (mem_collect hkv)⟩
    · cases h
  · cases h

theorem inv_apply {m : Map} (h : Inv m) (op : Op) : Inv (apply m op) := by
  cases op with
  | insert n v =>
    simp only [apply]
    split
    · rename_i n' v' hn hv
      obtain ⟨rfl, hn⟩ := (newName_iff _ _).mp hn
      obtain ⟨rfl, hv⟩ := (newValue_iff _ _).mp hv
      exact inv_insert h hn hv
    · exact h
  | decode ps =>
    simp only [apply]
    split
    · rename_i hd; exact inv_decode hd
    · exact h
  | reset => exact ⟨by simp [apply], List.Pairwise.nil, by simp [apply]⟩

theorem inv_run (ops : List Op) : Inv (run ops) := by
  have : ∀ m, Inv m → Inv (ops.foldl apply m) := by
    induction ops with
    | nil => intro m h; exact h
    | cons op ops ih => intro m h; exact ih _ (inv_apply h op)
  exact this [] ⟨by simp, List.Pairwise.nil, by simp⟩

/-! ## Property theorems -/

/-- Whatever inserts, decodes and resets are attempted (successfully or not), the environment has at
most 512 variables, unique names, and every name and value is valid. -/
theorem env_always_well_formed (ops : List Op) : WellFormed (run ops) := by
  obtain ⟨h1, h2, h3⟩ := inv_run ops
  exact ⟨h1, sorted_nodup h2, h3⟩

/-- A failing insert leaves the environment exactly as it was. -/
theorem env_failed_insert_unchanged (ops : List Op) (n v : String)
    (h : (insert n v (run ops)).1 = none) : (insert n v (run ops)).2 = run ops := by
  have hs := (inv_run ops).2.1
  unfold insert at *
  simp only at *
  split at h
  · rename_i hl
    rw [if_pos hl]
    split
    · rename_i p hp; exact restore_insert hs hp
    · rename_i hp; exact restore_remove hp
  · cases h

/-- An insert of a valid binding fails exactly when the environment is full (512 variables) and the
name is new. -/
theorem env_insert_fails_iff (ops : List Op) (n v : String) :
    (insert n v (run ops)).1 = none ↔ (run ops).length = 512 ∧ get n (run ops) = none := by
  obtain ⟨h1, h2, _⟩ := inv_run ops
  unfold insert
  simp only [withinLimits, maxVars, length_mapInsert n v _ h2]
  cases hg : get n (run ops) with
  | some p =>
    have : (run ops).length ≤ 512 := h1
    simp [this]
  | none =>
    by_cases hl : (run ops).length + 1 ≤ 512
    · simp [hl]; omega
    · simp [hl]; omega

/-- A successful insert returns the previous binding, makes the new one visible and changes no other
name. -/
theorem env_insert_visible (ops : List Op) (n v : String) (prev : Option String)
    (h : (insert n v (run ops)).1 = some prev) :
    prev = get n (run ops) ∧ get n (insert n v (run ops)).2 = some v ∧
      ∀ k, k ≠ n → get k (insert n v (run ops)).2 = get k (run ops) := by
  unfold insert at *
  simp only at *
  split at h
  · split at h <;> cases h
  · rename_i hl
    rw [if_neg hl]
    cases h
    refine ⟨rfl, by simp [get_mapInsert], fun k hk => by simp [get_mapInsert, hk]⟩

example : (insert "B" "2" (run [.insert "A" "1", .insert "1bad" "x"])) =
    (some none, [("A", "1"), ("B", "2")]) := by decide +kernel

/-- Decoding accepts exactly the pair lists whose names and values are all valid and that contain at
most 512 distinct names; every name is then bound to the last value given for it. -/
theorem env_decode_iff (ps : List (String × String)) (m : Map) :
    decode ps = some m ↔
      (∀ kv ∈ ps, ValidName kv.1 ∧ ValidValue kv.2) ∧ m = collect ps ∧ m.length ≤ 512 := by
  unfold decode
  constructor
  · intro h
    split at h
    · rename_i qs hq
      obtain ⟨rfl, hv⟩ := validatePairs_some hq
      split at h
      · rename_i hl; cases h; exact ⟨hv, rfl, (withinLimits_iff _).mp hl⟩
      · cases h
    · cases h
  · rintro ⟨hv, rfl, hl⟩
    simp only [validatePairs_of hv, (withinLimits_iff _).mpr hl, if_true]

/-- What `collect` binds: the last value given for each name, and nothing else. -/
theorem env_collect_last (ps : List (String × String)) (k : String) :
    get k (collect ps) = (ps.reverse.find? fun kv => kv.1 = k).map Prod.snd := by
  unfold collect
  induction ps using List.reverseRecOn with
  | nil => rfl
  | append_singleton ps kv ih =>
    rw [List.foldl_append]
    simp only [List.foldl_cons, List.foldl_nil, get_mapInsert, List.reverse_append,
      List.reverse_cons, List.reverse_nil, List.nil_append, List.singleton_append]
    by_cases h : k = kv.1
    · simp [h]
    · rw [if_neg h, ih]; simp [Ne.symm h]

example : decode [("A", "1"), ("_b", "x"), ("A", "2")] = some [("A", "2"), ("_b", "x")] ∧
    decode [("A-", "1")] = none := by decide +kernel

end Qos.Env
