import Verif.Model.NChooseK
import Verif.Spec.NChooseK
import Mathlib.Data.List.Chain
import Mathlib.Data.List.Perm.Subperm
import Mathlib.Data.Nat.Choose.Sum
import Mathlib.Data.Nat.Choose.Bounds
/-!
# C33: `combinations` enumerates every choice once
-/
namespace Qos.NChooseK

/-! ## The textbook enumeration -/

theorem choose_length {α : Type} (k : Nat) (l : List α) : (choose k l).length = l.length.choose k := by
  induction l generalizing k with
  | nil => cases k <;> simp [choose]
  | cons x xs ih =>
    cases k with
    | zero => simp [choose]
    | succ k => simp [choose, ih, Nat.choose_succ_succ]

theorem mem_choose {α : Type} {k : Nat} {l c : List α} : c ∈ choose k l ↔ c.Sublist l ∧ c.length = k := by
  induction l generalizing k c with
  | nil => cases k with
    | zero => simp [choose, List.length_eq_zero_iff]
    | succ k =>
      simp only [choose, List.not_mem_nil, List.sublist_nil, false_iff]
      rintro ⟨rfl, h⟩
      simp at h
  | cons x xs ih =>
    cases k with
    | zero =>
      simp only [choose, List.mem_singleton]
      constructor
      · rintro rfl; simp
      · rintro ⟨_, h⟩; exact List.length_eq_zero_iff.1 h
    | succ k =>
      simp only [choose, List.mem_append, List.mem_map, ih]
      constructor
      · rintro (⟨y, ⟨h1, h2⟩, rfl⟩ | ⟨h1, h2⟩)
        · exact ⟨h1.cons_cons x, by simp [h2]⟩
        · exact ⟨h1.cons x, h2⟩
      · rintro ⟨h1, h2⟩
        cases h1 with
        | cons _ h => exact .inr ⟨h, h2⟩
        | cons_cons _ h => exact .inl ⟨_, ⟨h, by simpa using h2⟩, rfl⟩

theorem choose_map {α β : Type} (f : α → β) (k : Nat) (l : List α) :
    choose k (l.map f) = (choose k l).map (List.map f) := by
  induction l generalizing k with
  | nil => cases k <;> simp [choose]
  | cons x xs ih =>
    cases k with
    | zero => simp [choose]
    | succ k => simp [choose, ih, Function.comp_def]

/-! ## The successor of an index list -/

/-- The last index list of its length. -/
def IsMax (n : Nat) (y : List Nat) : Prop := y = List.range' (n - y.length) y.length

instance (n : Nat) (y : List Nat) : Decidable (IsMax n y) := by unfold IsMax; infer_instance

/-- The successor, recursively. -/
def nextRec (n : Nat) : List Nat → List Nat
  | [] => []
  | x :: rest => if IsMax n rest then List.range' (x + 1) (rest.length + 1) else x :: nextRec n rest

theorem isMax_cons {n x : Nat} {rest : List Nat} (h : rest.length < n) :
    IsMax n (x :: rest) ↔ x = n - (rest.length + 1) ∧ IsMax n rest := by
  unfold IsMax
  rw [List.length_cons, List.range'_succ, List.cons.injEq]
  rw [show n - (rest.length + 1) + 1 = n - rest.length by omega]

theorem choose_eq_nil {α : Type} {k : Nat} {l : List α} (h : l.length < k) : choose k l = [] := by
  have := choose_length k l
  rw [Nat.choose_eq_zero_of_lt h] at this
  exact List.length_eq_zero_iff.1 this

/-- Each index list of the enumeration is followed by its successor; the last one is the maximum; the first one is
`a, a+1, …`. -/
theorem enum_chain (n k a : Nat) (h : a + k ≤ n) (hk : 0 < k) :
    ∃ mid, choose k (List.range' a (n - a)) = mid ++ [List.range' (n - k) k] ∧
      (mid ++ [List.range' (n - k) k]).IsChain (fun y z => ¬ IsMax n y ∧ nextRec n y = z) ∧
      (mid ++ [List.range' (n - k) k]).head? = some (List.range' a k) := by
  obtain ⟨d, hd⟩ : ∃ d, n - a = d := ⟨_, rfl⟩
  induction d generalizing a k with
  | zero => omega
  | succ d ih =>
    obtain ⟨k, rfl⟩ : ∃ k', k = k' + 1 := ⟨k - 1, by omega⟩
    have hr : List.range' a (n - a) = a :: List.range' (a + 1) (n - (a + 1)) := by
      rw [hd, List.range'_succ]; congr 2; omega
    rw [hr]
    simp only [choose]
    by_cases hk0 : k = 0
    · subst hk0
      simp only [choose, List.map_cons, List.map_nil]
      by_cases hlast : a + 1 < n
      · obtain ⟨mid, h1, h2, h3⟩ := ih 1 (a + 1) (by omega) (by omega) (by omega)
        refine ⟨[a] :: mid, by rw [h1]; rfl, ?_, by simp [List.range'_succ]⟩
        rw [List.cons_append, List.isChain_cons]
        refine ⟨?_, h2⟩
        intro y hy
        rw [h3] at hy
        cases hy
        refine ⟨?_, ?_⟩
        · rw [isMax_cons (by simp; omega)]; simp; omega
        · simp [nextRec, IsMax, List.range'_succ]
      · have : n = a + 1 := by omega
        subst this
        exact ⟨[], by simp [choose, List.range'_succ], by simp, by simp [List.range'_succ]⟩
    · obtain ⟨mid, h1, h2, h3⟩ := ih k (a + 1) (by omega) (by omega) (by omega)
      rw [h1]
      have hmap : ∀ l : List (List Nat), (∀ y ∈ l, y.length = k) → l.IsChain (fun y z => ¬ IsMax n y ∧ nextRec n y = z) →
          (l.map (a :: ·)).IsChain (fun y z => ¬ IsMax n y ∧ nextRec n y = z) := by
        intro l hl hc
        rw [List.isChain_map]
        refine (hc.imp_of_mem_imp ?_)
        intro y z hy _ hyz
        refine ⟨fun hm => hyz.1 ((isMax_cons (by rw [hl y hy]; omega)).1 hm).2, ?_⟩
        rw [nextRec, if_neg hyz.1, hyz.2]
      have hlen : ∀ y ∈ mid ++ [List.range' (n - k) k], y.length = k := by
        intro y hy
        rw [← h1] at hy
        exact (mem_choose.1 hy).2
      have hc := hmap _ hlen h2
      have hh : ∀ l : List (List Nat), ((mid ++ [List.range' (n - k) k]).map (a :: ·) ++ l).head? = some (List.range' a (k + 1)) := by
        intro l
        have : ((mid ++ [List.range' (n - k) k]).map (a :: ·)).head? = some (a :: List.range' (a + 1) k) := by
          rw [List.head?_map, h3]; rfl
        rw [List.head?_append, this, List.range'_succ]; rfl
      by_cases hlast : a + 1 + (k + 1) ≤ n
      · obtain ⟨mid', g1, g2, g3⟩ := ih (k + 1) (a + 1) hlast (by omega) (by omega)
        refine ⟨(mid ++ [List.range' (n - k) k]).map (a :: ·) ++ mid', by rw [g1, List.append_assoc], ?_, ?_⟩
        · rw [List.append_assoc, List.isChain_append]
          refine ⟨hc, g2, ?_⟩
          intro y hy z hz
          rw [g3] at hz
          cases hz
          rw [List.map_append, List.map_singleton, List.getLast?_concat] at hy
          cases hy
          refine ⟨?_, ?_⟩
          · rw [isMax_cons (by simp; omega)]; simp; omega
          · rw [nextRec, if_pos (by simp [IsMax])]; simp
        · rw [List.append_assoc]; exact hh _
      · have hn : n = a + (k + 1) := by omega
        refine ⟨mid.map (a :: ·), ?_, ?_, ?_⟩
        · rw [choose_eq_nil (by simp; omega), List.append_nil, List.map_append, List.map_singleton, List.range'_succ]
          congr 4 <;> omega
        · rw [List.map_append, List.map_singleton] at hc
          rw [List.range'_succ]
          have : n - (k + 1) = a := by omega
          rw [this, show a + 1 = n - k by omega]
          exact hc
        · have := hh []
          rw [List.append_nil, List.map_append, List.map_singleton] at this
          rw [List.range'_succ, show n - (k + 1) = a by omega, show a + 1 = n - k by omega]
          exact this

/-! ## The loop of the code -/

theorem scan_spec (n k : Nat) (idx : List Nat) (m : Nat) (hm : 0 < m) :
    1 ≤ scan n k idx m ∧ scan n k idx m ≤ m ∧
    (scan n k idx m = 1 ∨ idx.getD (scan n k idx m - 1) 0 ≠ n - k + (scan n k idx m - 1)) ∧
    ∀ j, scan n k idx m ≤ j → j < m → idx.getD j 0 = n - k + j := by
  induction m with
  | zero => omega
  | succ i ih =>
    rw [scan]
    by_cases h : i + 1 > 1 ∧ idx.getD i 0 = n - k + i
    · rw [if_pos h]
      obtain ⟨h1, h2, h3, h4⟩ := ih (by omega)
      refine ⟨h1, by omega, h3, fun j hj hj' => ?_⟩
      by_cases hji : j = i
      · rw [hji]; exact h.2
      · exact h4 j hj (by omega)
    · rw [if_neg h]
      refine ⟨by omega, le_refl _, ?_, fun j _ _ => by omega⟩
      by_cases h0 : i = 0
      · exact .inl (by omega)
      · exact .inr (fun hc => h ⟨by omega, hc⟩)

theorem refill_eq (todo : Nat) (l : List Nat) (j : Nat) (hj : 0 < j) (hl : j + todo = l.length) :
    refill l j todo = l.take j ++ List.range' (l.getD (j - 1) 0 + 1) todo := by
  induction todo generalizing l j with
  | zero => simp [refill, List.take_of_length_le (show l.length ≤ j by omega)]
  | succ t ih =>
    rw [refill, ih _ (j + 1) (by omega) (by simp; omega)]
    have h1 : (l.set j (l.getD (j - 1) 0 + 1)).getD j 0 = l.getD (j - 1) 0 + 1 := by
      simp [List.getD, show j < l.length by omega]
    rw [Nat.add_sub_cancel, h1, List.range'_succ]
    have h2 : (l.set j (l.getD (j - 1) 0 + 1)).take (j + 1) = l.take j ++ [l.getD (j - 1) 0 + 1] := by
      rw [List.take_succ, List.take_set_of_le (by omega)]
      simp [show j < l.length by omega]
    rw [h2]
    simp

theorem nextRec_eq (n : Nat) (idx : List Nat) (i : Nat) (hn : idx.length ≤ n) (h1 : 1 ≤ i) (h2 : i ≤ idx.length)
    (h3 : i = 1 ∨ idx.getD (i - 1) 0 ≠ n - idx.length + (i - 1))
    (h4 : ∀ j, i ≤ j → j < idx.length → idx.getD j 0 = n - idx.length + j) :
    nextRec n idx = idx.take (i - 1) ++ List.range' (idx.getD (i - 1) 0 + 1) (idx.length - i + 1) := by
  induction idx generalizing i with
  | nil => simp at h2; omega
  | cons x rest ih =>
    simp only [List.length_cons] at *
    rw [nextRec]
    by_cases hi : i = 1
    · subst hi
      have : IsMax n rest := by
        unfold IsMax
        refine List.ext_getElem (by simp) ?_
        intro j hj hj'
        have := h4 (j + 1) (by omega) (by omega)
        simp [List.getD, hj] at this
        simp
        omega
      rw [if_pos this]
      simp
    · have hne := h3.resolve_left hi
      obtain ⟨i', rfl⟩ : ∃ i', i = i' + 2 := ⟨i - 2, by omega⟩
      simp only [show i' + 2 - 1 = i' + 1 by omega, List.getD_cons_succ] at hne ⊢
      have hnm : ¬ IsMax n rest := by
        intro hm
        apply hne
        unfold IsMax at hm
        rw [hm]
        simp only [List.length_range', List.getD]
        rw [List.getElem?_range' (by omega)]
        simp
        omega
      rw [if_neg hnm, ih (i' + 1) (by omega) (by omega) (by omega) (.inr (by
        rw [show i' + 1 - 1 = i' by omega]; intro hc; apply hne; rw [hc]; omega)) (fun j hj hj' => by
        have := h4 (j + 1) (by omega) (by omega)
        rw [List.getD_cons_succ] at this
        rw [this]; omega)]
      simp

theorem advance_eq (n : Nat) (idx : List Nat) (hn : idx.length ≤ n) (hk : 0 < idx.length) :
    advance n idx.length idx = nextRec n idx := by
  obtain ⟨h1, h2, h3, h4⟩ := scan_spec n idx.length idx idx.length hk
  unfold advance
  simp only
  generalize scan n idx.length idx idx.length = i at *
  rw [nextRec_eq n idx i hn h1 h2 h3 h4, refill_eq _ _ _ (by omega) (by simp; omega)]
  have e1 : (idx.set (i - 1) (idx.getD (i - 1) 0 + 1)).getD (i - 1) 0 = idx.getD (i - 1) 0 + 1 := by
    simp [List.getD, show i - 1 < idx.length by omega]
  have e2 : (idx.set (i - 1) (idx.getD (i - 1) 0 + 1)).take i = idx.take (i - 1) ++ [idx.getD (i - 1) 0 + 1] := by
    obtain ⟨i', rfl⟩ : ∃ i', i = i' + 1 := ⟨i - 1, by omega⟩
    rw [Nat.add_sub_cancel, List.take_succ, List.take_set_of_le (by omega)]
    simp [show i' < idx.length by omega]
  rw [e1, e2, List.range'_succ]
  simp

theorem loop_chain {α : Type} (input : List α) (n k : Nat) (hk : 0 < k) (hkn : k ≤ n) (mid : List (List Nat))
    (hlen : ∀ y ∈ mid, y.length = k ∧ y.getD 0 0 ≤ n - k) (fuel : Nat) (hf : mid.length + 2 ≤ fuel)
    (hc : (mid ++ [List.range' (n - k) k]).IsChain (fun y z => ¬ IsMax n y ∧ nextRec n y = z)) (idx : List Nat)
    (hh : (mid ++ [List.range' (n - k) k]).head? = some idx) (combos : List (List α)) :
    loop input n k fuel idx combos =
      some (combos ++ (mid ++ [List.range' (n - k) k]).map fun y => y.filterMap fun i => input[i]?) := by
  induction mid generalizing fuel idx combos with
  | nil =>
    obtain ⟨f, rfl⟩ : ∃ f, fuel = f + 2 := ⟨fuel - 2, by omega⟩
    simp only [List.nil_append, List.head?_cons, Option.some.injEq] at hh
    subst hh
    have hl : (List.range' (n - k) k).length = k := by simp
    have h0 : (List.range' (n - k) k).getD 0 0 = n - k := by
      obtain ⟨k', rfl⟩ : ∃ k', k = k' + 1 := ⟨k - 1, by omega⟩
      simp [List.range'_succ]
    have ha : advance n k (List.range' (n - k) k) = List.range' (n - k + 1) k := by
      have := advance_eq n (List.range' (n - k) k) (by omega) (by omega)
      rw [hl] at this
      rw [this]
      obtain ⟨k', rfl⟩ : ∃ k', k = k' + 1 := ⟨k - 1, by omega⟩
      rw [List.range'_succ, nextRec, if_pos]
      · simp
      · unfold IsMax; simp; congr 1; omega
    have h1 : (List.range' (n - k + 1) k).getD 0 0 = n - k + 1 := by
      obtain ⟨k', rfl⟩ : ∃ k', k = k' + 1 := ⟨k - 1, by omega⟩
      simp [List.range'_succ]
    rw [loop, h0, if_pos (le_refl _), ha, loop, h1, if_neg (by omega)]
    simp
  | cons y mid ih =>
    obtain ⟨f, rfl⟩ : ∃ f, fuel = f + 1 := ⟨fuel - 1, by omega⟩
    simp only [List.cons_append, List.head?_cons, Option.some.injEq] at hh
    subst hh
    obtain ⟨hyl, hy0⟩ := hlen y List.mem_cons_self
    rw [List.cons_append, List.isChain_cons] at hc
    obtain ⟨hc1, hc2⟩ := hc
    rw [loop, if_pos hy0]
    obtain ⟨z, hz⟩ : ∃ z, (mid ++ [List.range' (n - k) k]).head? = some z := by
      cases mid <;> simp
    have ha : advance n k y = z := by
      have := advance_eq n y (by omega) (by omega)
      rw [hyl] at this
      rw [this]
      exact (hc1 z hz).2
    rw [ih (fun w hw => hlen w (List.mem_cons_of_mem _ hw)) f (by simp at hf; omega) hc2 (advance n k y) (by rw [ha]; exact hz)]
    simp

theorem choose_filterMap {α β : Type} (f : α → Option β) (k : Nat) (l : List α) (hl : ∀ x ∈ l, (f x).isSome) :
    choose k (l.filterMap f) = (choose k l).map (List.filterMap f) := by
  induction l generalizing k with
  | nil => cases k <;> simp [choose]
  | cons x xs ih =>
    have ih := fun k => ih k fun y hy => hl y (List.mem_cons_of_mem _ hy)
    obtain ⟨b, hb⟩ := Option.isSome_iff_exists.1 (hl x List.mem_cons_self)
    rw [List.filterMap_cons_some hb]
    cases k with
    | zero => simp [choose]
    | succ k => simp [choose, ih, Function.comp_def, hb]

theorem input_eq {α : Type} (input : List α) :
    (List.range' 0 input.length).filterMap (fun i => input[i]?) = input := by
  rw [← List.range_eq_range']
  induction input with
  | nil => rfl
  | cons x xs ih =>
    rw [List.length_cons, List.range_succ_eq_map, List.filterMap_cons_some (f := fun i => (x :: xs)[i]?) (b := x) rfl,
      List.filterMap_map]
    congr 1

theorem loop_exact {α : Type} (input : List α) {k : Nat} (hk : 0 < k) (hkn : k ≤ input.length) (fuel : Nat)
    (hf : input.length.choose k + 1 ≤ fuel) :
    loop input input.length k fuel (List.range k) [] = some (choose k input) := by
  obtain ⟨mid, h1, h2, h3⟩ := enum_chain input.length k 0 (by omega) hk
  rw [Nat.sub_zero] at h1
  have hlen := choose_length k (List.range' 0 input.length)
  rw [h1, List.length_range', List.length_append, List.length_singleton] at hlen
  have hmid : ∀ y ∈ mid, y.length = k ∧ y.getD 0 0 ≤ input.length - k := by
    intro y hy
    obtain ⟨hs, hl⟩ := mem_choose.1 (h1 ▸ List.mem_append_left _ hy : y ∈ choose k (List.range' 0 input.length))
    refine ⟨hl, ?_⟩
    cases y with
    | nil => simp
    | cons x rest =>
      have hp : (x :: rest).Pairwise (· < ·) := (List.pairwise_lt_range' ..).sublist hs
      have hx : ∀ z ∈ x :: rest, z < input.length := fun z hz => by
        have := hs.subset hz; simp at this; exact this
      have hsub : ∀ z ∈ x :: rest, z ∈ List.range' x (input.length - x) := by
        intro z hz
        rw [List.mem_range'_1]
        rcases List.mem_cons.1 hz with rfl | hz'
        · have := hx z hz; omega
        · have := (List.pairwise_cons.1 hp).1 z hz'
          have := hx z hz
          omega
      have := (List.subperm_of_subset hp.nodup hsub).length_le
      have hxx := hx x List.mem_cons_self
      simp at this
      simp at hl
      simp
      omega
  rw [loop_chain input input.length k hk hkn mid hmid fuel (by omega) h2 (List.range k)
    (by rw [h3, List.range_eq_range']) [], List.nil_append, ← h1]
  congr 1
  conv_rhs => rw [← input_eq input]
  rw [choose_filterMap]
  intro x hx
  simp at hx
  simp [hx]

/-! ## Property theorems -/

/-- C33: nothing is chosen for `k = 0` or `k > n`. -/
theorem combinations_none {α : Type} (m : Overflow) (fuel : Nat) (input : List α) (k : Nat)
    (h : k = 0 ∨ input.length < k) : combinations m fuel input k = .returns [] := by
  unfold combinations
  simp only
  rw [if_pos (by omega)]

/-- C33: otherwise, unless computing the capacity panics, the loop ends after exactly `n choose k` rounds and yields
the textbook enumeration. -/
theorem combinations_exact {α : Type} (m : Overflow) (input : List α) {k : Nat} (hk : 0 < k) (hkn : k ≤ input.length)
    (hc : (expectedCount m input.length k).bind withCapacity = some ()) {fuel : Nat}
    (hf : input.length.choose k + 1 ≤ fuel) : combinations m fuel input k = .returns (choose k input) := by
  unfold combinations
  simp only
  rw [if_neg (by omega), hc]
  simp only
  rw [loop_exact input hk hkn fuel hf]

/-- C33: the textbook enumeration has every sub-list of length `k`, `n choose k` many. -/
theorem choose_complete {α : Type} (k : Nat) (l : List α) :
    (∀ c, c ∈ choose k l ↔ c.Sublist l ∧ c.length = k) ∧ (choose k l).length = l.length.choose k :=
  ⟨fun _ => mem_choose, choose_length k l⟩

/-- C33: on positions it is strictly increasing in lexicographic order, so each choice of positions comes once. -/
theorem choose_lex (k n : Nat) : (choose k (List.range n)).Pairwise (List.Lex (· < ·)) ∧ (choose k (List.range n)).Nodup := by
  have key : ∀ (l : List Nat) (k : Nat), l.Pairwise (· < ·) → (choose k l).Pairwise (List.Lex (· < ·)) := by
    intro l
    induction l with
    | nil => intro k _; cases k <;> simp [choose]
    | cons x xs ih =>
      intro k hp
      obtain ⟨hx, hp⟩ := List.pairwise_cons.1 hp
      cases k with
      | zero => simp [choose]
      | succ k =>
        simp only [choose]
        rw [List.pairwise_append]
        refine ⟨?_, ih _ hp, ?_⟩
        · rw [List.pairwise_map]
          exact (ih k hp).imp fun h => List.Lex.cons h
        · rintro a ha b hb
          obtain ⟨a', _, rfl⟩ := List.mem_map.1 ha
          obtain ⟨hs, hl⟩ := mem_choose.1 hb
          cases b with
          | nil => simp at hl
          | cons y ys => exact List.Lex.rel (hx y (hs.subset List.mem_cons_self))
  have h := key (List.range n) k List.pairwise_lt_range
  refine ⟨h, h.imp fun hab he => ?_⟩
  subst he
  rename_i a
  have : ∀ a : List Nat, ¬ List.Lex (· < ·) a a := by
    intro a
    induction a with
    | nil => rintro ⟨⟩
    | cons x xs ih =>
      intro hc
      cases hc with
      | rel h => omega
      | cons h => exact ih h
  exact this a hab

theorem factorial_ok (m : Overflow) (n : Nat) (h : n.factorial < 2 ^ 64) : factorial m n = some n.factorial := by
  induction n with
  | zero => rfl
  | succ n ih =>
    cases n with
    | zero => rfl
    | succ n =>
      have hlt : (n + 1).factorial < 2 ^ 64 := lt_of_le_of_lt (Nat.factorial_le (by omega)) h
      rw [factorial, ih hlt]
      show mul m _ _ = _
      rw [Nat.factorial_succ, Nat.mul_comm] at h
      unfold mul
      rw [if_pos h, Nat.factorial_succ (n + 1), Nat.mul_comm]

/-- C33: up to 20 elements computing the capacity never panics. -/
theorem capacity_ok (m : Overflow) {n k : Nat} (hn : n ≤ 20) (hkn : k ≤ n) :
    (expectedCount m n k).bind withCapacity = some () := by
  have hb : ∀ j ≤ n, j.factorial ≤ 2432902008176640000 := fun j hj =>
    (Nat.factorial_le (show j ≤ 20 by omega)).trans (by decide)
  have hmul : k.factorial * (n - k).factorial ≤ n.factorial :=
    Nat.le_of_dvd (Nat.factorial_pos _) (Nat.factorial_mul_factorial_dvd_factorial hkn)
  have hn' := hb n (le_refl _)
  unfold expectedCount
  rw [factorial_ok m n (by omega), factorial_ok m k (by have := hb k hkn; omega),
    factorial_ok m (n - k) (by have := hb (n - k) (by omega); omega)]
  simp only [Option.bind_some]
  unfold mul
  rw [if_pos (by omega)]
  simp only [Option.bind_some]
  have hpos : 0 < k.factorial * (n - k).factorial := Nat.mul_pos (Nat.factorial_pos _) (Nat.factorial_pos _)
  rw [if_neg (by omega)]
  simp only [Option.bind_some]
  rw [← Nat.choose_eq_factorial_div_factorial hkn, withCapacity, if_pos]
  have h1 : n.choose k ≤ 2 ^ n := Nat.choose_le_two_pow n k
  have h2 : 2 ^ n ≤ 2 ^ 20 := Nat.pow_le_pow_right (by decide) hn
  have : n.choose k * 24 ≤ 2 ^ 20 * 24 := Nat.mul_le_mul_right _ (h1.trans h2)
  exact lt_of_le_of_lt this (by decide)

theorem factorial_panics {n : Nat} (h : 21 ≤ n) : factorial .panics n = none := by
  induction n with
  | zero => omega
  | succ n ih =>
    obtain ⟨m, rfl⟩ : ∃ m, n = m + 1 := ⟨n - 1, by omega⟩
    by_cases hn : m + 1 + 1 = 21
    · obtain rfl : m = 19 := by omega
      decide +kernel
    · rw [factorial, ih (by omega)]; rfl

/-- Finding: with overflow checks, more than 20 elements always panic although far fewer combinations may be asked for. -/
theorem combinations_overflow {α : Type} (fuel : Nat) (input : List α) {k : Nat} (hk : 0 < k) (hkn : k ≤ input.length)
    (h : 21 ≤ input.length) : combinations .panics fuel input k = .panics := by
  unfold combinations
  simp only
  rw [if_neg (by omega), expectedCount, factorial_panics h]
  rfl

theorem factorial_wraps_zero {n : Nat} (h : 66 ≤ n) : factorial .wraps n = some 0 := by
  induction n with
  | zero => omega
  | succ n ih =>
    obtain ⟨m, rfl⟩ : ∃ m, n = m + 1 := ⟨n - 1, by omega⟩
    by_cases hn : m + 1 + 1 = 66
    · obtain rfl : m = 64 := by omega
      decide +kernel
    · rw [factorial, ih (by omega)]
      simp [mul]

/-- Finding: without overflow checks the divisor wraps to zero, which panics, as soon as `k` or `n - k` reaches 66. -/
theorem combinations_divides_by_zero {α : Type} (fuel : Nat) (input : List α) {k : Nat} (hk : 0 < k)
    (hkn : k ≤ input.length) (h : 66 ≤ k ∨ 66 ≤ input.length - k) : combinations .wraps fuel input k = .panics := by
  unfold combinations
  simp only
  rw [if_neg (by omega)]
  have : expectedCount .wraps input.length k = none := by
    unfold expectedCount
    rcases h with h | h
    · rw [factorial_wraps_zero h]
      cases factorial .wraps input.length <;> cases factorial .wraps (input.length - k) <;> simp [mul]
    · rw [factorial_wraps_zero h]
      cases factorial .wraps input.length <;> cases factorial .wraps k <;> simp [mul]
  rw [this]
  rfl

/-- The hypotheses are met, and the enumeration is the one of the documentation comment. -/
example : combinations .panics 7 [1, 2, 3, 4] 2 =
    .returns [[1, 2], [1, 3], [1, 4], [2, 3], [2, 4], [3, 4]] := by decide +kernel

example : (expectedCount .wraps 4 2).bind withCapacity = some () := capacity_ok .wraps (by decide) (by decide)

end Qos.NChooseK
