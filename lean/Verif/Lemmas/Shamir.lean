import Verif.Lemmas.GF256
import Mathlib.LinearAlgebra.Lagrange
/-!
# Sharing and reconstruction as polynomial evaluation and interpolation
-/
namespace Qos.Shamir
open Polynomial

/-- The polynomial with these coefficients, lowest first. -/
noncomputable def poly : List GF → GF[X]
  | [] => 0
  | c :: cs => C c + X * poly cs

/-- The model's evaluation on field elements. -/
def geval (x : GF) (cs : List GF) : GF := eval x cs

theorem geval_cons (x c : GF) (cs : List GF) : geval x (c :: cs) = c + x * geval x cs := rfl

theorem eval_poly (x : GF) (cs : List GF) : (poly cs).eval x = geval x cs := by
  induction cs with
  | nil => simp [poly]; rfl
  | cons c cs ih => rw [poly, eval_add, eval_C, eval_mul, eval_X, ih, geval_cons]

theorem coeff_poly (cs : List GF) (i : Nat) : (poly cs).coeff i = cs.getD i 0 := by
  induction cs generalizing i with
  | nil => simp [poly]
  | cons c cs ih =>
    cases i with
    | zero => simp [poly]
    | succ i => simp [poly, coeff_C, ih]

theorem degree_poly (cs : List GF) : (poly cs).degree < cs.length := by
  rw [Polynomial.degree_lt_iff_coeff_zero]
  intro m hm
  rw [coeff_poly]
  simp [List.getD, hm]

/-- A polynomial of low degree from its coefficients. -/
theorem poly_coeffs {n : Nat} {f : GF[X]} (h : f.degree < n) : poly ((List.range n).map f.coeff) = f := by
  ext i
  rw [coeff_poly]
  by_cases hi : i < n
  · simp [List.getD, hi]
  · have e : ((List.range n).map f.coeff).getD i 0 = 0 := by simp [List.getD, hi]
    rw [e]
    exact (Polynomial.coeff_eq_zero_of_degree_lt (lt_of_lt_of_le h (by exact_mod_cast (by omega : n ≤ i)))).symm

/-- The model's basis value on field elements. -/
def gbasis (x : GF) (ys : List GF) : GF := basis x ys

theorem gbasis_cons (x y : GF) (ys : List GF) :
    gbasis x (y :: ys) = (if y = x then 1 else y * (y - x)⁻¹) * gbasis x ys := by
  have e : gbasis x (y :: ys) = if y = x then gbasis x ys else (y * (y - x)⁻¹) * gbasis x ys := rfl
  rw [e]
  by_cases h : y = x
  · rw [if_pos h, if_pos h, one_mul]
  · rw [if_neg h, if_neg h]

theorem gbasis_prod (x : GF) (ys : List GF) :
    gbasis x ys = (ys.map fun y => if y = x then 1 else y * (y - x)⁻¹).prod := by
  induction ys with
  | nil => rfl
  | cons y ys ih => rw [gbasis_cons, ih, List.map_cons, List.prod_cons]

theorem gbasis_eval (x : GF) (xs : List GF) (hn : xs.Nodup) :
    gbasis x xs = (Lagrange.basis xs.toFinset id x).eval 0 := by
  rw [gbasis_prod, ← List.prod_toFinset _ hn, Lagrange.basis, eval_prod]
  rw [← Finset.prod_erase xs.toFinset (a := x) (by simp)]
  refine Finset.prod_congr rfl ?_
  intro y hy
  have hne : y ≠ x := (Finset.mem_erase.1 hy).1
  rw [if_neg hne, Lagrange.basisDivisor]
  simp only [id, eval_mul, eval_C, eval_sub, eval_X]
  rw [zero_sub, gf_neg, mul_comm]
  congr 2
  rw [← neg_sub, gf_neg]

/-- The model's interpolation on field elements. -/
def ginterpolate (xs : List GF) (pts : List (GF × GF)) : GF := interpolate xs pts

theorem ginterpolate_sum (xs : List GF) (f : GF → GF) (l : List GF) :
    ginterpolate xs (l.map fun x => (x, f x)) = (l.map fun x => f x * gbasis x xs).sum := by
  induction l with
  | nil => rfl
  | cons x l ih => rw [List.map_cons, List.map_cons, List.sum_cons, ← ih]; rfl

/-- Interpolation at 0 of enough values of a polynomial gives its constant coefficient. -/
theorem ginterpolate_eval (xs : List GF) (hn : xs.Nodup) (f : GF[X]) (hd : f.degree < xs.length) :
    ginterpolate xs (xs.map fun x => (x, f.eval x)) = f.eval 0 := by
  rw [ginterpolate_sum, ← List.sum_toFinset _ hn]
  have hc : xs.toFinset.card = xs.length := List.toFinset_card_of_nodup hn
  have := Lagrange.eq_interpolate_of_eval_eq (s := xs.toFinset) (v := id) (f := f) (r := fun x => f.eval x)
    (Set.injOn_id _) (by rw [hc]; exact hd) (fun i _ => rfl)
  conv_rhs => rw [this]
  rw [Lagrange.interpolate_apply, eval_finset_sum]
  refine Finset.sum_congr rfl ?_
  intro x _
  rw [eval_mul, eval_C, gbasis_eval x xs hn]

theorem ginterpolate_geval (xs : List GF) (hn : xs.Nodup) (c : GF) (cs : List GF) (hl : (c :: cs).length ≤ xs.length) :
    ginterpolate xs (xs.map fun x => (x, geval x (c :: cs))) = c := by
  have := ginterpolate_eval xs hn (poly (c :: cs)) (lt_of_lt_of_le (degree_poly _) (by exact_mod_cast hl))
  simp only [eval_poly] at this
  rw [this, geval_cons, zero_mul, add_zero]

/-- The same in terms of bytes. -/
theorem interpolate_eval (xs : List UInt8) (hn : xs.Nodup) (c : UInt8) (cs : List UInt8)
    (hl : (c :: cs).length ≤ xs.length) : interpolate xs (xs.map fun x => (x, eval x (c :: cs))) = c :=
  ginterpolate_geval xs hn c cs hl

theorem geval_nil (x : GF) : geval x [] = 0 := rfl

theorem geval_add (x : GF) (l : List Nat) (a b : GF) (f g : Nat → GF) :
    geval x ((a + b) :: l.map fun i => f i + g i) = geval x (a :: l.map f) + geval x (b :: l.map g) := by
  induction l generalizing a b with
  | nil => simp only [geval_cons, List.map_nil, geval_nil]; ring
  | cons i l ih =>
    rw [List.map_cons, List.map_cons, List.map_cons, geval_cons, ih, geval_cons x a, geval_cons x b]
    ring

theorem eval_add (x a b : UInt8) (l : List Nat) (f g : Nat → UInt8) :
    eval x ((a ^^^ b) :: l.map fun i => f i ^^^ g i) = eval x (a :: l.map f) ^^^ eval x (b :: l.map g) :=
  geval_add x l a b f g

/-- A mask: coefficients whose polynomial is `δ` at 0 and 0 at fewer than `t` given non-zero points. -/
theorem mask_exists (ids : Finset GF) (hn : ∀ x ∈ ids, x ≠ 0) {t : Nat} (ht : ids.card < t) (δ : GF) :
    ∃ d : Nat → GF, ∀ x ∈ ids, geval x (δ :: (List.range (t - 1)).map d) = 0 := by
  let p : GF[X] := ∏ x ∈ ids, (X - C x)
  let D : GF[X] := C δ * C (p.eval 0)⁻¹ * p
  have hp0 : p.eval 0 ≠ 0 := by
    rw [Polynomial.eval_prod, Finset.prod_ne_zero_iff]
    intro x hx
    rw [eval_sub, eval_X, eval_C, zero_sub, gf_neg]
    exact hn x hx
  have hdeg : D.degree < t := by
    refine lt_of_le_of_lt (Polynomial.degree_mul_le _ _) ?_
    have h1 : p.degree = ids.card := by
      rw [Polynomial.degree_prod]
      simp
    have h2 : (C δ * C (p.eval 0)⁻¹).degree ≤ 0 := by
      rw [← C_mul]; exact Polynomial.degree_C_le
    rw [h1]
    refine lt_of_le_of_lt (add_le_add_left h2 _) ?_
    rw [zero_add]
    exact_mod_cast ht
  have hD0 : D.coeff 0 = δ := by
    rw [Polynomial.coeff_zero_eq_eval_zero, eval_mul, eval_mul, eval_C, eval_C, mul_assoc, inv_mul_cancel₀ hp0, mul_one]
  refine ⟨fun i => D.coeff (i + 1), ?_⟩
  intro x hx
  have hDx : D.eval x = 0 := by
    have hp : p.eval x = 0 := by
      rw [Polynomial.eval_prod]
      exact Finset.prod_eq_zero (i := x) hx (by rw [eval_sub, eval_X, eval_C, sub_self])
    rw [eval_mul, hp, mul_zero]
  have hpoly := poly_coeffs hdeg
  obtain ⟨t', rfl⟩ : ∃ t', t = t' + 1 := ⟨t - 1, by omega⟩
  rw [List.range_succ_eq_map, List.map_cons, hD0, List.map_map] at hpoly
  rw [← hpoly, eval_poly] at hDx
  exact hDx

/-- Two polynomials of degree at most `m` with the same constant coefficient that agree at `m` non-zero points are
equal. -/
theorem gcoeffs_unique {ids : Finset GF} {m : Nat} (hn : ∀ x ∈ ids, x ≠ 0) (hm : ids.card = m) {a : GF}
    {f g : Nat → GF} (h : ∀ x ∈ ids, geval x (a :: (List.range m).map f) = geval x (a :: (List.range m).map g))
    (k : Nat) (hk : k < m) : f k = g k := by
  have hl : ∀ u : Nat → GF, (poly (a :: (List.range m).map u)).degree < ((m + 1 : Nat) : WithBot Nat) := by
    intro u
    have := degree_poly (a :: (List.range m).map u)
    rwa [List.length_cons, List.length_map, List.length_range] at this
  have hsub : poly (a :: (List.range m).map f) - poly (a :: (List.range m).map g) = 0 := by
    refine Polynomial.eq_zero_of_degree_lt_of_eval_finset_eq_zero (insert 0 ids) ?_ ?_
    · rw [Finset.card_insert_of_notMem (fun hc => hn 0 hc rfl), hm]
      exact lt_of_le_of_lt (Polynomial.degree_sub_le _ _) (max_lt (hl f) (hl g))
    · intro x hx
      rw [eval_sub, eval_poly, eval_poly, sub_eq_zero]
      rcases Finset.mem_insert.1 hx with rfl | hx
      · rw [geval_cons, geval_cons, zero_mul, zero_mul]
      · exact h x hx
  have := congrArg (fun p => p.coeff (k + 1)) (sub_eq_zero.1 hsub)
  simp only [coeff_poly, List.getD_cons_succ] at this
  have e : ∀ u : Nat → GF, ((List.range m).map u).getD k 0 = u k := by
    intro u; simp [List.getD, hk]
  rwa [e, e] at this

theorem coeffs_unique {ids : Finset GF} {m : Nat} (hn : ∀ x ∈ ids, x ≠ 0) (hm : ids.card = m) {a : UInt8}
    {f g : Nat → UInt8} (h : ∀ x ∈ ids, eval x (a :: (List.range m).map f) = eval x (a :: (List.range m).map g))
    (k : Nat) (hk : k < m) : f k = g k := gcoeffs_unique hn hm h k hk

/-! ## Shares -/

theorem shareBytes_length (coeffs : Nat → List UInt8) (x : UInt8) (j : Nat) (secret : Bytes) :
    (shareBytes coeffs x j secret).length = secret.length := by
  induction secret generalizing j with
  | nil => rfl
  | cons b bs ih => simp [shareBytes, ih]

theorem shareBytes_getD (coeffs : Nat → List UInt8) (x : UInt8) (j : Nat) (secret : Bytes) {i : Nat}
    (hi : i < secret.length) :
    (shareBytes coeffs x j secret).getD i 0 = eval x (secret.getD i 0 :: coeffs (j + i)) := by
  induction secret generalizing j i with
  | nil => simp at hi
  | cons b bs ih =>
    cases i with
    | zero => rfl
    | succ i =>
      have := ih (j + 1) (i := i) (by simpa using hi)
      simp only [shareBytes, List.getD_cons_succ]
      rw [this]
      congr 3
      omega

end Qos.Shamir
