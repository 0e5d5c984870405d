import Verif.Conformance.RealLaws
import Mathlib.GroupTheory.SpecificGroups.Cyclic.Basic
import Mathlib.GroupTheory.Perm.Cycle.Type
/-!
# The group of P-256 is generated by the base point

Not part of the model: see `Sha.lean`. The number of points is a multiple of the order `n` of the base point and at most
`2p + 1 < 3n`, so `n` or `2n`; if it were `2n` there would be a point of order two, whose `x` coordinate is a root of
`x³ - 3x + b`; there is none, because modulo this polynomial `x^p - x` is invertible.
-/
namespace Qos.Conformance
open WeierstrassCurve.Affine

/-- A polynomial of degree at most two. -/
structure Quad where
  (a b c : Nat)
  deriving DecidableEq

/-- Value. -/
def Quad.at (q : Quad) (x : F) : F := (q.a : F) + (q.b : F) * x + (q.c : F) * x ^ 2

/-- Product modulo `x³ - 3x + b`. -/
def Quad.mul : Quad → Quad → Quad
  | ⟨a0, a1, a2⟩, ⟨c0, c1, c2⟩ =>
    force ((a1 * c2 + a2 * c1) % fp) fun d3 =>
    force (a2 * c2 % fp) fun d4 =>
    force ((a0 * c0 + (fp - fb) * d3) % fp) fun e0 =>
    force ((a0 * c1 + a1 * c0 + 3 * d3 + (fp - fb) * d4) % fp) fun e1 =>
    force ((a0 * c2 + a1 * c1 + a2 * c0 + 3 * d4) % fp) fun e2 =>
    ⟨e0, e1, e2⟩

theorem fb_le : fb ≤ fp := by decide +kernel

theorem Quad.mul_at (q r : Quad) {x : F} (h : x ^ 3 - 3 * x + (fb : F) = 0) : (q.mul r).at x = q.at x * r.at x := by
  cases q with
  | mk a0 a1 a2 =>
  cases r with
  | mk c0 c1 c2 =>
    simp only [Quad.mul, force_eq, Quad.at]
    rw [cast_mod, cast_mod, cast_mod]
    push_cast [cast_neg fb_le, cast_mod]
    have h3 : x ^ 3 = 3 * x - (fb : F) := by linear_combination h
    have h4 : x ^ 4 = 3 * x ^ 2 - (fb : F) * x := by linear_combination x * h
    linear_combination (-(((a1 : F) * c2 + a2 * c1))) * h3 - ((a2 : F) * c2) * h4

/-- `q ^ e`, for `e < 2 ^ n`, times the accumulator to the power `2 ^ n`. -/
def Quad.powFrom (q : Quad) (e : Nat) : Nat → Quad → Quad
  | 0, acc => acc
  | n + 1, acc =>
    match acc.mul acc with
    | ⟨a, b, c⟩ => if (e >>> n) % 2 = 1 then q.powFrom e n (Quad.mul ⟨a, b, c⟩ q) else q.powFrom e n ⟨a, b, c⟩

theorem Quad.powFrom_at (q : Quad) (e : Nat) {x : F} (h : x ^ 3 - 3 * x + (fb : F) = 0) (n : Nat) (acc : Quad) :
    (q.powFrom e n acc).at x = (acc.at x) ^ (2 ^ n) * (q.at x) ^ (e % 2 ^ n) := by
  induction n generalizing acc with
  | zero => simp [Quad.powFrom, Nat.mod_one]
  | succ n ih =>
    have hs : e % 2 ^ (n + 1) = e % 2 ^ n + 2 ^ n * (e / 2 ^ n % 2) := by rw [pow_succ, Nat.mod_mul]
    rw [Quad.powFrom]
    simp only [Nat.shiftRight_eq_div_pow]
    rcases Nat.mod_two_eq_zero_or_one (e / 2 ^ n) with h0 | h1
    · rw [if_neg (by omega), ih, Quad.mul_at _ _ h, hs, h0]
      ring
    · rw [if_pos h1, ih, Quad.mul_at _ _ h, Quad.mul_at _ _ h, hs, h1]
      ring

/-- `x^p - x` modulo the polynomial. -/
def frob : Quad :=
  match Quad.powFrom ⟨0, 1, 0⟩ fp 256 ⟨1, 0, 0⟩ with
  | ⟨a, b, c⟩ => ⟨a, b + (fp - 1), c⟩

/-- Its inverse. -/
def frobInv : Quad := ⟨76626890310466861426869089647039036757962535851890885406097439786770458211455,
  74462945259064871768191128030512052509059297803194871526163573358218695456204,
  34768139465301476436978405170953382516735956999154666452188405812258086013549⟩

theorem no_root (x : F) : x ^ 3 - 3 * x + (fb : F) ≠ 0 := by
  intro h
  have h1 : frob.at x = 0 := by
    have hp := Quad.powFrom_at ⟨0, 1, 0⟩ fp h 256 ⟨1, 0, 0⟩
    rw [Nat.mod_eq_of_lt fp_lt] at hp
    have e1 : Quad.at ⟨0, 1, 0⟩ x = x := by simp [Quad.at]
    have e2 : Quad.at ⟨1, 0, 0⟩ x = 1 := by simp [Quad.at]
    rw [e1, e2, one_pow, one_mul, ZMod.pow_card] at hp
    have hf : frob.at x = (Quad.powFrom ⟨0, 1, 0⟩ fp 256 ⟨1, 0, 0⟩).at x - x := by
      unfold frob
      generalize Quad.powFrom ⟨0, 1, 0⟩ fp 256 ⟨1, 0, 0⟩ = q
      simp only [Quad.at]
      push_cast [cast_neg (show 1 ≤ fp from fp_pos)]
      ring
    rw [hf, hp, sub_self]
  have h2 : frobInv.mul frob = ⟨1, 0, 0⟩ := by decide +kernel
  have h3 := Quad.mul_at frobInv frob h
  rw [h2, h1, mul_zero] at h3
  simp [Quad.at] at h3

/-- A point as its `x` coordinate and the parity of its `y` coordinate. -/
def compress : EPoint → Option (F × Bool)
  | .zero => none
  | .some X Y _ => some (X, Y.val % 2 == 1)

theorem compress_injective : Function.Injective compress := by
  intro P Q h
  cases P with
  | zero => cases Q with
    | zero => rfl
    | some X Y hn => cases h
  | some X Y hn => cases Q with
    | zero => cases h
    | some X' Y' hn' =>
      have e := Option.some.inj h
      have e1 : X = X' := congrArg Prod.fst e
      have e2 : (Y.val % 2 == 1) = (Y'.val % 2 == 1) := congrArg Prod.snd e
      subst e1
      have hY : Y = Y' := by
        rcases Y_eq_of_X_eq hn.1 hn'.1 rfl with h | h
        · exact h
        · have hneg : Y = -Y' := by
            rw [h]; simp [negY, p256]
          by_cases h0 : Y' = 0
          · rw [hneg, h0, neg_zero]
          · exfalso
            have hv : Y.val = fp - Y'.val := by
              rw [hneg, ZMod.neg_val, if_neg h0]
            have hl := ZMod.val_lt Y'
            have hodd : fp % 2 = 1 := by decide +kernel
            rw [hv] at e2
            rcases Nat.mod_two_eq_zero_or_one Y'.val with h2 | h2
            · rw [h2, show (fp - Y'.val) % 2 = 1 by omega] at e2; exact absurd e2 (by decide)
            · rw [h2, show (fp - Y'.val) % 2 = 0 by omega] at e2; exact absurd e2 (by decide)
      subst hY
      rfl

instance : Finite EPoint := Finite.of_injective compress compress_injective

theorem card_le : Nat.card EPoint ≤ 2 * fp + 1 := by
  have h := Nat.card_le_card_of_injective compress compress_injective
  have hB : Nat.card Bool = 2 := by simp
  rw [Finite.card_option, Nat.card_prod, Nat.card_zmod fp, hB] at h
  omega

theorem no_two_torsion (P : EPoint) (h : P + P = 0) : P = 0 := by
  cases P with
  | zero => rfl
  | some X Y hn =>
    exfalso
    have hY : Y = p256.toAffine.negY X Y := by
      by_contra hne
      rw [Point.add_self_of_Y_ne hne] at h
      exact Point.some_ne_zero _ h
    have h0 : Y = 0 := by
      simp only [negY, p256, WeierstrassCurve.toAffine] at hY
      have : 2 * Y = 0 := by linear_combination hY
      exact (mul_eq_zero.mp this).resolve_left two_ne
    have he := (equation_p256 X Y).mp hn.1
    rw [h0] at he
    exact no_root X (by linear_combination -he)

theorem card_points : Nat.card EPoint = fn := by
  have hd : fn ∣ Nat.card EPoint := order_base ▸ addOrderOf_dvd_natCard G
  obtain ⟨m, hm⟩ := hd
  have hle := card_le
  have hpos : 0 < Nat.card EPoint := Nat.card_pos
  have hb : 2 * fp + 1 < 3 * fn := by decide +kernel
  have hm0 : m ≠ 0 := by rintro rfl; omega
  have hm3 : m < 3 := by
    by_contra h
    have : fn * 3 ≤ fn * m := Nat.mul_le_mul_left _ (by omega)
    omega
  have hm2 : m ≠ 2 := by
    rintro rfl
    obtain ⟨P, hP⟩ := exists_prime_addOrderOf_dvd_card' (G := EPoint) 2 (hm ▸ Dvd.intro_left _ rfl)
    have h2 : P + P = 0 := by rw [← two_nsmul, ← hP, addOrderOf_nsmul_eq_zero]
    rw [no_two_torsion P h2, addOrderOf_zero] at hP
    exact absurd hP (by decide)
  rw [hm, show m = 1 by omega, mul_one]

/-- Every point is a multiple of the base point, by a number below the order. -/
theorem multiple_of_base (P : EPoint) : ∃ k, k < fn ∧ k • G = P := by
  obtain ⟨k, hk⟩ := mem_multiples_of_prime_card card_points (g := G) (g' := P) (Point.some_ne_zero _)
  refine ⟨k % fn, fn_mod_lt k, ?_⟩
  rw [← hk]
  show (k % fn) • G = k • G
  rw [nsmul_eq_nsmul_iff_modEq, order_base]
  exact Nat.mod_modEq k fn

end Qos.Conformance
