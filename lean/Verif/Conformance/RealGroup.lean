import Verif.Conformance.RealCurve
import Mathlib.GroupTheory.OrderOfElement
/-!
# Encoded points, the order of the base point, and Diffie-Hellman

Not part of the model: see `Sha.lean`.
-/
namespace Qos.Conformance
open WeierstrassCurve.Affine

theorem inv_cast (m x : Nat) [hm : Fact m.Prime] (hl : m < 2 ^ 256) (hx : (x : ZMod m) ≠ 0) :
    ((inv m x : Nat) : ZMod m) = (x : ZMod m)⁻¹ := by
  have h2 := hm.out.two_le
  rw [inv, powMod_cast, Nat.mod_eq_of_lt (by omega), Nat.cast_one, one_pow, one_mul]
  apply eq_inv_of_mul_eq_one_left
  rw [← pow_succ, show m - 2 + 1 = m - 1 by omega]
  exact ZMod.pow_card_sub_one_eq_one hx

/-- The coordinates of a point, as numbers below the field prime. -/
def coords : EPoint → Option (Nat × Nat)
  | .zero => none
  | .some X Y _ => some (X.val, Y.val)

theorem fp_lt : fp < 2 ^ 256 := by decide +kernel

theorem val_of {a : Nat} {X : F} (ha : a < fp) (h : (a : F) = X) : X.val = a := by
  rw [← h, ZMod.val_natCast, Nat.mod_eq_of_lt ha]

/-- Affine coordinates are the coordinates of the point. -/
theorem Rep.affine {p : Pt} {P : EPoint} (h : Rep p P) : p.affine = coords P := by
  cases h with
  | zero x y => rw [Pt.affine, if_pos rfl]; rfl
  | some x y z X Y h hz hl hx hy =>
    have hz0 : (z : F) ≠ 0 := fun h => hz ((cast_zero_iff hl).mp h)
    have hi := inv_cast fp z fp_lt hz0
    simp only [Pt.affine, if_neg hz, force_eq, coords]
    rw [val_of (mod_lt _) (a := x * (inv fp z * inv fp z % fp) % fp) (X := X),
      val_of (mod_lt _) (a := y * (inv fp z * inv fp z % fp) * inv fp z % fp) (X := Y)]
    · rw [cast_mod]; push_cast [cast_mod]; rw [hi, hy]; field_simp
    · rw [cast_mod]; push_cast [cast_mod]; rw [hi, hx]; field_simp

theorem Rep.eq_zero {p : Pt} {P : EPoint} (h : Rep p P) (hz : p.z = 0) : P = 0 := by
  cases h with
  | zero x y => rfl
  | some x y z X Y h hz' hl hx hy => exact absurd hz hz'

theorem onCurve_iff (x y : Nat) : y * y % fp = (x * x * x + (fp - 3) * x + fb) % fp ↔
    (y : F) ^ 2 = (x : F) ^ 3 - 3 * (x : F) + (fb : F) := by
  have h := ZMod.natCast_eq_natCast_iff' (y * y) (x * x * x + (fp - 3) * x + fb) fp
  rw [← h]
  push_cast [cast_neg (show 3 ≤ fp by decide +kernel)]
  constructor <;> intro h <;> linear_combination h

/-- The base point. -/
def G : EPoint := .some (gx : F) (gy : F) (nonsingular_p256 ((onCurve_iff gx gy).mp (by decide +kernel)))

theorem rep_affine {x y : Nat} (h : p256.toAffine.Nonsingular (x : F) (y : F)) : Rep ⟨x, y, 1⟩ (.some (x : F) (y : F) h) :=
  Rep.mk_some _ _ Nat.one_ne_zero (show 1 < fp from fp_prime.one_lt) (by simp) (by simp)

theorem rep_base : Rep base G := rep_affine _

theorem fn_lt : fn < 2 ^ 256 := by decide +kernel

theorem order_base : addOrderOf G = fn := by
  have : Fact fn.Prime := ⟨fn_prime⟩
  apply addOrderOf_eq_prime
  · exact (rep_base.mul fn fn_lt).eq_zero (by decide +kernel)
  · exact Point.some_ne_zero _

theorem smul_base_ne {k : Nat} (h : 0 < k) (hl : k < fn) : k • G ≠ 0 := by
  intro h0
  have := addOrderOf_dvd_of_nsmul_eq_zero h0
  rw [order_base] at this
  exact absurd (Nat.le_of_dvd h this) (by omega)

theorem coords_some {P : EPoint} (h : P ≠ 0) : ∃ x y, coords P = some (x, y) := by
  cases P with
  | zero => exact absurd rfl h
  | some X Y h => exact ⟨_, _, rfl⟩

theorem coords_lt {P : EPoint} {x y : Nat} (h : coords P = some (x, y)) : x < fp ∧ y < fp := by
  cases P with
  | zero => cases h
  | some X Y hn =>
    have e := Option.some.inj h
    have e1 := congrArg Prod.fst e
    have e2 := congrArg Prod.snd e
    simp only at e1 e2
    rw [← e1, ← e2]
    exact ⟨ZMod.val_lt X, ZMod.val_lt Y⟩

theorem coords_rep {P : EPoint} {x y : Nat} (h : coords P = some (x, y)) : Rep ⟨x, y, 1⟩ P := by
  cases P with
  | zero => cases h
  | some X Y hn =>
    have e := Option.some.inj h
    have e1 := congrArg Prod.fst e
    have e2 := congrArg Prod.snd e
    simp only at e1 e2
    subst e1 e2
    refine Rep.mk_some _ _ Nat.one_ne_zero (show 1 < fp from fp_prime.one_lt) ?_ ?_ <;> simp [ZMod.natCast_zmod_val]

theorem coords_curve {P : EPoint} {x y : Nat} (h : coords P = some (x, y)) :
    y * y % fp = (x * x * x + (fp - 3) * x + fb) % fp := by
  rw [onCurve_iff, ← equation_p256]
  cases P with
  | zero => cases h
  | some X Y hn =>
    have e := Option.some.inj h
    have e1 := congrArg Prod.fst e
    have e2 := congrArg Prod.snd e
    simp only at e1 e2
    subst e1 e2
    simpa [ZMod.natCast_zmod_val] using hn.1

theorem ofBeFrom_be (k : Nat) : ∀ a n, ofBeFrom a (be k n) = a * 256 ^ k + n % 256 ^ k := by
  induction k with
  | zero => intro a n; simp [be, ofBeFrom, Nat.mod_one]
  | succ k ih =>
    intro a n
    have hb : (UInt8.ofNat ((n >>> (8 * k)) % 256)).toNat = n / 256 ^ k % 256 := by
      rw [UInt8.toNat_ofNat', Nat.shiftRight_eq_div_pow, pow_mul]
      norm_num
    have hs : n % 256 ^ (k + 1) = n % 256 ^ k + 256 ^ k * (n / 256 ^ k % 256) := by rw [pow_succ, Nat.mod_mul]
    simp only [be, force_eq, ofBeFrom]
    rw [hb, ih, hs]
    ring

theorem ofBe_be {n : Nat} (h : n < 2 ^ 256) : ofBe (be 32 n) = n := by
  rw [ofBe, ofBeFrom_be, Nat.zero_mul, Nat.zero_add]
  exact Nat.mod_eq_of_lt (by norm_num at h ⊢; exact h)

theorem ofBeFrom_lt (bs : List UInt8) : ∀ a, ofBeFrom a bs < (a + 1) * 256 ^ bs.length := by
  induction bs with
  | nil => intro a; simp [ofBeFrom]
  | cons b r ih =>
    intro a
    simp only [ofBeFrom, force_eq, List.length_cons]
    have hb := b.toNat_lt
    refine lt_of_lt_of_le (ih _) ?_
    rw [pow_succ', ← mul_assoc]
    exact Nat.mul_le_mul_right _ (by omega)

theorem ofBe_lt {bs : List UInt8} (h : bs.length = 32) : ofBe bs < 2 ^ 256 := by
  have := ofBeFrom_lt bs 0
  rw [h] at this
  norm_num at this ⊢
  exact this

/-- What is written reads back. -/
theorem readPoint_sec1 {P : EPoint} (h : P ≠ 0) : readPoint (sec1 (coords P)) = coords P := by
  obtain ⟨x, y, hc⟩ := coords_some h
  have hl := coords_lt hc
  have hx : (be 32 x ++ be 32 y).take 32 = be 32 x := by
    rw [List.take_left' (be_length 32 x)]
  have hy : (be 32 x ++ be 32 y).drop 32 = be 32 y := by
    rw [List.drop_left' (be_length 32 x)]
  have hp := fp_lt
  simp only [hc, sec1, readPoint, force_eq]
  rw [hx, hy, ofBe_be (by omega), ofBe_be (by omega), if_pos]
  refine ⟨?_, hl.1, hl.2, coords_curve hc⟩
  rw [List.length_append, be_length, be_length]

theorem scalarOk_iff (s : List UInt8) : scalarOk s = true ↔ s.length = 32 ∧ 0 < ofBe s ∧ ofBe s < fn := by
  simp [scalarOk, and_assoc]

theorem scalar_ne {s : List UInt8} (h : scalarOk s = true) : ofBe s • G ≠ 0 :=
  smul_base_ne ((scalarOk_iff s).mp h).2.1 ((scalarOk_iff s).mp h).2.2

theorem point_eq {s : List UInt8} (h : scalarOk s = true) : point s = sec1 (coords (ofBe s • G)) := by
  rw [point, (rep_base.mul _ (lt_trans ((scalarOk_iff s).mp h).2.2 fn_lt)).affine]

theorem readPoint_point {s : List UInt8} (h : scalarOk s = true) : readPoint (point s) = coords (ofBe s • G) := by
  rw [point_eq h, readPoint_sec1 (scalar_ne h)]

theorem point_length {s : List UInt8} (h : scalarOk s = true) : (point s).length = 65 := by
  obtain ⟨x, y, hc⟩ := coords_some (scalar_ne h)
  rw [point_eq h, hc, sec1, List.length_cons, List.length_append, be_length, be_length]

theorem point_ok {s : List UInt8} (h : scalarOk s = true) : (readPoint (point s)).isSome = true := by
  obtain ⟨x, y, hc⟩ := coords_some (scalar_ne h)
  rw [readPoint_point h, hc]; rfl

/-- The `x` coordinate, as ECDH returns it. -/
def sharedX : Option (Nat × Nat) → List UInt8
  | some (x, _) => be 32 x
  | none => []

theorem dh_eq {a b : List UInt8} (ha : scalarOk a = true) (hb : scalarOk b = true) :
    dh a (point b) = sharedX (coords (ofBe a • ofBe b • G)) := by
  obtain ⟨x, y, hc⟩ := coords_some (scalar_ne hb)
  have hm := ((coords_rep hc).mul _ (lt_trans ((scalarOk_iff a).mp ha).2.2 fn_lt)).affine
  rw [dh, readPoint_point hb, hc]
  show (match (Pt.mul (ofBe a) ⟨x, y, 1⟩).affine with | some (x, _) => be 32 x | none => []) = _
  rw [hm]
  cases coords (ofBe a • ofBe b • G) with
  | none => rfl
  | some q => rfl

/-- Both sides of a Diffie-Hellman exchange compute the same secret. -/
theorem dh_comm {a b : List UInt8} (ha : scalarOk a = true) (hb : scalarOk b = true) : dh a (point b) = dh b (point a) := by
  rw [dh_eq ha hb, dh_eq hb ha, ← mul_nsmul', ← mul_nsmul', Nat.mul_comm]

end Qos.Conformance
