import Verif.Conformance.RealHash
import Mathlib.AlgebraicGeometry.EllipticCurve.Affine.Point
import Mathlib.Tactic.FieldSimp
import Mathlib.Tactic.LinearCombination
/-!
# The point arithmetic of `Curve.lean` is the group law of the elliptic curve P-256

Not part of the model: see `Sha.lean`. The group is Mathlib's: nonsingular affine points of a Weierstrass curve.
-/
namespace Qos.Conformance
open WeierstrassCurve.Affine

instance fpFact : Fact (Nat.Prime fp) := ⟨fp_prime⟩

/-- The field of P-256. -/
abbrev F := ZMod fp

/-- `y² = x³ - 3x + b`. -/
def p256 : WeierstrassCurve F := ⟨0, 0, 0, -3, (fb : F)⟩

/-- The points of the curve. -/
abbrev EPoint := p256.toAffine.Point

theorem fp_pos : 0 < fp := fp_prime.pos

theorem cast_neg {a : Nat} (h : a ≤ fp) : (((fp - a : Nat)) : F) = -(a : F) := by
  rw [Nat.cast_sub h, ZMod.natCast_self, zero_sub]

theorem cast_zero_iff {a : Nat} (h : a < fp) : (a : F) = 0 ↔ a = 0 := by
  rw [ZMod.natCast_eq_zero_iff]
  exact ⟨fun hd => Nat.eq_zero_of_dvd_of_lt hd h, fun h0 => h0 ▸ Nat.dvd_zero _⟩

theorem cast_eq_iff {a b : Nat} (ha : a < fp) (hb : b < fp) : (a : F) = (b : F) ↔ a = b := by
  rw [ZMod.natCast_eq_natCast_iff', Nat.mod_eq_of_lt ha, Nat.mod_eq_of_lt hb]

theorem mod_lt (a : Nat) : a % fp < fp := Nat.mod_lt _ fp_pos

theorem cast_mod (a : Nat) : ((a % fp : Nat) : F) = (a : F) := ZMod.natCast_mod a fp

theorem two_ne : (2 : F) ≠ 0 := by
  have : ((2 : Nat) : F) ≠ 0 := by
    rw [Ne, cast_zero_iff (by decide +kernel)]; decide
  exact_mod_cast this

theorem equation_p256 (x y : F) : p256.toAffine.Equation x y ↔ y ^ 2 = x ^ 3 - 3 * x + (fb : F) := by
  rw [equation_iff]
  simp only [WeierstrassCurve.toAffine, p256]
  constructor <;> intro h <;> linear_combination h

theorem disc_ne : p256.Δ ≠ 0 := by
  have h : p256.Δ = -((16 * ((fp - 108 : Nat) + 27 * fb * fb) : Nat) : F) := by
    simp only [WeierstrassCurve.Δ, WeierstrassCurve.b₂, WeierstrassCurve.b₄, WeierstrassCurve.b₆, WeierstrassCurve.b₈, p256]
    push_cast [cast_neg (show 108 ≤ fp by decide +kernel)]
    ring
  rw [h, neg_ne_zero, Ne, ZMod.natCast_eq_zero_iff]
  decide +kernel

theorem nonsingular_p256 {x y : F} (h : y ^ 2 = x ^ 3 - 3 * x + (fb : F)) : p256.toAffine.Nonsingular x y :=
  (equation_iff_nonsingular_of_Δ_ne_zero disc_ne).mp ((equation_p256 x y).mpr h)

/-- Jacobian coordinates `p` stand for the point `P`. -/
inductive Rep : Pt → EPoint → Prop
  | zero (x y : Nat) : Rep ⟨x, y, 0⟩ 0
  | some (x y z : Nat) (X Y : F) (h : p256.toAffine.Nonsingular X Y) (hz : z ≠ 0) (hl : z < fp)
      (hx : (x : F) = X * (z : F) ^ 2) (hy : (y : F) = Y * (z : F) ^ 3) : Rep ⟨x, y, z⟩ (.some X Y h)

theorem dbl_z (x y z : Nat) : (Pt.dbl ⟨x, y, z⟩).z < fp ∧ ((Pt.dbl ⟨x, y, z⟩).z : F) = 2 * y * z := by
  simp only [Pt.dbl, force_eq]
  refine ⟨mod_lt _, ?_⟩
  rw [cast_mod]
  push_cast [cast_neg (mod_lt _).le, cast_mod]
  ring

theorem dbl_x (x y z : Nat) : ((Pt.dbl ⟨x, y, z⟩).x : F) = (3 * (x - z ^ 2) * (x + z ^ 2)) ^ 2 - 8 * (x * y ^ 2) := by
  simp only [Pt.dbl, force_eq]
  rw [cast_mod]
  push_cast [cast_neg (mod_lt _).le, cast_mod, Nat.add_sub_assoc (mod_lt (z * z)).le]
  ring

theorem dbl_y (x y z : Nat) : ((Pt.dbl ⟨x, y, z⟩).y : F) =
    (3 * (x - z ^ 2) * (x + z ^ 2)) * (4 * (x * y ^ 2) - (Pt.dbl ⟨x, y, z⟩).x) - 8 * y ^ 4 := by
  simp only [Pt.dbl, force_eq]
  rw [cast_mod]
  push_cast [cast_neg (mod_lt _).le, cast_mod, Nat.add_sub_assoc (mod_lt (z * z)).le]
  ring

theorem Rep.mk_zero (p : Pt) (h : p.z = 0) : Rep p 0 := by
  cases p with
  | mk x y z => cases h; exact .zero x y

theorem Rep.mk_some (p : Pt) {X Y : F} (h : p256.toAffine.Nonsingular X Y) (hz : p.z ≠ 0) (hl : p.z < fp)
    (hx : (p.x : F) = X * (p.z : F) ^ 2) (hy : (p.y : F) = Y * (p.z : F) ^ 3) : Rep p (.some X Y h) := by
  cases p with
  | mk x y z => exact .some x y z X Y h hz hl hx hy

/-- Doubling is doubling. -/
theorem Rep.dbl {p : Pt} {P : EPoint} (h : Rep p P) : Rep p.dbl (P + P) := by
  cases h with
  | zero x y =>
    rw [add_zero]
    apply Rep.mk_zero
    have hz := dbl_z x y 0
    rw [← cast_zero_iff hz.1, hz.2]; simp
  | some x y z X Y h hz hl hx hy =>
    have hz3 := dbl_z x y z
    have hz0 : (z : F) ≠ 0 := fun h => hz ((cast_zero_iff hl).mp h)
    by_cases hY : Y = 0
    · rw [Point.add_self_of_Y_eq (by simp [negY, hY, p256])]
      apply Rep.mk_zero
      rw [← cast_zero_iff hz3.1, hz3.2, hy, hY]; ring
    · have hneg : Y ≠ p256.toAffine.negY X Y := by
        simp only [negY, p256, WeierstrassCurve.toAffine]
        intro h
        have : 2 * Y = 0 := by linear_combination h
        exact (mul_ne_zero two_ne hY) this
      rw [Point.add_self_of_Y_ne hneg]
      have hs : p256.toAffine.slope X X Y Y = (3 * X ^ 2 - 3) / (2 * Y) := by
        rw [slope_of_Y_ne rfl hneg]
        simp only [negY, p256, WeierstrassCurve.toAffine]
        have e1 : (3 * X ^ 2 + 2 * 0 * X + -3 - 0 * Y : F) = 3 * X ^ 2 - 3 := by ring
        have e2 : (Y - (-Y - 0 * X - 0) : F) = 2 * Y := by ring
        rw [e1, e2]
      have hd : ((Pt.dbl ⟨x, y, z⟩).x : F) = ((3 * X ^ 2 - 3) ^ 2 - 8 * X * Y ^ 2) * (z : F) ^ 8 := by
        rw [dbl_x, hx, hy]; ring
      have hzz : ((Pt.dbl ⟨x, y, z⟩).z : F) = 2 * Y * (z : F) ^ 4 := by rw [hz3.2, hy]; ring
      have h2 := two_ne
      refine Rep.mk_some _ _ ?_ hz3.1 ?_ ?_
      · intro h0
        have := (cast_zero_iff hz3.1).mpr h0
        rw [hzz] at this
        exact mul_ne_zero (mul_ne_zero two_ne hY) (pow_ne_zero _ hz0) this
      · rw [hd, hzz, addX, hs]
        simp only [p256, WeierstrassCurve.toAffine]
        field_simp
        ring
      · rw [dbl_y, hd, hzz, addY, negAddY, negY, addX, hs, hx, hy]
        simp only [p256, WeierstrassCurve.toAffine]
        field_simp
        ring

/-- Addition is addition. -/
theorem Rep.add {p q : Pt} {P Q : EPoint} (hp : Rep p P) (hq : Rep q Q) : Rep (Pt.add p q) (P + Q) := by
  cases hp with
  | zero x y => rw [zero_add]; cases q; exact hq
  | some x1 y1 z1 X1 Y1 h1 hz1 hl1 hx1 hy1 =>
  cases hq with
  | zero x y =>
    rw [add_zero]
    have : Pt.add ⟨x1, y1, z1⟩ ⟨x, y, 0⟩ = ⟨x1, y1, z1⟩ := by
      rw [Pt.add, if_neg hz1, if_pos rfl]
    rw [this]
    exact .some x1 y1 z1 X1 Y1 h1 hz1 hl1 hx1 hy1
  | some x2 y2 z2 X2 Y2 h2 hz2 hl2 hx2 hy2 =>
    have hn1 : (z1 : F) ≠ 0 := fun h => hz1 ((cast_zero_iff hl1).mp h)
    have hn2 : (z2 : F) ≠ 0 := fun h => hz2 ((cast_zero_iff hl2).mp h)
    have hu1 : ((x1 * (z2 * z2 % fp) % fp : Nat) : F) = X1 * ((z1 : F) * z2) ^ 2 := by
      rw [cast_mod]; push_cast [cast_mod]; rw [hx1]; ring
    have hu2 : ((x2 * (z1 * z1 % fp) % fp : Nat) : F) = X2 * ((z1 : F) * z2) ^ 2 := by
      rw [cast_mod]; push_cast [cast_mod]; rw [hx2]; ring
    have hs1 : ((y1 * z2 * (z2 * z2 % fp) % fp : Nat) : F) = Y1 * ((z1 : F) * z2) ^ 3 := by
      rw [cast_mod]; push_cast [cast_mod]; rw [hy1]; ring
    have hs2 : ((y2 * z1 * (z1 * z1 % fp) % fp : Nat) : F) = Y2 * ((z1 : F) * z2) ^ 3 := by
      rw [cast_mod]; push_cast [cast_mod]; rw [hy2]; ring
    have hzz : ((z1 : F) * z2) ≠ 0 := mul_ne_zero hn1 hn2
    simp only [Pt.add, force_eq, if_neg hz1, if_neg hz2]
    have lu1 := mod_lt (x1 * (z2 * z2 % fp))
    have lu2 := mod_lt (x2 * (z1 * z1 % fp))
    have ls1 := mod_lt (y1 * z2 * (z2 * z2 % fp))
    have ls2 := mod_lt (y2 * z1 * (z1 * z1 % fp))
    generalize x1 * (z2 * z2 % fp) % fp = u1 at *
    generalize x2 * (z1 * z1 % fp) % fp = u2 at *
    generalize y1 * z2 * (z2 * z2 % fp) % fp = s1 at *
    generalize y2 * z1 * (z1 * z1 % fp) % fp = s2 at *
    have hX : u1 = u2 ↔ X1 = X2 := by
      rw [← cast_eq_iff lu1 lu2, hu1, hu2, mul_left_inj' (pow_ne_zero _ hzz)]
    have hY : s1 = s2 ↔ Y1 = Y2 := by
      rw [← cast_eq_iff ls1 ls2, hs1, hs2, mul_left_inj' (pow_ne_zero _ hzz)]
    by_cases hxx : X1 = X2
    · rw [if_pos (hX.mpr hxx)]
      by_cases hyy : Y1 = Y2
      · rw [if_pos (hY.mpr hyy)]
        subst hxx hyy
        exact Rep.dbl (.some x1 y1 z1 X1 Y1 h1 hz1 hl1 hx1 hy1)
      · rw [if_neg (fun h => hyy (hY.mp h))]
        have := (Y_eq_of_X_eq h1.1 h2.1 hxx).resolve_left hyy
        rw [Point.add_of_Y_eq hxx this]
        exact .zero 1 1
    · rw [if_neg (fun h => hxx (hX.mp h)), Point.add_of_X_ne hxx]
      have hsl : p256.toAffine.slope X1 X2 Y1 Y2 = (Y2 - Y1) / (X2 - X1) := by
        rw [slope_of_X_ne hxx, ← neg_sub Y2 Y1, ← neg_sub X2 X1, neg_div_neg_eq]
      have hd : X2 - X1 ≠ 0 := fun h => hxx (sub_eq_zero.mp h).symm
      have hh : (((u2 + (fp - u1)) % fp : Nat) : F) = (X2 - X1) * ((z1 : F) * z2) ^ 2 := by
        rw [cast_mod]; push_cast [cast_neg lu1.le]; rw [hu1, hu2]; ring
      have hr : (((s2 + (fp - s1)) % fp : Nat) : F) = (Y2 - Y1) * ((z1 : F) * z2) ^ 3 := by
        rw [cast_mod]; push_cast [cast_neg ls1.le]; rw [hs1, hs2]; ring
      generalize (u2 + (fp - u1)) % fp = h at *
      generalize (s2 + (fp - s1)) % fp = r at *
      have h3z : ((h * z1 * z2 % fp : Nat) : F) = (X2 - X1) * ((z1 : F) * z2) ^ 3 := by
        rw [cast_mod]; push_cast; rw [hh]; ring
      have h3x : (((r * r + (fp - h * (h * h % fp) % fp) + 2 * (fp - u1 * (h * h % fp) % fp)) % fp : Nat) : F) =
          ((Y2 - Y1) ^ 2 - (X2 - X1) ^ 2 * (X1 + X2)) * ((z1 : F) * z2) ^ 6 := by
        rw [cast_mod]; push_cast [cast_neg (mod_lt _).le, cast_mod]; rw [hh, hr, hu1]; ring
      refine Rep.mk_some _ _ ?_ (mod_lt _) ?_ ?_
      · intro h0
        have := (cast_zero_iff (mod_lt _)).mpr h0
        rw [h3z] at this
        exact mul_ne_zero hd (pow_ne_zero _ hzz) this
      · show ((_ : Nat) : F) = _ * ((_ : Nat) : F) ^ 2
        rw [h3x, h3z, addX, hsl]
        simp only [p256, WeierstrassCurve.toAffine]
        field_simp
        ring
      · show ((_ : Nat) : F) = _ * ((_ : Nat) : F) ^ 3
        rw [h3z, cast_mod]
        push_cast [cast_neg (mod_lt _).le, cast_neg (mod_lt (r * r + (fp - h * (h * h % fp) % fp) + 2 * (fp - u1 * (h * h % fp) % fp))).le]
        rw [h3x, hr, hs1, cast_mod, cast_mod]
        push_cast [cast_mod]
        rw [hh, hu1, addY, negAddY, negY, addX, hsl]
        simp only [p256, WeierstrassCurve.toAffine]
        field_simp
        ring

theorem Rep.mulFrom {q : Pt} {Q : EPoint} (hq : Rep q Q) (k n : Nat) {acc : Pt} {A : EPoint} (ha : Rep acc A) :
    Rep (q.mulFrom k n acc) ((2 ^ n) • A + (k % 2 ^ n) • Q) := by
  induction n generalizing acc A with
  | zero => simpa [Pt.mulFrom, Nat.mod_one] using ha
  | succ n ih =>
    have hs : k % 2 ^ (n + 1) = k % 2 ^ n + 2 ^ n * (k / 2 ^ n % 2) := by rw [pow_succ, Nat.mod_mul]
    have hd := ha.dbl
    rw [Pt.mulFrom]
    simp only [Nat.shiftRight_eq_div_pow]
    rcases Nat.mod_two_eq_zero_or_one (k / 2 ^ n) with h | h
    · rw [if_neg (by omega)]
      have := ih hd
      have e : (2 ^ n) • (A + A) + (k % 2 ^ n) • Q = (2 ^ (n + 1)) • A + (k % 2 ^ (n + 1)) • Q := by
        rw [hs, h, ← two_nsmul, ← mul_nsmul', pow_succ, mul_zero, add_zero]
      rw [← e]; exact this
    · rw [if_pos h]
      have := ih (hd.add hq)
      have e : (2 ^ n) • (A + A + Q) + (k % 2 ^ n) • Q = (2 ^ (n + 1)) • A + (k % 2 ^ (n + 1)) • Q := by
        rw [hs, h, Nat.mul_one, nsmul_add, ← two_nsmul, ← mul_nsmul', pow_succ, add_nsmul, add_assoc, add_comm (2 ^ n • Q)]
      rw [← e]; exact this

/-- Multiplication is multiplication. -/
theorem Rep.mul {q : Pt} {Q : EPoint} (hq : Rep q Q) (k : Nat) (hk : k < 2 ^ 256) : Rep (Pt.mul k q) (k • Q) := by
  have := hq.mulFrom k 256 (.zero 1 1)
  rw [Nat.mod_eq_of_lt hk, nsmul_zero, zero_add] at this
  rw [Pt.mul, force_eq]
  exact this

end Qos.Conformance
