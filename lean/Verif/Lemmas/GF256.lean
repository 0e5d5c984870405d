import Verif.Model.Shamir
import Mathlib.Algebra.Field.Defs
import Mathlib.Algebra.CharP.Two
/-!
# GF(2^8) is a field

Products are additive in each argument, so the laws of multiplication need to be checked on the eight powers of
two only; the kernel does that by evaluation.
-/
namespace Qos.Shamir

/-- Byte-wise case distinction. -/
theorem byte_forall {P : UInt8 → Prop} (h : ∀ n : Fin 256, P (UInt8.ofNat n)) (b : UInt8) : P b := by
  have := h ⟨b.toNat, b.toNat_lt⟩
  simpa using this

theorem byte_and_cases (b : UInt8) : (b &&& 1 = 0 ∨ b &&& 1 = 1) ∧ (b &&& 2 = 0 ∨ b &&& 2 = 2) ∧
    (b &&& 4 = 0 ∨ b &&& 4 = 4) ∧ (b &&& 8 = 0 ∨ b &&& 8 = 8) ∧ (b &&& 16 = 0 ∨ b &&& 16 = 16) ∧
    (b &&& 32 = 0 ∨ b &&& 32 = 32) ∧ (b &&& 64 = 0 ∨ b &&& 64 = 64) ∧ (b &&& 128 = 0 ∨ b &&& 128 = 128) := by
  revert b; exact byte_forall (by decide +kernel)

theorem byte_bits (b : UInt8) : b = (b &&& 1) ^^^ (b &&& 2) ^^^ (b &&& 4) ^^^ (b &&& 8) ^^^ (b &&& 16) ^^^
    (b &&& 32) ^^^ (b &&& 64) ^^^ (b &&& 128) := by
  revert b; exact byte_forall (by decide +kernel)

/-- Additive. -/
structure Additive (f : UInt8 → UInt8) : Prop where
  add : ∀ a b, f (a ^^^ b) = f a ^^^ f b

theorem Additive.zero {f : UInt8 → UInt8} (h : Additive f) : f 0 = 0 := by
  have := h.add 0 0
  rw [UInt8.xor_self, UInt8.xor_self] at this
  exact this

/-- Additive functions that agree on the powers of two are equal. -/
theorem Additive.ext {f g : UInt8 → UInt8} (hf : Additive f) (hg : Additive g)
    (h : ∀ i : Fin 8, f (UInt8.ofNat (2 ^ i.val)) = g (UInt8.ofNat (2 ^ i.val))) (b : UInt8) : f b = g b := by
  have z : f 0 = g 0 := by rw [hf.zero, hg.zero]
  obtain ⟨h0, h1, h2, h3, h4, h5, h6, h7⟩ := byte_and_cases b
  rw [byte_bits b]
  simp only [hf.add, hg.add]
  have e : ∀ c d : UInt8, c = 0 ∨ c = d → f d = g d → f c = g c := by
    rintro c d (rfl | rfl) hd
    · exact z
    · exact hd
  rw [e _ _ h0 (h 0), e _ _ h1 (h 1), e _ _ h2 (h 2), e _ _ h3 (h 3), e _ _ h4 (h 4), e _ _ h5 (h 5),
    e _ _ h6 (h 6), e _ _ h7 (h 7)]

theorem and_xor (a b c : UInt8) : (a ^^^ b) &&& c = (a &&& c) ^^^ (b &&& c) := by
  rw [← UInt8.toBitVec_inj]
  simp only [UInt8.toBitVec_and, UInt8.toBitVec_xor]
  ext i hi
  simp only [BitVec.getElem_and, BitVec.getElem_xor]
  cases a.toBitVec[i] <;> cases b.toBitVec[i] <;> cases c.toBitVec[i] <;> rfl

theorem xor_comm4 (a b c d : UInt8) : (a ^^^ b) ^^^ (c ^^^ d) = (a ^^^ c) ^^^ (b ^^^ d) := by
  rw [UInt8.xor_assoc, UInt8.xor_assoc, ← UInt8.xor_assoc b, UInt8.xor_comm b c, UInt8.xor_assoc]

theorem xtime_additive : Additive xtime := by
  refine ⟨fun a b => ?_⟩
  unfold xtime
  rw [UInt8.shiftLeft_xor, and_xor, xor_comm4]
  congr 1
  obtain ⟨-, -, -, -, -, -, -, h1⟩ := byte_and_cases a
  obtain ⟨-, -, -, -, -, -, -, h2⟩ := byte_and_cases b
  rcases h1 with h1 | h1 <;> rcases h2 with h2 | h2 <;> rw [h1, h2] <;> decide

theorem mulBits_left (n : Nat) (b : UInt8) : Additive (fun a => mulBits n a b) := by
  induction n generalizing b with
  | zero => exact ⟨fun _ _ => by simp [mulBits]⟩
  | succ n ih =>
    refine ⟨fun x y => ?_⟩
    simp only [mulBits]
    rw [xtime_additive.add, (ih _).add, xor_comm4]
    congr 1
    by_cases h : b &&& 1 = 1
    · simp [h]
    · simp [h]

theorem mulBits_right (n : Nat) (a : UInt8) : Additive (fun b => mulBits n a b) := by
  induction n generalizing a with
  | zero => exact ⟨fun _ _ => by simp [mulBits]⟩
  | succ n ih =>
    refine ⟨fun x y => ?_⟩
    simp only [mulBits]
    rw [UInt8.shiftRight_xor, (ih _).add, xor_comm4, and_xor]
    congr 1
    have h1 := (byte_and_cases x).1
    have h2 := (byte_and_cases y).1
    rcases h1 with h1 | h1 <;> rcases h2 with h2 | h2 <;> rw [h1, h2] <;> simp

theorem mul_add_left (a b c : UInt8) : mul (a ^^^ b) c = mul a c ^^^ mul b c := (mulBits_left 8 c).add a b

theorem mul_add_right (a b c : UInt8) : mul a (b ^^^ c) = mul a b ^^^ mul a c := (mulBits_right 8 a).add b c

theorem mul_comm' (a b : UInt8) : mul a b = mul b a := by
  refine Additive.ext (f := fun a => mul a b) (g := fun a => mul b a) (mulBits_left 8 b) (mulBits_right 8 b) ?_ a
  intro i
  refine Additive.ext (f := fun b => mul _ b) (g := fun b => mul b _) (mulBits_right 8 _) (mulBits_left 8 _) ?_ b
  revert i
  decide +kernel

theorem mul_assoc' (a b c : UInt8) : mul (mul a b) c = mul a (mul b c) := by
  refine Additive.ext (f := fun a => mul (mul a b) c) (g := fun a => mul a (mul b c))
    ⟨fun x y => by simp only [mul_add_left]⟩ ⟨fun x y => by simp only [mul_add_left]⟩ ?_ a
  intro i
  refine Additive.ext (f := fun b => mul (mul _ b) c) (g := fun b => mul _ (mul b c))
    ⟨fun x y => by simp only [mul_add_left, mul_add_right]⟩
    ⟨fun x y => by simp only [mul_add_left, mul_add_right]⟩ ?_ b
  intro j
  refine Additive.ext (f := fun c => mul (mul _ _) c) (g := fun c => mul _ (mul _ c))
    ⟨fun x y => by simp only [mul_add_right]⟩
    ⟨fun x y => by simp only [mul_add_right]⟩ ?_ c
  revert i j
  decide +kernel

theorem mul_one' (a : UInt8) : mul a 1 = a := by
  refine Additive.ext (f := fun a => mul a 1) (g := fun a => a) (mulBits_left 8 1) ⟨fun _ _ => rfl⟩ ?_ a
  decide +kernel

theorem zero_mul' (a : UInt8) : mul 0 a = 0 := (mulBits_left 8 a).zero

/-- Bytes as field elements. -/
def GF := UInt8

instance : DecidableEq GF := inferInstanceAs (DecidableEq UInt8)
instance : Add GF := ⟨fun a b => HXor.hXor (α := UInt8) (β := UInt8) a b⟩
instance : Sub GF := ⟨fun a b => HXor.hXor (α := UInt8) (β := UInt8) a b⟩
instance : Neg GF := ⟨fun a => a⟩
instance : Zero GF := ⟨(0 : UInt8)⟩
instance : One GF := ⟨(1 : UInt8)⟩
instance : Mul GF := ⟨mul⟩

instance : CommRing GF where
  add_assoc a b c := UInt8.xor_assoc a b c
  add_comm a b := UInt8.xor_comm a b
  zero_add a := UInt8.zero_xor
  add_zero a := UInt8.xor_zero
  sub_eq_add_neg _ _ := rfl
  neg_add_cancel a := UInt8.xor_self
  mul_assoc := mul_assoc'
  mul_comm := mul_comm'
  one_mul a := (mul_comm' 1 a).trans (mul_one' a)
  mul_one := mul_one'
  zero_mul := zero_mul'
  mul_zero a := (mul_comm' a 0).trans (zero_mul' a)
  left_distrib a b c := mul_add_right a b c
  right_distrib a b c := mul_add_left a b c
  nsmul := nsmulRec
  zsmul := zsmulRec

/-- The model's power on field elements. -/
def gpow (a : GF) (n : Nat) : GF := pow a n

theorem gpow_eq (a : GF) (n : Nat) : gpow a n = a ^ n := by
  induction n with
  | zero => rw [pow_zero]; rfl
  | succ n ih => rw [pow_succ', ← ih]; rfl

/-- The 254th power by squaring. -/
def fastInv (a : GF) : GF :=
  let a2 := a * a
  let a4 := a2 * a2
  let a8 := a4 * a4
  let a16 := a8 * a8
  let a32 := a16 * a16
  let a64 := a32 * a32
  let a128 := a64 * a64
  a2 * (a4 * (a8 * (a16 * (a32 * (a64 * a128)))))

instance : Inv GF := ⟨inv⟩

theorem inv_eq_fastInv (a : GF) : a⁻¹ = fastInv a := by
  have h : fastInv a = a ^ 254 := by
    simp only [fastInv, ← pow_two, ← pow_mul, ← pow_add]
    exact congrArg (a ^ ·) (by decide)
  rw [h, ← gpow_eq]
  rfl

theorem mul_fastInv (a : GF) (h : a ≠ 0) : a * fastInv a = 1 := by
  revert h
  refine byte_forall (P := fun a : UInt8 => (show GF from a) ≠ 0 → (show GF from a) * fastInv a = 1) ?_ a
  decide +kernel

instance : Field GF where
  exists_pair_ne := ⟨0, 1, by decide⟩
  mul_inv_cancel a h := by rw [inv_eq_fastInv]; exact mul_fastInv a h
  inv_zero := by rw [inv_eq_fastInv]; decide +kernel
  nnqsmul := _
  nnqsmul_def _ _ := rfl
  qsmul := _
  qsmul_def _ _ := rfl

theorem gf_neg (a : GF) : -a = a := rfl

end Qos.Shamir
