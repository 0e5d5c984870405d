import Verif.Conformance.RealGroup
/-!
# The standard primitives satisfy what the theorems assume of the primitives

Every theorem about every `Prims` satisfying `Prims.Laws` therefore holds of SHA-2, HMAC, HKDF, AES-256-GCM, P-256 ECDH
and ECDSA as the standards define them.
-/
namespace Qos.Conformance
open WeierstrassCurve.Affine

instance fnFact : Fact (Nat.Prime fn) := ⟨fn_prime⟩

theorem fn_pos : 0 < fn := fn_prime.pos

theorem fn_mod_lt (a : Nat) : a % fn < fn := Nat.mod_lt _ fn_pos

theorem cast_fn_zero {a : Nat} (h : a < fn) : (a : ZMod fn) = 0 ↔ a = 0 := by
  rw [ZMod.natCast_eq_zero_iff]
  exact ⟨fun hd => Nat.eq_zero_of_dvd_of_lt hd h, fun h0 => h0 ▸ Nat.dvd_zero _⟩

/-- The second half of a signature. -/
def half (h d k r : Nat) : Nat := inv fn k * ((h + r * d) % fn) % fn

theorem half_cast {k : Nat} (h d r : Nat) (hk : 0 < k) (hl : k < fn) :
    ((half h d k r : Nat) : ZMod fn) = (k : ZMod fn)⁻¹ * ((h : ZMod fn) + r * d) := by
  have hk0 : (k : ZMod fn) ≠ 0 := fun h => by rw [cast_fn_zero hl] at h; omega
  rw [half, ZMod.natCast_mod]
  push_cast [ZMod.natCast_mod]
  rw [inv_cast fn k fn_lt hk0]

theorem signWith_iff (h d k : Nat) (sig : List UInt8) : signWith h d k = some sig ↔
    0 < k ∧ k < fn ∧ ∃ x y, coords (k • G) = some (x, y) ∧ x % fn ≠ 0 ∧ half h d k (x % fn) ≠ 0 ∧
      sig = be 32 (x % fn) ++ be 32 (half h d k (x % fn)) := by
  rw [signWith]
  by_cases hk : 0 < k ∧ k < fn
  · rw [if_pos hk, (rep_base.mul k (lt_trans hk.2 fn_lt)).affine]
    obtain ⟨x, y, hc⟩ := coords_some (smul_base_ne hk.1 hk.2)
    rw [hc]
    simp only [force_eq]
    show (if x % fn = 0 ∨ half h d k (x % fn) = 0 then none else some (be 32 (x % fn) ++ be 32 (half h d k (x % fn)))) = _ ↔ _
    by_cases h0 : x % fn = 0 ∨ half h d k (x % fn) = 0
    · rw [if_pos h0]
      constructor
      · intro e; cases e
      · rintro ⟨_, _, x', y', e, h1, h2, _⟩
        cases Option.some.inj e
        exact absurd h0 (not_or.mpr ⟨h1, h2⟩)
    · rw [if_neg h0]
      constructor
      · intro e; exact ⟨hk.1, hk.2, x, y, rfl, (not_or.mp h0).1, (not_or.mp h0).2, (Option.some.inj e).symm⟩
      · rintro ⟨_, _, x', y', e, h1, h2, e'⟩
        cases Option.some.inj e
        rw [e']
  · rw [if_neg hk]
    constructor
    · intro e; cases e
    · rintro ⟨h1, h2, _⟩; exact absurd ⟨h1, h2⟩ hk

theorem readSig_be {r s : Nat} (hr : 0 < r) (hr' : r < fn) (hs : 0 < s) (hs' : s < fn) :
    readSig (be 32 r ++ be 32 s) = some (r, s) := by
  have hp := fn_lt
  simp only [readSig, force_eq]
  rw [List.take_left' (be_length 32 r), List.drop_left' (be_length 32 r), ofBe_be (by omega), ofBe_be (by omega), if_pos]
  refine ⟨?_, hr, hr', hs, hs'⟩
  rw [List.length_append, be_length, be_length]

theorem readSig_length {sig : List UInt8} (h : (readSig sig).isSome = true) : sig.length = 64 := by
  simp only [readSig, force_eq] at h
  by_cases hc : sig.length = 64 ∧ 0 < ofBe (sig.take 32) ∧ ofBe (sig.take 32) < fn ∧ 0 < ofBe (sig.drop 32) ∧ ofBe (sig.drop 32) < fn
  · exact hc.1
  · rw [if_neg hc] at h; cases h

/-- A signature with a usable nonce reads as a signature and verifies. -/
theorem signWith_verifies {secret msg sig : List UInt8} {k : Nat} (hs : scalarOk secret = true)
    (h : signWith (ofBe (sha256 msg)) (ofBe secret) k = some sig) :
    (readSig sig).isSome = true ∧ ecdsaVerify (point secret) msg sig = true := by
  obtain ⟨hk, hkl, x, y, hc, hr, hh, rfl⟩ := (signWith_iff _ _ _ _).mp h
  generalize hH : ofBe (sha256 msg) = H at *
  generalize hd : ofBe secret = d at *
  have hrl := fn_mod_lt x
  have hsl : half H d k (x % fn) < fn := fn_mod_lt _
  have hsc := half_cast H d (x % fn) hk hkl
  generalize half H d k (x % fn) = s at *
  have hread : readSig (be 32 (x % fn) ++ be 32 s) = some (x % fn, s) :=
    readSig_be (Nat.pos_of_ne_zero hr) hrl (Nat.pos_of_ne_zero hh) hsl
  refine ⟨by rw [hread]; rfl, ?_⟩
  obtain ⟨qx, qy, hq⟩ := coords_some (scalar_ne hs)
  have hq' := hq
  rw [hd] at hq'
  simp only [ecdsaVerify, readPoint_point hs, hq, hread, force_eq, hH]
  have hu1 := fn_mod_lt (H * inv fn s)
  have hu2 := fn_mod_lt (x % fn * inv fn s)
  have hs0 : (s : ZMod fn) ≠ 0 := fun h => hh ((cast_fn_zero hsl).mp h)
  have hk0 : (k : ZMod fn) ≠ 0 := fun h => by rw [cast_fn_zero hkl] at h; omega
  have hw := inv_cast fn s fn_lt hs0
  have hrep := (rep_base.mul _ (lt_trans hu1 fn_lt)).add ((coords_rep hq').mul _ (lt_trans hu2 fn_lt))
  have hpt : (H * inv fn s % fn) • G + (x % fn * inv fn s % fn) • d • G = k • G := by
    rw [← mul_nsmul', ← add_nsmul, nsmul_eq_nsmul_iff_modEq, order_base, ← ZMod.natCast_eq_natCast_iff]
    push_cast [ZMod.natCast_mod]
    rw [hw]
    have e : (k : ZMod fn) * s = (H : ZMod fn) + ((x % fn : Nat) : ZMod fn) * d := by
      rw [hsc]; field_simp
    have e2 : ((x % fn : Nat) : ZMod fn) = (x : ZMod fn) := ZMod.natCast_mod x fn
    rw [e2] at e
    field_simp
    linear_combination -e
  rw [hpt] at hrep
  rw [hrep.affine, hc]
  simp

theorem signWith_none {h d k x y : Nat} (hk : 0 < k) (hkl : k < fn) (hc : (Pt.mul k base).affine = some (x, y))
    (hr : x % fn ≠ 0) (hn : signWith h d k = none) : (h : ZMod fn) + ((x % fn : Nat) : ZMod fn) * d = 0 := by
  have hc' : coords (k • G) = some (x, y) := by rw [← hc, (rep_base.mul k (lt_trans hkl fn_lt)).affine]
  have hh : half h d k (x % fn) = 0 := by
    by_contra h0
    have := (signWith_iff h d k _).mpr ⟨hk, hkl, x, y, hc', hr, h0, rfl⟩
    rw [hn] at this
    cases this
  have hcast := half_cast h d (x % fn) hk hkl
  rw [hh, Nat.cast_zero] at hcast
  have hk0 : (k : ZMod fn) ≠ 0 := fun h => by rw [cast_fn_zero hkl] at h; omega
  exact (mul_eq_zero.mp hcast.symm).resolve_left (inv_ne_zero hk0)

/-- The point 2G. -/
def twoG : Nat × Nat := ((Pt.mul 2 base).affine).getD (0, 0)

/-- One of the nonces 1 and 2 is usable. -/
theorem fallback (h d : Nat) (hd : 0 < d) (hl : d < fn) : ∃ sig, (signWith h d 1).or (signWith h d 2) = some sig := by
  cases h1 : signWith h d 1 with
  | some sig => exact ⟨sig, rfl⟩
  | none =>
    cases h2 : signWith h d 2 with
    | some sig => exact ⟨sig, rfl⟩
    | none =>
      exfalso
      have e1 := signWith_none (x := gx) (y := gy) (by decide) (by decide +kernel) (by decide +kernel) (by decide +kernel) h1
      have e2 := signWith_none (x := twoG.1) (y := twoG.2) (by decide) (by decide +kernel) (by decide +kernel) (by decide +kernel) h2
      have hd0 : (d : ZMod fn) ≠ 0 := fun h => by rw [cast_fn_zero hl] at h; omega
      have e3 : (((gx % fn : Nat) : ZMod fn) - ((twoG.1 % fn : Nat) : ZMod fn)) * d = 0 := by linear_combination e1 - e2
      have e4 := sub_eq_zero.mp ((mul_eq_zero.mp e3).resolve_right hd0)
      rw [ZMod.natCast_eq_natCast_iff'] at e4
      exact absurd e4 (by decide +kernel)

theorem signFrom_verifies {secret msg : List UInt8} (hs : scalarOk secret = true) (n : Nat) (k v : List UInt8) :
    (readSig (signFrom (ofBe (sha256 msg)) (ofBe secret) n k v)).isSome = true ∧
    ecdsaVerify (point secret) msg (signFrom (ofBe (sha256 msg)) (ofBe secret) n k v) = true := by
  induction n generalizing k v with
  | zero =>
    obtain ⟨_, h1, h2⟩ := (scalarOk_iff secret).mp hs
    obtain ⟨sig, hsig⟩ := fallback (ofBe (sha256 msg)) (ofBe secret) h1 h2
    rw [signFrom, hsig, Option.getD_some]
    rcases Option.or_eq_some_iff.mp hsig with h | ⟨_, h⟩
    · exact signWith_verifies hs h
    · exact signWith_verifies hs h
  | succ n ih =>
    rw [signFrom]
    cases hw : signWith (ofBe (sha256 msg)) (ofBe secret) (ofBe (hmac256 k v)) with
    | some sig => exact signWith_verifies hs hw
    | none => exact ih _ _

theorem ecdsaSign_verifies {secret : List UInt8} (msg : List UInt8) (hs : scalarOk secret = true) :
    (readSig (ecdsaSign secret msg)).isSome = true ∧ ecdsaVerify (point secret) msg (ecdsaSign secret msg) = true := by
  rw [ecdsaSign, force_eq]
  exact signFrom_verifies hs _ _ _

/-- SHA-2, HMAC, HKDF, AES-256-GCM, and ECDH and ECDSA over P-256, satisfy everything assumed of the primitives. -/
theorem realLaws : realPrims.Laws where
  sha256_length := sha256_length
  sha384_length := sha384_length
  sha512_length := sha512_length
  point_length := fun _ h => point_length h
  point_ok := fun _ h => point_ok h
  dh_comm := fun _ _ ha hb => dh_comm ha hb
  aes_dec_enc := aesDec_aesEnc
  hmac_length := hmac512_length
  aes_enc_ok := fun k n ad m hk hn _ _ => aesEnc_ok k n ad m hk hn
  sign_ok := fun _ m h => (ecdsaSign_verifies m h).1
  sig_length := fun _ h => readSig_length h
  verify_sign := fun _ m h => (ecdsaSign_verifies m h).2

end Qos.Conformance
