import Verif.Conformance.RealOrder
import Verif.Props.KeyFormat
/-!
# C80: the keys, with the standard algorithms

The other claims are about every family of primitives that satisfies `Prims.Laws`. Here the primitives are the ones of the
standards: SHA-2 (FIPS 180-4), HMAC and HKDF (RFC 2104, 5869), AES-256-GCM (FIPS 197, SP 800-38D), and ECDH and deterministic
ECDSA over P-256 (FIPS 186-4, RFC 6979), as defined in `Verif/Conformance/{Sha,Curve,Real}.lean` and checked there against the
repository's vectors. The curve and its group law are Mathlib's.
-/
namespace Qos.Standard
open Conformance P256 WeierstrassCurve.Affine

/-- C80: everything the other claims assume of the primitives is true of the standard ones. -/
theorem laws_hold : realPrims.Laws := realLaws

/-- C80: with the standard algorithms, every message below 2 GiB can be encrypted to the key of every pair, and that pair
decrypts the ciphertext to the message. -/
theorem round_trip (seed msg : Bytes) (k : Pair) (r : SealRandom) (hk : Derived realPrims seed k) (hr : r.Ok realPrims)
    (hm : msg.length < 2 ^ 31) :
    ∃ ct, (k.publicKey realPrims).encrypt realPrims r msg = .ok ct ∧ k.decrypt realPrims ct = .ok msg := by
  have hs := (pair_exact _ _ _).mpr hk
  obtain ⟨ct, h⟩ := encrypt_total realPrims realLaws _ msg _ r (public_of_pair realPrims realLaws seed k hs).1 hr hm
  exact ⟨ct, h, decrypt_encrypt realPrims realLaws seed msg ct k r hs hr h⟩

/-- C80: with the standard algorithms, what a pair signs verifies under its public key. -/
theorem signature_verifies (seed msg : Bytes) (k : Pair) (hk : Derived realPrims seed k) :
    (k.publicKey realPrims).verify realPrims msg (k.sign realPrims msg) = .ok () :=
  pair_sign_verifies realPrims realLaws seed msg k ((pair_exact _ _ _).mpr hk)

/-! ## Secrets and public keys -/

theorem ofBeFrom_injective (s t : List UInt8) (hl : s.length = t.length) (a b : Nat) (h : ofBeFrom a s = ofBeFrom b t) :
    a = b ∧ s = t := by
  induction s generalizing t a b with
  | nil =>
    cases t with
    | nil => exact ⟨h, rfl⟩
    | cons => cases hl
  | cons x s ih =>
    cases t with
    | nil => cases hl
    | cons y t =>
      simp only [ofBeFrom, force_eq] at h
      obtain ⟨h1, rfl⟩ := ih t (by simpa using hl) _ _ h
      have hx := x.toNat_lt
      have hy := y.toNat_lt
      exact ⟨by omega, by rw [UInt8.toNat_inj.mp (show x.toNat = y.toNat by omega)]⟩

theorem sec1_coords_injective {P Q : EPoint} (hP : P ≠ 0) (hQ : Q ≠ 0) (h : sec1 (coords P) = sec1 (coords Q)) :
    coords P = coords Q := by
  rw [← readPoint_sec1 hP, ← readPoint_sec1 hQ, h]

theorem coords_injective {P Q : EPoint} (h : coords P = coords Q) : P = Q := by
  cases P with
  | zero => cases Q with
    | zero => rfl
    | some X Y hn => cases h
  | some X Y hn => cases Q with
    | zero => cases h
    | some X' Y' hn' =>
      have e := Option.some.inj h
      have e1 := ZMod.val_injective fp (congrArg Prod.fst e)
      have e2 := ZMod.val_injective fp (congrArg Prod.snd e)
      subst e1 e2
      rfl

/-- C80: two secrets never have the same public point. -/
theorem secret_of_point (a b : Bytes) (ha : realPrims.scalarOk a = true) (hb : realPrims.scalarOk b = true)
    (h : realPrims.point a = realPrims.point b) : a = b := by
  have ha' : scalarOk a = true := ha
  have hb' : scalarOk b = true := hb
  have h' : point a = point b := h
  rw [point_eq ha', point_eq hb'] at h'
  have hP := coords_injective (sec1_coords_injective (scalar_ne ha') (scalar_ne hb') h')
  rw [nsmul_eq_nsmul_iff_modEq, order_base] at hP
  obtain ⟨la, _, a2⟩ := (scalarOk_iff a).mp ha'
  obtain ⟨lb, _, b2⟩ := (scalarOk_iff b).mp hb'
  have : ofBe a = ofBe b := by
    have := hP
    rw [Nat.ModEq, Nat.mod_eq_of_lt a2, Nat.mod_eq_of_lt b2] at this
    exact this
  exact (ofBeFrom_injective a b (by rw [la, lb]) 0 0 this).2

/-- C80: two pairs with the same public key have the same two secrets, so each opens what was meant for the other. -/
theorem public_key_determines_secrets (seed seed' : Bytes) (k k' : Pair) (hk : Derived realPrims seed k)
    (hk' : Derived realPrims seed' k') (h : (k.publicKey realPrims).toBytes = (k'.publicKey realPrims).toBytes) :
    k.encSecret = k'.encSecret ∧ k.signSecret = k'.signSecret := by
  have hl := realLaws.point_length k.encSecret hk.scalars.1
  have hl' := realLaws.point_length k'.encSecret hk'.scalars.1
  have ⟨h1, h2⟩ := List.append_inj h (by show (realPrims.point _).length = (realPrims.point _).length; rw [hl, hl'])
  exact ⟨secret_of_point _ _ hk.scalars.1 hk'.scalars.1 h1, secret_of_point _ _ hk.scalars.2 hk'.scalars.2 h2⟩

/-- C80: the bytes accepted as a point are exactly the uncompressed encodings of the points of the curve other than zero. -/
theorem valid_points (b : Bytes) : realPrims.pointOk b = true ↔
    ∃ (X Y : ZMod fp), Y ^ 2 = X ^ 3 - 3 * X + (fb : ZMod fp) ∧ b = 4 :: (be 32 X.val ++ be 32 Y.val) := by
  show (readPoint b).isSome = true ↔ _
  constructor
  · intro h
    rw [readPoint.eq_def] at h
    split at h
    · rename_i r
      simp only [force_eq] at h
      by_cases hc : r.length = 64 ∧ ofBe (r.take 32) < fp ∧ ofBe (r.drop 32) < fp ∧
          ofBe (r.drop 32) * ofBe (r.drop 32) % fp =
            (ofBe (r.take 32) * ofBe (r.take 32) * ofBe (r.take 32) + (fp - 3) * ofBe (r.take 32) + fb) % fp
      · obtain ⟨hl, hx, hy, he⟩ := hc
        refine ⟨(ofBe (r.take 32) : Nat), (ofBe (r.drop 32) : Nat), (onCurve_iff _ _).mp he, ?_⟩
        rw [ZMod.val_natCast, ZMod.val_natCast, Nat.mod_eq_of_lt hx, Nat.mod_eq_of_lt hy]
        have h1 : (r.take 32).length = 32 := by rw [List.length_take, hl]; rfl
        have h2 : (r.drop 32).length = 32 := by rw [List.length_drop, hl]
        have e1 : be 32 (ofBe (r.take 32)) = r.take 32 :=
          (ofBeFrom_injective _ _ (by rw [be_length, h1]) 0 0 (ofBe_be (ofBe_lt h1))).2
        have e2 : be 32 (ofBe (r.drop 32)) = r.drop 32 :=
          (ofBeFrom_injective _ _ (by rw [be_length, h2]) 0 0 (ofBe_be (ofBe_lt h2))).2
        rw [e1, e2, List.take_append_drop]
      · rw [if_neg hc] at h; cases h
    · cases h
  · rintro ⟨X, Y, he, rfl⟩
    have := readPoint_sec1 (P := .some X Y (nonsingular_p256 he)) (Point.some_ne_zero _)
    simp only [coords, sec1] at this
    rw [this]; rfl

/-- C80: the bytes accepted as a point are exactly the public points of the valid secrets: nobody can give a key that has no
secret, or a point of small order. -/
theorem every_point_has_a_secret (b : Bytes) :
    realPrims.pointOk b = true ↔ ∃ s, realPrims.scalarOk s = true ∧ b = realPrims.point s := by
  constructor
  · intro h
    obtain ⟨X, Y, he, rfl⟩ := (valid_points b).mp h
    obtain ⟨k, hk, hP⟩ := multiple_of_base (.some X Y (nonsingular_p256 he))
    have hofk : ofBe (be 32 k) = k := ofBe_be (lt_trans hk fn_lt)
    have hs : scalarOk (be 32 k) = true := by
      refine (scalarOk_iff _).mpr ⟨be_length 32 k, ?_, by rw [hofk]; exact hk⟩
      rw [hofk]
      refine Nat.pos_of_ne_zero fun h0 => ?_
      rw [h0, zero_nsmul] at hP
      exact Point.some_ne_zero _ hP.symm
    refine ⟨be 32 k, hs, ?_⟩
    show _ = point (be 32 k)
    rw [point_eq hs, hofk, hP]
    rfl
  · rintro ⟨s, hs, rfl⟩
    exact realLaws.point_ok s hs

/-- C80: a key exchange with any accepted point gives 32 bytes: the shared point is never the point at infinity. -/
theorem exchange_never_degenerates (a b : Bytes) (ha : realPrims.scalarOk a = true) (hb : realPrims.pointOk b = true) :
    (realPrims.dh a b).length = 32 := by
  obtain ⟨s, hs, rfl⟩ := (every_point_has_a_secret b).mp hb
  show (dh a (point s)).length = 32
  have ha' : scalarOk a = true := ha
  have hs' : scalarOk s = true := hs
  rw [dh_eq ha' hs']
  have hne : ofBe a • ofBe s • G ≠ 0 := by
    rw [← mul_nsmul']
    intro h0
    have hd := addOrderOf_dvd_of_nsmul_eq_zero h0
    rw [order_base] at hd
    obtain ⟨_, a1, a2⟩ := (scalarOk_iff a).mp ha'
    obtain ⟨_, s1, s2⟩ := (scalarOk_iff s).mp hs'
    rcases (Nat.Prime.dvd_mul fn_prime).mp hd with h | h
    · exact absurd (Nat.le_of_dvd a1 h) (by omega)
    · exact absurd (Nat.le_of_dvd s1 h) (by omega)
  obtain ⟨x, y, hc⟩ := coords_some hne
  rw [hc]
  exact be_length 32 x

/-! ## Authenticated decryption -/

/-- C80: a pair decrypts exactly the encryptions, under the key shared with their sender, of the message it returns: there
is no other ciphertext with the same nonce, sender and message, and none that decrypts to two messages. -/
theorem decrypts_only_encryptions (seed : Bytes) (k : Pair) (hk : Derived realPrims seed k) (buf m : Bytes) :
    k.decrypt realPrims buf = .ok m ↔ ∃ nonce sender body, Ciphertext nonce sender body buf ∧ realPrims.pointOk sender = true ∧
      realPrims.aesEnc (sharedKey realPrims sender (realPrims.point k.encSecret) (realPrims.dh k.encSecret sender)) nonce
        (sender ++ [65] ++ realPrims.point k.encSecret ++ [65]) m = some body := by
  rw [decrypt_exact realPrims realLaws seed k hk]
  have hiff : ∀ a b c d e, realPrims.aesDec a b c e = some d ↔ realPrims.aesEnc a b c d = some e :=
    fun a b c d e => aesDec_iff a b c d e
  simp only [hiff]

/-- C80: a pair decrypts exactly what can be encrypted to its public key: a byte string opens to `m` if and only if it is the
encryption of `m` with some valid randomness. -/
theorem decrypts_iff_encrypted (seed : Bytes) (k : Pair) (hk : Derived realPrims seed k) (buf m : Bytes) :
    k.decrypt realPrims buf = .ok m ↔
      ∃ r : SealRandom, r.Ok realPrims ∧ (k.publicKey realPrims).encrypt realPrims r m = .ok buf := by
  have hs := (pair_exact _ _ _).mpr hk
  constructor
  · intro h
    obtain ⟨nonce, sender, body, ⟨hn, _, hb, rfl⟩, hok, henc⟩ := (decrypts_only_encryptions seed k hk buf m).mp h
    obtain ⟨s, hsc, rfl⟩ := (every_point_has_a_secret sender).mp hok
    refine ⟨⟨s, nonce⟩, ⟨hsc, hn⟩, ?_⟩
    rw [ciphertext_format realPrims realLaws _ m _ _ ⟨s, nonce⟩ (public_of_pair realPrims realLaws seed k hs).1 ⟨hsc, hn⟩]
    refine ⟨body, ?_, hb, rfl⟩
    rw [← henc]
    show realPrims.aesEnc ((realPrims.hmac (realPrims.point s ++ realPrims.point k.encSecret ++
      realPrims.dh s (realPrims.point k.encSecret)) _).take 32) nonce _ m = _
    rw [realLaws.dh_comm s k.encSecret hsc hk.scalars.1]
    rfl
  · rintro ⟨r, hr, h⟩
    exact decrypt_encrypt realPrims realLaws seed m buf k r hs hr h

/-- C80: symmetric decryption, likewise. -/
theorem symmetric_decrypts_only_encryptions (key buf m : Bytes) :
    symOpen realPrims key buf = .ok m ↔ ∃ nonce body, SymmetricCiphertext nonce body buf ∧
      realPrims.aesEnc key nonce (ascii "qos_aes_gcm_256_hmac_sha512") m = some body := by
  rw [symmetric_decrypt_exact]
  have hiff : ∀ a b c d e, realPrims.aesDec a b c e = some d ↔ realPrims.aesEnc a b c d = some e :=
    fun a b c d e => aesDec_iff a b c d e
  simp only [hiff]

/-! ## Signatures -/

theorem coords_neg (P : EPoint) : (coords (-P)).map Prod.fst = (coords P).map Prod.fst := by
  cases P with
  | zero => rfl
  | some X Y h => rfl

/-- What verification decides, for the key of a valid secret: with `e` the digest and `(r, s)` the signature, the point
`(e + r·d)/s` times the base point has an `x` coordinate equal to `r` modulo the order. -/
theorem verify_iff (secret msg sig : Bytes) (hs : realPrims.scalarOk secret = true) :
    realPrims.ecdsaVerify (realPrims.point secret) msg sig = true ↔ ∃ r s, readSig sig = some (r, s) ∧
      ((coords ((((ofBe (sha256 msg) : ZMod fn) + r * ofBe secret) / s).val • G)).map Prod.fst).map (· % fn) = some r := by
  have hs' : scalarOk secret = true := hs
  show ecdsaVerify (point secret) msg sig = true ↔ _
  cases hread : readSig sig with
  | none =>
    have : ecdsaVerify (point secret) msg sig = false := by
      unfold ecdsaVerify; rw [hread]; cases readPoint (point secret) <;> rfl
    rw [this]
    simp
  | some q =>
    obtain ⟨r, s⟩ := q
    have hok : 0 < s ∧ s < fn := by
      simp only [readSig, force_eq] at hread
      split at hread
      · rename_i hc; cases hread; exact ⟨hc.2.2.2.1, hc.2.2.2.2⟩
      · cases hread
    obtain ⟨qx, qy, hq⟩ := coords_some (scalar_ne hs')
    simp only [ecdsaVerify, readPoint_point hs', hq, hread, force_eq]
    generalize ofBe (sha256 msg) = H
    have hs0 : (s : ZMod fn) ≠ 0 := fun h => by rw [cast_fn_zero hok.2] at h; omega
    have hw := inv_cast fn s fn_lt hs0
    have hrep := (rep_base.mul _ (lt_trans (fn_mod_lt (H * inv fn s)) fn_lt)).add
      ((coords_rep hq).mul _ (lt_trans (fn_mod_lt (r * inv fn s)) fn_lt))
    have hpt : (H * inv fn s % fn) • G + (r * inv fn s % fn) • ofBe secret • G =
        (((H : ZMod fn) + r * ofBe secret) / s).val • G := by
      rw [← mul_nsmul', ← add_nsmul, nsmul_eq_nsmul_iff_modEq, order_base, ← ZMod.natCast_eq_natCast_iff]
      push_cast [ZMod.natCast_mod, ZMod.natCast_zmod_val]
      rw [hw]
      field_simp
    rw [hpt] at hrep
    rw [hrep.affine]
    have hex : (((coords ((((H : ZMod fn) + r * ofBe secret) / s).val • G)).map Prod.fst).map (· % fn) = some r) ↔
        ∃ r' s', some (r, s) = some (r', s') ∧
          ((coords ((((H : ZMod fn) + r' * ofBe secret) / s').val • G)).map Prod.fst).map (· % fn) = some r' := by
      constructor
      · intro h; exact ⟨r, s, rfl, h⟩
      · rintro ⟨r', s', e, h⟩; cases e; exact h
    rw [← hex]
    generalize coords ((((H : ZMod fn) + r * ofBe secret) / s).val • G) = c
    cases c with
    | none => simp
    | some q => simp

theorem twin_point (e r d : ZMod fn) (s : Nat) (hs : s < fn) :
    (coords (((e + r * d) / ((fn - s : Nat) : ZMod fn)).val • G)).map Prod.fst =
      (coords (((e + r * d) / (s : ZMod fn)).val • G)).map Prod.fst := by
  have h1 : ((fn - s : Nat) : ZMod fn) = -(s : ZMod fn) := by
    rw [Nat.cast_sub hs.le, ZMod.natCast_self, zero_sub]
  have h2 : ((e + r * d) / ((fn - s : Nat) : ZMod fn)).val • G = -(((e + r * d) / (s : ZMod fn)).val • G) := by
    rw [h1, div_neg, eq_neg_iff_add_eq_zero, ← add_nsmul]
    apply addOrderOf_dvd_iff_nsmul_eq_zero.mp
    rw [order_base, ← ZMod.natCast_eq_zero_iff]
    push_cast [ZMod.natCast_zmod_val]
    ring
  rw [h2, coords_neg]

/-- C80: signatures are not unique: to every signature that verifies there is a second one, that anybody can compute from
the first, and that verifies too. So nothing may depend on the bytes of an approval being those its member made. -/
theorem signature_twin (secret msg sig : Bytes) (hs : realPrims.scalarOk secret = true)
    (hv : realPrims.ecdsaVerify (realPrims.point secret) msg sig = true) :
    ∃ twin, twin ≠ sig ∧ twin = sig.take 32 ++ be 32 (fn - ofBe (sig.drop 32)) ∧
      realPrims.ecdsaVerify (realPrims.point secret) msg twin = true := by
  refine ⟨sig.take 32 ++ be 32 (fn - ofBe (sig.drop 32)), ?_, rfl, ?_⟩
  all_goals
    obtain ⟨r, s, hread, hx⟩ := (verify_iff secret msg sig hs).mp hv
    have hc : (sig.length = 64 ∧ 0 < ofBe (sig.take 32) ∧ ofBe (sig.take 32) < fn ∧ 0 < ofBe (sig.drop 32) ∧ ofBe (sig.drop 32) < fn) ∧
        r = ofBe (sig.take 32) ∧ s = ofBe (sig.drop 32) := by
      simp only [readSig, force_eq] at hread
      split at hread
      · rename_i hc; cases hread; exact ⟨hc, rfl, rfl⟩
      · cases hread
    obtain ⟨⟨hl, r1, r2, s1, s2⟩, hr, hsv⟩ := hc
    have htl : (sig.take 32).length = 32 := by rw [List.length_take, hl]; rfl
    have hfn := fn_lt
  · intro he
    have h2 : be 32 (fn - ofBe (sig.drop 32)) = sig.drop 32 := by
      have := congrArg (List.drop 32) he
      rwa [List.drop_left' htl] at this
    have h3 := congrArg ofBe h2
    rw [ofBe_be (by omega)] at h3
    have hodd : fn % 2 = 1 := by decide +kernel
    omega
  · rw [verify_iff _ _ _ hs]
    refine ⟨r, fn - s, ?_, ?_⟩
    · have e : sig.take 32 = be 32 r :=
        ((ofBeFrom_injective _ _ (by rw [be_length, htl]) 0 0 (by
          rw [hr]; exact ofBe_be (lt_trans r2 fn_lt))).2).symm
      rw [← hsv, e]
      exact readSig_be (hr ▸ r1) (hr ▸ r2) (by omega) (by omega)
    · rw [twin_point _ _ _ s (hsv ▸ s2)]
      exact hx

/-- C80: the same, of the verification of every public key that can be read. -/
theorem verify_twin (bytes msg sig : Bytes) (k : Public) (hk : Public.fromBytes realPrims bytes = .ok k)
    (hv : k.verify realPrims msg sig = .ok ()) :
    ∃ twin, twin ≠ sig ∧ k.verify realPrims msg twin = .ok () := by
  obtain ⟨_, _, hp, _, he⟩ := (public_fromBytes_iff realPrims bytes k).mp hk
  rw [← he] at hp
  obtain ⟨s, hs, hps⟩ := (every_point_has_a_secret k.sign).mp hp
  unfold Public.verify at hv
  split at hv
  · split at hv
    · rename_i h1 h2
      rw [hps] at h2
      obtain ⟨twin, hne, _, ht⟩ := signature_twin s msg sig hs h2
      refine ⟨twin, hne, ?_⟩
      have hok : realPrims.sigOk twin = true := by
        obtain ⟨r, s', hr, _⟩ := (verify_iff s msg twin hs).mp ht
        show (readSig twin).isSome = true
        rw [hr]; rfl
      unfold Public.verify
      rw [if_pos hok, hps]
      exact if_pos ht
    · cases hv
  · cases hv

/-! ## Instances -/

/-- There are such pairs and such randomness: this seed gives a pair, these bytes are usable. -/
example : (∃ k, Derived realPrims (List.replicate 32 7) k) ∧
    SealRandom.Ok realPrims ⟨List.replicate 32 9, List.replicate 12 4⟩ := by
  obtain ⟨k, hk⟩ : ∃ k, Pair.fromMasterSeed realPrims (List.replicate 32 7) = .ok k := exists_ok (by decide +kernel)
  exact ⟨⟨k, (pair_exact _ _ _).mp hk⟩, by decide +kernel, rfl⟩

/-- A message goes through, and its signature has a twin. -/
example : ∃ k, Derived realPrims (List.replicate 32 7) k ∧
    (∃ ct, (k.publicKey realPrims).encrypt realPrims ⟨List.replicate 32 9, List.replicate 12 4⟩ (ascii "quorum") = .ok ct ∧
      k.decrypt realPrims ct = .ok (ascii "quorum")) ∧
    ∃ twin, twin ≠ k.sign realPrims (ascii "quorum") ∧ (k.publicKey realPrims).verify realPrims (ascii "quorum") twin = .ok () := by
  obtain ⟨k, hk⟩ : ∃ k, Pair.fromMasterSeed realPrims (List.replicate 32 7) = .ok k := exists_ok (by decide +kernel)
  have hd := (pair_exact _ _ _).mp hk
  refine ⟨k, hd, round_trip _ _ k _ hd ⟨by decide +kernel, rfl⟩ (by decide), ?_⟩
  exact verify_twin _ _ _ _ (public_of_pair realPrims realLaws _ k hk).1 (signature_verifies _ _ k hd)

/-- Two scalars, two points. -/
example : realPrims.point (List.replicate 32 9) ≠ realPrims.point (List.replicate 32 8) := fun h =>
  absurd (secret_of_point _ _ (by decide +kernel) (by decide +kernel) h) (by decide)

end Qos.Standard
