import Verif.Model.P256
import Verif.Lemmas.Basic
import Verif.Lemmas.Borsh
import Verif.Lemmas.Hex
import Verif.Lemmas.Text
import Verif.Props.Hex
/-!
# C38: key and ciphertext encodings are unambiguous

Everything is stated for arbitrary primitives; functional laws of the primitives (`Prims.Laws`) are
hypotheses where a round trip needs them. `toyPrims` shows that the laws are satisfiable.
-/
namespace Qos.P256
open Qos

/-! ## A concrete model of the laws, used for the non-vacuity examples -/

/-- Exactly `n` bytes: the input cut or zero-padded. -/
def pad (n : Nat) (b : Bytes) : Bytes := b.take n ++ List.replicate (n - b.length) 0

theorem pad_length (n : Nat) (b : Bytes) : (pad n b).length = n := by
  simp [pad]; omega

/-- Insecure but lawful primitives. -/
def toyPrims : Prims where
  sha256 m := pad 32 m
  sha384 m := pad 48 m.reverse
  sha512 m := pad 64 m
  hkdf salt ikm := pad 32 (salt.take 12 ++ ikm)
  hmac k m := pad 64 (k ++ m)
  scalarOk s := s.length == 32
  point s := 4 :: (pad 32 s ++ pad 32 s)
  pointOk b := b.length == 65 && b.head? == some 4
  dh a b := List.zipWith (· + ·) (pad 32 a) (pad 32 (b.drop 1))
  aesEnc k n ad m := some (pad 16 (k ++ n ++ ad) ++ m)
  aesDec k n ad c := if c.take 16 = pad 16 (k ++ n ++ ad) then some (c.drop 16) else none
  ecdsaSign s m := pad 32 s ++ pad 32 m
  sigOk s := s.length == 64
  ecdsaVerify p m s := s == (p.drop 1).take 32 ++ pad 32 m

theorem pad_eq_self {n : Nat} {b : Bytes} (h : b.length = n) : pad n b = b := by
  subst h; simp [pad]

theorem toyLaws : toyPrims.Laws where
  sha256_length m := pad_length _ _
  sha384_length m := pad_length _ _
  sha512_length m := pad_length _ _
  point_length s _ := by simp [toyPrims, pad_length]
  point_ok s _ := by simp [toyPrims, pad_length]
  dh_comm a b ha hb := by
    have e : ∀ x : Bytes, x.length = 32 → pad 32 (pad 32 x ++ pad 32 x) = x := by
      intro x hx
      rw [pad_eq_self hx]
      simp [pad, hx]
    simp only [toyPrims, List.drop_succ_cons, List.drop_zero]
    have ha : a.length = 32 := by simpa [toyPrims] using ha
    have hb : b.length = 32 := by simpa [toyPrims] using hb
    rw [e b hb, e a ha, pad_eq_self ha, pad_eq_self hb, List.zipWith_comm]
    simp [UInt8.add_comm]
  aes_dec_enc k n ad m c h := by
    simp only [toyPrims, Option.some.injEq] at h ⊢
    subst h
    rw [List.take_append_of_le_length (by rw [pad_length])]
    rw [List.take_of_length_le (by rw [pad_length]), if_pos rfl,
      List.drop_append_of_le_length (by rw [pad_length]), List.drop_of_length_le (by rw [pad_length])]
    rfl
  hmac_length k m := pad_length _ _
  aes_enc_ok k n ad m _ _ _ _ := ⟨_, rfl, by simp [pad_length]; omega⟩
  sign_ok s m _ := by simp [toyPrims, pad_length]
  sig_length s h := by simpa [toyPrims] using h
  verify_sign s m _ := by simp [toyPrims, List.take_append_of_le_length, pad_length, List.take_of_length_le]

/-! ## Public keys -/

theorem componentFromBytes_iff (p : Prims) (b c : Bytes) :
    componentFromBytes p b = .ok c ↔ b.length = 65 ∧ p.pointOk b ∧ c = b := by
  unfold componentFromBytes
  split
  · simp; omega
  · split
    · simp; omega
    · split <;> rename_i h <;> simp [h, eq_comm] <;> omega

/-- A byte string is accepted as a public key exactly when it is 130 bytes: two valid points, the encryption
point first; the key read is those two halves. -/
theorem public_fromBytes_iff (p : Prims) (b : Bytes) (k : Public) :
    Public.fromBytes p b = .ok k ↔
      b.length = 130 ∧ p.pointOk (b.take 65) ∧ p.pointOk (b.drop 65) ∧ k.enc = b.take 65 ∧ k.sign = b.drop 65 := by
  obtain ⟨ke, ks⟩ := k
  unfold Public.fromBytes
  by_cases g1 : b.length > 130
  · rw [if_pos g1]; simp; omega
  · rw [if_neg g1]
    by_cases g2 : b.length < 130
    · rw [if_pos g2]; simp; omega
    · rw [if_neg g2]
      have hl : b.length = 130 := by omega
      cases he : componentFromBytes p (b.take 65) with
      | error x =>
        have hno : ¬ p.pointOk (b.take 65) := fun h => by
          have := (componentFromBytes_iff p (b.take 65) (b.take 65)).2 ⟨by simp; omega, h, rfl⟩
          rw [he] at this; cases this
        simp [hno]
      | ok e =>
        have ⟨_, h1, h1'⟩ := (componentFromBytes_iff p _ _).1 he
        cases hs : componentFromBytes p (b.drop 65) with
        | error x =>
          have hno : ¬ p.pointOk (b.drop 65) := fun h => by
            have := (componentFromBytes_iff p (b.drop 65) (b.drop 65)).2 ⟨by simp; omega, h, rfl⟩
            rw [hs] at this; cases this
          simp [hno]
        | ok s =>
          have ⟨_, h2, h2'⟩ := (componentFromBytes_iff p _ _).1 hs
          subst h1' h2'
          simp [hl, h1, h2, eq_comm]

/-- Reading a public key and writing it back gives the same bytes. -/
theorem public_reencode (p : Prims) (b : Bytes) (k : Public) (h : Public.fromBytes p b = .ok k) :
    k.toBytes = b := by
  obtain ⟨_, _, _, h1, h2⟩ := (public_fromBytes_iff p b k).1 h
  simp [Public.toBytes, h1, h2]

/-- Two byte strings never read as the same key. -/
theorem public_fromBytes_injective (p : Prims) (a b : Bytes) (k : Public)
    (ha : Public.fromBytes p a = .ok k) (hb : Public.fromBytes p b = .ok k) : a = b := by
  rw [← public_reencode p a k ha, public_reencode p b k hb]

/-- The public key of every key pair is readable, and read back unchanged. -/
theorem public_of_pair (p : Prims) (hp : p.Laws) (seed : Bytes) (k : Pair)
    (h : Pair.fromMasterSeed p seed = .ok k) :
    Public.fromBytes p (k.publicKey p).toBytes = .ok (k.publicKey p) ∧ (k.publicKey p).toBytes.length = 130 := by
  unfold Pair.fromMasterSeed at h
  split at h
  · split at h
    · rename_i h1 h2
      simp only [Except.ok.injEq] at h
      subst h
      have l1 := hp.point_length _ h1
      have l2 := hp.point_length _ h2
      refine ⟨(public_fromBytes_iff _ _ _).2 ?_, by simp [Public.toBytes, Pair.publicKey, l1, l2]⟩
      simp only [Pair.publicKey, Public.toBytes]
      rw [List.take_append_of_le_length (by omega), List.take_of_length_le (by omega),
        List.drop_append_of_le_length (by omega), List.drop_of_length_le (by omega)]
      simp [l1, l2, hp.point_ok _ h1, hp.point_ok _ h2]
    · cases h
  · cases h

/-- The pair made from a seed keeps exactly that seed. -/
theorem pair_seed (p : Prims) (seed : Bytes) (k : Pair) (h : Pair.fromMasterSeed p seed = .ok k) :
    k.seed = seed := by
  unfold Pair.fromMasterSeed at h
  split at h
  · split at h
    · simp only [Except.ok.injEq] at h; subst h; rfl
    · cases h
  · cases h

theorem pair_scalars (p : Prims) (seed : Bytes) (k : Pair) (h : Pair.fromMasterSeed p seed = .ok k) :
    p.scalarOk k.encSecret ∧ p.scalarOk k.signSecret := by
  unfold Pair.fromMasterSeed at h
  split at h
  · split at h
    · rename_i h1 h2
      simp only [Except.ok.injEq] at h; subst h; exact ⟨h1, h2⟩
    · cases h
  · cases h

example : ∃ k, Pair.fromMasterSeed toyPrims (List.replicate 32 7) = .ok k := ⟨_, rfl⟩
example : Public.fromBytes toyPrims (List.replicate 130 4) = .ok ⟨List.replicate 65 4, List.replicate 65 4⟩ := by
  decide +kernel
example : Public.fromBytes toyPrims (List.replicate 131 4) = .error .encodedPublicKeyTooLong := by decide +kernel

/-! ## Signatures -/

/-- What a pair signs verifies under its public key. -/
theorem pair_sign_verifies (p : Prims) (hp : p.Laws) (seed msg : Bytes) (k : Pair)
    (h : Pair.fromMasterSeed p seed = .ok k) : (k.publicKey p).verify p msg (k.sign p msg) = .ok () := by
  have ⟨_, hs⟩ := pair_scalars p seed k h
  simp [Public.verify, Pair.sign, Pair.publicKey, hp.sign_ok _ _ hs, hp.verify_sign _ _ hs]

/-! ## Associated data and key derivation -/

/-- The associated data determines sender and receiver, whatever their lengths (below 256). -/
theorem aad_injective (s r s' r' a : Bytes) (h : aad s r = .ok a) (h' : aad s' r' = .ok a) :
    s = s' ∧ r = r' := by
  unfold aad at h h'
  split at h
  · split at h
    · split at h'
      · split at h'
        · rename_i hs hr hs' hr'
          simp only [Except.ok.injEq] at h h'
          rw [← h'] at h
          have small : ∀ n m : Nat, n < 256 → m < 256 → UInt8.ofNat n = UInt8.ofNat m → n = m := by
            intro n m hn hm e
            have := congrArg UInt8.toNat e
            simpa [UInt8.toNat_ofNat, Nat.mod_eq_of_lt hn, Nat.mod_eq_of_lt hm] using this
          have ⟨e1, e2⟩ := List.append_inj' h rfl
          have hrl : r.length = r'.length := small _ _ hr hr' (by simpa using e2)
          have ⟨e3, e4⟩ := List.append_inj' e1 hrl
          have ⟨e5, e6⟩ := List.append_inj' e3 rfl
          exact ⟨e5, e4⟩
        · cases h'
      · cases h'
    · cases h
  · cases h

/-- For keys of the fixed length used, the key-derivation input determines sender, receiver and secret. -/
theorem kdf_injective (s r x s' r' x' : Bytes) (hs : s.length = 65) (hs' : s'.length = 65)
    (hr : r.length = 65) (hr' : r'.length = 65)
    (h : kdfPreImage s r x = kdfPreImage s' r' x') : s = s' ∧ r = r' ∧ x = x' := by
  unfold kdfPreImage at h
  have ⟨e1, e2⟩ := List.append_inj h (by simp; omega)
  have ⟨e3, e4⟩ := List.append_inj e1 (by omega)
  exact ⟨e3, e4, e2⟩

/-- Without the fixed length the key-derivation input alone would be ambiguous (there is no separator): the
guarantee rests on every point being 65 bytes. -/
theorem kdf_needs_fixed_length : ∃ s r s' r' x, s ≠ s' ∧ kdfPreImage s r x = kdfPreImage s' r' x :=
  ⟨[1], [2, 3], [1, 2], [3], [], by decide, by decide⟩

/-- Asymmetric and symmetric ciphertexts never share associated data. -/
theorem aad_domain_separated (s r : Bytes) (hs : s.length = 65) (hr : r.length = 65) :
    ∃ a, aad s r = .ok a ∧ a ≠ symTag := by
  refine ⟨s ++ [UInt8.ofNat s.length] ++ r ++ [UInt8.ofNat r.length], by simp [aad, hs, hr], ?_⟩
  intro e
  have := congrArg List.length e
  simp [hs, hr] at this
  revert this
  decide

/-! ## Ciphertexts -/

theorem lawful_sealed : Borsh.Lawful sealedCodec :=
  Borsh.lawful_imap (Borsh.lawful_pair (Borsh.lawful_fixed 12)
    (Borsh.lawful_pair (Borsh.lawful_fixed 65) Borsh.lawful_bytes)) (fun _ => rfl) (fun _ _ => rfl)

theorem lawful_sym : Borsh.Lawful symCodec := Borsh.lawful_pair (Borsh.lawful_fixed 12) Borsh.lawful_bytes

/-- What is encrypted to the public key of a pair is decrypted by that pair to the same message. -/
theorem decrypt_encrypt (p : Prims) (hp : p.Laws) (seed msg ct : Bytes) (k : Pair) (r : SealRandom)
    (hk : Pair.fromMasterSeed p seed = .ok k) (hr : r.Ok p)
    (h : (k.publicKey p).encrypt p r msg = .ok ct) : k.decrypt p ct = .ok msg := by
  have ⟨hsk, _⟩ := pair_scalars p seed k hk
  unfold Public.encrypt sealTo at h
  simp only [Pair.publicKey] at h
  cases ha : aad (p.point r.scalar) (p.point k.encSecret) with
  | error e => simp [ha] at h
  | ok ad =>
    simp only [ha] at h
    split at h
    · cases h
    · rename_i c hc
      split at h
      · rename_i hlen
        simp only [Except.ok.injEq] at h
        subst h
        have hok : sealedCodec.ok ⟨r.nonce, p.point r.scalar, c⟩ :=
          ⟨hr.2, hp.point_length _ hr.1, hlen⟩
        unfold Pair.decrypt openSealed
        rw [Borsh.tryFromSlice_enc lawful_sealed hok]
        simp only [hp.point_ok _ hr.1, if_true, ha]
        rw [hp.dh_comm _ _ hsk hr.1, hp.aes_dec_enc _ _ _ _ _ hc]
      · cases h

theorem cipherKey_length (p : Prims) (hp : p.Laws) (shared sender receiver : Bytes) :
    (cipherKey p shared sender receiver).length = 32 := by
  unfold cipherKey
  rw [List.length_take, hp.hmac_length]
  rfl

/-- Every message below 2 GiB can be encrypted to every readable public key, with any usable randomness. -/
theorem encrypt_total (p : Prims) (hp : p.Laws) (bytes msg : Bytes) (k : Public) (r : SealRandom)
    (hk : Public.fromBytes p bytes = .ok k) (hr : r.Ok p) (hm : msg.length < 2 ^ 31) :
    ∃ ct, k.encrypt p r msg = .ok ct := by
  obtain ⟨hl, _, _, he, _⟩ := (public_fromBytes_iff p bytes k).1 hk
  have h1 : (p.point r.scalar).length < 256 := by rw [hp.point_length _ hr.1]; omega
  have h2 : k.enc.length < 256 := by rw [he]; simp
  unfold Public.encrypt sealTo aad
  simp only [if_pos h1, if_pos h2]
  obtain ⟨c, hc, hlen⟩ := hp.aes_enc_ok (cipherKey p (p.dh r.scalar k.enc) (p.point r.scalar) k.enc) r.nonce
    (p.point r.scalar ++ [UInt8.ofNat (p.point r.scalar).length] ++ k.enc ++ [UInt8.ofNat k.enc.length]) msg
    (cipherKey_length p hp _ _ _) hr.2 (by simp only [List.length_append, List.length_cons, List.length_nil]; omega) hm
  simp only [hc]
  rw [if_pos (by omega)]
  exact ⟨_, rfl⟩

/-- A ciphertext is 97 bytes longer than the message. -/
theorem encrypt_length (p : Prims) (hp : p.Laws) (bytes msg ct : Bytes) (k : Public) (r : SealRandom)
    (hk : Public.fromBytes p bytes = .ok k) (hr : r.Ok p) (hm : msg.length < 2 ^ 31) (h : k.encrypt p r msg = .ok ct) :
    ct.length = msg.length + 97 := by
  obtain ⟨hl, _, _, he, _⟩ := (public_fromBytes_iff p bytes k).1 hk
  have h0 := hp.point_length _ hr.1
  have h1 : (p.point r.scalar).length < 256 := by rw [h0]; omega
  have h2 : k.enc.length < 256 := by rw [he]; simp
  unfold Public.encrypt sealTo aad at h
  simp only [if_pos h1, if_pos h2] at h
  obtain ⟨c, hc, hlen⟩ := hp.aes_enc_ok (cipherKey p (p.dh r.scalar k.enc) (p.point r.scalar) k.enc) r.nonce
    (p.point r.scalar ++ [UInt8.ofNat (p.point r.scalar).length] ++ k.enc ++ [UInt8.ofNat k.enc.length]) msg
    (cipherKey_length p hp _ _ _) hr.2 (by simp only [List.length_append, List.length_cons, List.length_nil]; omega) hm
  simp only [hc] at h
  rw [if_pos (by omega)] at h
  have h := Except.ok.inj h
  subst h
  have hn := hr.2
  show (r.nonce ++ (p.point r.scalar ++ (leBytes 4 c.length ++ c))).length = _
  simp only [List.length_append, leBytes_length]
  omega

/-- Decryption succeeds only on bytes that are exactly one ciphertext envelope: 12-byte nonce, valid 65-byte
sender point, length-prefixed body, nothing after it. -/
theorem decrypt_only_envelopes (p : Prims) (k : Pair) (buf m : Bytes) (h : k.decrypt p buf = .ok m) :
    ∃ nonce sender body ad, nonce.length = 12 ∧ sender.length = 65 ∧ p.pointOk sender ∧
      buf = nonce ++ sender ++ (leBytes 4 body.length ++ body) ∧ aad sender (p.point k.encSecret) = .ok ad ∧
      p.aesDec (cipherKey p (p.dh k.encSecret sender) sender (p.point k.encSecret)) nonce ad body = some m := by
  unfold Pair.decrypt openSealed at h
  cases ht : Borsh.tryFromSlice sealedCodec buf with
  | none => simp [ht] at h
  | some s =>
    simp only [ht] at h
    have ⟨e, ok⟩ := Borsh.tryFromSlice_some lawful_sealed ht
    split at h
    · rename_i hpt
      cases ha : aad s.senderPublic (p.point k.encSecret) with
      | error x => simp [ha] at h
      | ok ad =>
        simp only [ha] at h
        split at h
        · cases h
        · rename_i m' hm
          simp only [Except.ok.injEq] at h
          subst h
          refine ⟨s.nonce, s.senderPublic, s.encryptedMessage, ad, ok.1, ok.2.1, hpt, ?_, ha, hm⟩
          rw [e]
          simp [sealedCodec, Borsh.imap, Borsh.pair, Borsh.fixed, Borsh.bytes]
    · cases h

/-- The whole format of a ciphertext, spelled out: nonce, sender point, length, body; the AES key is the first 32 bytes of the
HMAC, keyed with sender point, receiver point and shared secret in this order, of the fixed text; the associated data are the two
points, each followed by its length. -/
theorem ciphertext_format (p : Prims) (hp : p.Laws) (bytes msg ct : Bytes) (k : Public) (r : SealRandom)
    (hk : Public.fromBytes p bytes = .ok k) (hr : r.Ok p) :
    k.encrypt p r msg = .ok ct ↔ ∃ body,
      p.aesEnc ((p.hmac (p.point r.scalar ++ k.enc ++ p.dh r.scalar k.enc) (ascii "qos_encryption_hmac_message")).take 32) r.nonce
        (p.point r.scalar ++ [65] ++ k.enc ++ [65]) msg = some body ∧
      body.length < 2 ^ 32 ∧ ct = r.nonce ++ p.point r.scalar ++ (leBytes 4 body.length ++ body) := by
  obtain ⟨hl, _, _, he, _⟩ := (public_fromBytes_iff p bytes k).1 hk
  have h1 : (p.point r.scalar).length = 65 := hp.point_length _ hr.1
  have h2 : k.enc.length = 65 := by rw [he, List.length_take, hl]; rfl
  unfold Public.encrypt sealTo aad cipherKey kdfPreImage
  simp only [h1, h2]
  rw [if_pos (by omega), if_pos (by omega)]
  simp only []
  rw [show UInt8.ofNat 65 = 65 from rfl]
  cases p.aesEnc _ r.nonce _ msg with
  | none => simp
  | some c =>
    simp only [Option.some.injEq, exists_eq_left']
    by_cases hc : c.length < 2 ^ 32
    · have hc' : c.length < 4294967296 := hc
      rw [if_pos hc]
      simp [hc', sealedCodec, Borsh.imap, Borsh.pair, Borsh.fixed, Borsh.bytes, eq_comm]
    · have hc' : ¬ c.length < 4294967296 := hc
      rw [if_neg hc]; simp [hc']

/-- Decrypting with a shared secret computed elsewhere gives what the key holder would get. -/
theorem shared_secret_agrees (p : Prims) (k : Pair) (buf m : Bytes) (s : Sealed)
    (hs : Borsh.tryFromSlice sealedCodec buf = some s) (h : k.decrypt p buf = .ok m) :
    openSealedShared p (p.point k.encSecret) buf (p.dh k.encSecret s.senderPublic) = .ok m := by
  unfold Pair.decrypt openSealed at h
  unfold openSealedShared
  simp only [hs] at h ⊢
  split at h
  · exact h
  · cases h

/-- Symmetric ciphertexts round-trip. -/
theorem sym_decrypt_encrypt (p : Prims) (hp : p.Laws) (key nonce msg ct : Bytes) (hn : nonce.length = 12)
    (h : symSeal p key nonce msg = .ok ct) : symOpen p key ct = .ok msg := by
  unfold symSeal at h
  split at h
  · cases h
  · rename_i c hc
    split at h
    · rename_i hl
      simp only [Except.ok.injEq] at h
      subst h
      unfold symOpen
      rw [Borsh.tryFromSlice_enc lawful_sym (a := (nonce, c)) ⟨hn, hl⟩]
      simp [hp.aes_dec_enc _ _ _ _ _ hc]
    · cases h

example : ∃ k ct, Pair.fromMasterSeed toyPrims (List.replicate 32 7) = .ok k ∧
    (k.publicKey toyPrims).encrypt toyPrims ⟨List.replicate 32 9, List.replicate 12 1⟩ [1, 2, 3] = .ok ct ∧
    k.decrypt toyPrims ct = .ok [1, 2, 3] := by
  have hk : Pair.fromMasterSeed toyPrims (List.replicate 32 7) =
      .ok ⟨List.replicate 32 7, toyPrims.hkdf encryptPath (List.replicate 32 7),
        toyPrims.hkdf signPath (List.replicate 32 7), toyPrims.hkdf aesPath (List.replicate 32 7)⟩ := rfl
  have hs : ∃ ct, (Public.mk (toyPrims.point (toyPrims.hkdf encryptPath (List.replicate 32 7))) []).encrypt toyPrims
      ⟨List.replicate 32 9, List.replicate 12 1⟩ [1, 2, 3] = .ok ct :=
    exists_ok (by decide +kernel)
  obtain ⟨ct, hct⟩ := hs
  exact ⟨_, ct, hk, hct, decrypt_encrypt _ toyLaws _ _ _ _ _ hk ⟨by decide +kernel, by decide⟩ hct⟩

/-! ## Seeds stored as hex text -/

theorem utf8_ascii_chars (cs : List Char) (h : ∀ c ∈ cs, c.toNat < 128) :
    cs.flatMap String.utf8EncodeChar = cs.map fun c => UInt8.ofNat c.toNat := by
  induction cs with
  | nil => rfl
  | cons c cs ih =>
    have hc := h c (by simp)
    have hc' : c.val.toNat ≤ 127 := by have : c.val.toNat = c.toNat := rfl; omega
    simp only [List.flatMap_cons, List.map_cons]
    rw [ih fun x hx => h x (by simp [hx])]
    have hc2 : c.toNat ≤ 127 := by omega
    simp [String.utf8EncodeChar, hc2, Nat.toUInt8]

/-- Characters of an ASCII byte string. -/
def charsOf (b : Bytes) : List Char := b.map fun x => Char.ofNat x.toNat

theorem charOf_toNat (x : UInt8) : (Char.ofNat x.toNat).toNat = x.toNat := by
  have h : x.toNat < 256 := x.toNat_lt
  have : x.toNat.isValidChar := Or.inl (by omega)
  simp [Char.ofNat, this, Char.ofNatAux, Char.toNat]

theorem utf8_charsOf (b : Bytes) (h : ∀ x ∈ b, x < 128) : utf8 (String.ofList (charsOf b)) = b := by
  unfold utf8
  rw [String.toList_ofList, utf8_ascii_chars]
  · simp [charsOf, Function.comp_def, charOf_toNat]
  · intro c hc
    simp only [charsOf, List.mem_map] at hc
    obtain ⟨x, hx, rfl⟩ := hc
    rw [charOf_toNat]
    exact UInt8.lt_iff_toNat_lt.1 (h x hx)

theorem hex_char_range (b : Bytes) : ∀ x ∈ Hex.encode b, 48 ≤ x ∧ x < 128 := by
  intro x hx
  simp only [Hex.encode, List.mem_flatMap, Hex.byteChars] at hx
  obtain ⟨y, _, hy⟩ := hx
  have all : ∀ y : UInt8, ∀ x ∈ [Hex.nibbleChar (y >>> 4), Hex.nibbleChar (y &&& 15)], 48 ≤ x ∧ x < 128 :=
    Hex.uint8_forall (P := fun y => ∀ x ∈ [Hex.nibbleChar (y >>> 4), Hex.nibbleChar (y &&& 15)], 48 ≤ x ∧ x < 128)
      (by decide +kernel)
  exact all y x hy

theorem dropWhile_none {α : Type} (f : α → Bool) (l : List α) (h : ∀ x ∈ l, f x = false) :
    l.dropWhile f = l := by
  cases l with
  | nil => rfl
  | cons a l => rw [List.dropWhile_cons_of_neg]; simp [h a (by simp)]

theorem trim_hex (b : Bytes) :
    trim (String.ofList (charsOf (Hex.encode b))) = String.ofList (charsOf (Hex.encode b)) := by
  have hw : ∀ c ∈ charsOf (Hex.encode b), isWhitespace c = false := by
    intro c hc
    simp only [charsOf, List.mem_map] at hc
    obtain ⟨x, hx, rfl⟩ := hc
    have ⟨h1, h2⟩ := hex_char_range b x hx
    have h1 : 48 ≤ x.toNat := UInt8.le_iff_toNat_le.1 h1
    have h2 : x.toNat < 128 := UInt8.lt_iff_toNat_lt.1 h2
    simp [isWhitespace, charOf_toNat]
    omega
  unfold trim
  rw [String.toList_ofList, dropWhile_none _ _ hw, dropWhile_none]
  · simp
  · intro x hx; exact hw x (by simpa using hx)

/-- Writing a master seed to a file as hex and reading the file back gives the same key pair. -/
theorem hex_file_roundtrip (p : Prims) (k : Pair) (hl : k.seed.length = 32) :
    Pair.fromHexContents p k.toMasterSeedHex = Pair.fromMasterSeed p k.seed := by
  unfold Pair.fromHexContents Pair.toMasterSeedHex
  have hr := hex_char_range k.seed
  have e := utf8_charsOf (Hex.encode k.seed) fun x hx => (hr x hx).2
  have d : utf8Decode (Hex.encode k.seed) = some (String.ofList (charsOf (Hex.encode k.seed))) := by
    rw [← e, utf8Decode_utf8, e]
  simp only [d]
  rw [trim_hex, e, Hex.hex_decodeToBuf_encode]
  simp [hl]

/-- A seed file is accepted only if its text, without surrounding white space, is hex for exactly 32 bytes. -/
theorem hex_file_accepts (p : Prims) (c : Bytes) (k : Pair) (h : Pair.fromHexContents p c = .ok k) :
    ∃ s, utf8Decode c = some s ∧ Hex.decodeToBuf (utf8 (trim s)) 32 = .ok k.seed ∧
      Pair.fromMasterSeed p k.seed = .ok k := by
  unfold Pair.fromHexContents at h
  split at h
  · cases h
  · rename_i s hs
    split at h
    · cases h
    · rename_i seed hd
      have := pair_seed p seed k h
      subst this
      exact ⟨s, hs, hd, h⟩

example : ∃ k, Pair.fromHexContents toyPrims (ascii "  0x" ++ Hex.encode (List.replicate 32 7) ++ [10]) = .ok k := by
  exact exists_ok (by decide +kernel)

end Qos.P256
