import Verif.Spec.KeyFormat
import Verif.Props.P256
import Verif.Lemmas.Format
/-!
# C38: the formats of keys, seed files and ciphertexts, exactly
-/
namespace Qos.P256

/-- C38: the pair that a seed gives, and when it gives one. -/
theorem pair_exact (p : Prims) (seed : Bytes) (k : Pair) : Pair.fromMasterSeed p seed = .ok k ↔ Derived p seed k := by
  unfold Pair.fromMasterSeed encryptPath signPath aesPath
  constructor
  · intro h
    by_cases h1 : p.scalarOk (p.hkdf (ascii "qos_p256_encrypt") seed) = true
    · by_cases h2 : p.scalarOk (p.hkdf (ascii "qos_p256_sign") seed) = true
      · rw [if_pos h1, if_pos h2] at h
        cases h
        exact ⟨rfl, rfl, rfl, rfl, h1, h2⟩
      · rw [if_pos h1, if_neg h2] at h; cases h
    · rw [if_neg h1] at h; cases h
  · rintro ⟨rfl, h2, h3, h4, h5, h6⟩
    rw [h2] at h5
    rw [h3] at h6
    rw [if_pos h5, if_pos h6, ← h2, ← h3, ← h4]

/-- No two of the three salts are the same. -/
example : ascii "qos_p256_encrypt" ≠ ascii "qos_p256_sign" ∧ ascii "qos_p256_sign" ≠ ascii "qos_aes_gcm_encrypt" ∧
    ascii "qos_p256_encrypt" ≠ ascii "qos_aes_gcm_encrypt" := by decide +kernel

example : ∃ k, Derived toyPrims (List.replicate 32 7) k := by
  obtain ⟨k, hk⟩ : ∃ k, Pair.fromMasterSeed toyPrims (List.replicate 32 7) = .ok k := exists_ok (by decide +kernel)
  exact ⟨k, (pair_exact _ _ _).mp hk⟩

/-! ## Seed files -/

theorem blank_iff {c : Char} : c.toNat ∈ whiteSpace ↔ isWhitespace c = true := by
  unfold whiteSpace isWhitespace
  simp only [List.mem_cons, List.not_mem_nil, or_false, Bool.or_eq_true, Bool.and_eq_true, decide_eq_true_eq, beq_iff_eq]
  omega

theorem digit_range {c : UInt8} {d : Nat} (h : Hex.Digit c d) : 48 ≤ c ∧ c < 128 := by
  have key : ∀ x ∈ ascii "0123456789abcdef" ++ ascii "0123456789ABCDEF", 48 ≤ x ∧ x < 128 := by decide +kernel
  refine key c ?_
  rcases h with h | h
  · exact List.mem_append_left _ (List.mem_of_getElem? h)
  · exact List.mem_append_right _ (List.mem_of_getElem? h)

theorem text_range {s r : Bytes} (h : Hex.Text s r) : ∀ x ∈ s, 43 ≤ x ∧ x < 128 := by
  induction h with
  | nil => simp
  | @cons a b v s r hp _ ih =>
    have h48 : ∀ {c : UInt8} {d : Nat}, Hex.Digit c d → 43 ≤ c ∧ c < 128 := by
      intro c d hd
      obtain ⟨h1, h2⟩ := digit_range hd
      exact ⟨Nat.le_trans (by decide) (UInt8.le_iff_toNat_le.1 h1), h2⟩
    intro x hx
    simp only [List.mem_cons] at hx
    cases hp with
    | digits ha hb =>
      rcases hx with rfl | rfl | hx
      · exact h48 ha
      · exact h48 hb
      · exact ih x hx
    | plus hb =>
      rcases hx with rfl | rfl | hx
      · exact ⟨by decide, by decide⟩
      · exact h48 hb
      · exact ih x hx

theorem dropWhile_blank {f : Char → Bool} (cs : List Char) :
    ∃ a, (∀ c ∈ a, f c = true) ∧ cs = a ++ cs.dropWhile f :=
  ⟨cs.takeWhile f, fun _ hc => List.mem_takeWhile_imp hc, List.takeWhile_append_dropWhile.symm⟩

/-- What `trim` takes away. -/
theorem trim_splits (s : String) : ∃ a b, Blank a ∧ Blank b ∧ s.toList = a ++ (trim s).toList ++ b := by
  obtain ⟨a, ha, ea⟩ := dropWhile_blank (f := isWhitespace) s.toList
  obtain ⟨b, hb, eb⟩ := dropWhile_blank (f := isWhitespace) (s.toList.dropWhile isWhitespace).reverse
  refine ⟨a, b.reverse, fun c hc => blank_iff.mpr (ha c hc), fun c hc => blank_iff.mpr (hb c (List.mem_reverse.mp hc)), ?_⟩
  have : s.toList.dropWhile isWhitespace =
      ((s.toList.dropWhile isWhitespace).reverse.dropWhile isWhitespace).reverse ++ b.reverse := by
    rw [← List.reverse_append, ← eb, List.reverse_reverse]
  unfold trim
  rw [String.toList_ofList, List.append_assoc, ← this]
  exact ea

theorem dropWhile_all {f : Char → Bool} {a t : List Char} (ha : ∀ c ∈ a, f c = true) (ht : ∀ c ∈ t, f c = false) :
    (a ++ t).dropWhile f = t := by
  induction a with
  | nil =>
    cases t with
    | nil => rfl
    | cons c t => rw [List.nil_append, List.dropWhile_cons_of_neg (by simp [ht c])]
  | cons c a ih =>
    rw [List.cons_append, List.dropWhile_cons_of_pos (ha c (by simp))]
    exact ih fun d hd => ha d (by simp [hd])

/-- `trim` of a text without white space, between white space. -/
theorem trim_around {a t b : List Char} (ha : Blank a) (hb : Blank b) (ht : ∀ c ∈ t, isWhitespace c = false) (h0 : t ≠ []) :
    trim (String.ofList (a ++ t ++ b)) = String.ofList t := by
  have h1 : (a ++ t ++ b).dropWhile isWhitespace = t ++ b := by
    cases t with
    | nil => exact absurd rfl h0
    | cons c t =>
      rw [List.append_assoc]
      have : ∀ x : List Char, (∀ c ∈ x, isWhitespace c = true) → (x ++ (c :: t ++ b)).dropWhile isWhitespace = c :: t ++ b := by
        intro x hx
        induction x with
        | nil => rw [List.nil_append, List.cons_append, List.dropWhile_cons_of_neg (by simp [ht c])]
        | cons d x ih =>
          rw [List.cons_append, List.dropWhile_cons_of_pos (hx d (by simp))]
          exact ih fun e he => hx e (by simp [he])
      exact this a fun c hc => blank_iff.mp (ha c hc)
  unfold trim
  rw [String.toList_ofList, h1, List.reverse_append, dropWhile_all]
  · rw [List.reverse_reverse]
  · intro c hc; exact blank_iff.mp (hb c (List.mem_reverse.mp hc))
  · intro c hc; exact ht c (List.mem_reverse.mp hc)

theorem hex_not_blank {raw : Bytes} (h : ∀ x ∈ raw, 43 ≤ x ∧ x < 128) : ∀ c ∈ charsOf raw, isWhitespace c = false := by
  intro c hc
  simp only [charsOf, List.mem_map] at hc
  obtain ⟨x, hx, rfl⟩ := hc
  obtain ⟨h1, h2⟩ := h x hx
  have h1 : 43 ≤ x.toNat := UInt8.le_iff_toNat_le.1 h1
  have h2 : x.toNat < 128 := UInt8.lt_iff_toNat_lt.1 h2
  cases hw : isWhitespace (Char.ofNat x.toNat) with
  | false => rfl
  | true =>
    have := blank_iff.mpr hw
    rw [charOf_toNat] at this
    unfold whiteSpace at this
    simp only [List.mem_cons, List.not_mem_nil, or_false] at this
    omega

theorem utf8_append (a b : List Char) : utf8 (String.ofList (a ++ b)) = utf8 (String.ofList a) ++ utf8 (String.ofList b) := by
  unfold utf8
  simp

theorem seedFile_iff {contents seed : Bytes} : SeedFile contents seed ↔
    ∃ s, utf8Decode contents = some s ∧ Hex.decodeToBuf (utf8 (trim s)) 32 = .ok seed := by
  have hd : ∀ raw : Bytes, Hex.decodeToBuf raw 32 = .ok seed ↔ seed.length = 32 ∧
      ∃ body, Hex.Text body seed ∧ (raw = ascii "0x" ++ body ∨ raw = body) := by
    intro raw
    rw [Format.decodeToBuf_iff (by decide), Format.decode_iff]
    constructor
    · rintro ⟨⟨body, h1, h2, -⟩, h3⟩; exact ⟨h3, body, h1, h2⟩
    · rintro ⟨h3, body, h1, h2⟩; exact ⟨⟨body, h1, h2, by rw [h3]; decide⟩, h3⟩
  constructor
  · rintro ⟨a, b, digits, ha, hb, ht, hl, hc⟩
    have hr := text_range ht
    have h0 : digits ≠ [] := by
      intro h
      have := Format.text_length ht
      rw [h, hl] at this
      cases this
    have key : ∀ raw : Bytes, (∀ x ∈ raw, 43 ≤ x ∧ x < 128) → raw ≠ [] →
        contents = utf8 (String.ofList a) ++ raw ++ utf8 (String.ofList b) → (raw = ascii "0x" ++ digits ∨ raw = digits) →
        ∃ s, utf8Decode contents = some s ∧ Hex.decodeToBuf (utf8 (trim s)) 32 = .ok seed := by
      intro raw hraw hne hc hcase
      have hu : utf8 (String.ofList (charsOf raw)) = raw := utf8_charsOf raw fun x hx => (hraw x hx).2
      refine ⟨String.ofList (a ++ charsOf raw ++ b), ?_, ?_⟩
      · have e : contents = utf8 (String.ofList (a ++ charsOf raw ++ b)) := by rw [hc, utf8_append, utf8_append, hu]
        rw [e, utf8Decode_utf8]
      · rw [trim_around ha hb (hex_not_blank hraw) (by simpa [charsOf] using hne), hu, hd]
        exact ⟨hl, digits, ht, hcase⟩
    rcases hc with hc | hc
    · exact key digits hr h0 hc (.inr rfl)
    · refine key (ascii "0x" ++ digits) ?_ (by simp [h0]) hc (.inl rfl)
      intro x hx
      rcases List.mem_append.mp hx with hx | hx
      · have : ∀ x ∈ ascii "0x", 43 ≤ x ∧ x < 128 := by decide +kernel
        exact this x hx
      · exact hr x hx
  · rintro ⟨s, h1, h2⟩
    obtain ⟨hl, body, ht, hc⟩ := (hd _).mp h2
    obtain ⟨a, b, ha, hb, hs⟩ := trim_splits s
    have hcon : contents = utf8 (String.ofList a) ++ utf8 (trim s) ++ utf8 (String.ofList b) := by
      have e : s = String.ofList (a ++ (trim s).toList ++ b) := by rw [← hs, String.ofList_toList]
      rw [← utf8_of_utf8Decode h1]
      conv_lhs => rw [e]
      rw [utf8_append, utf8_append, String.ofList_toList]
    refine ⟨a, b, body, ha, hb, ht, hl, ?_⟩
    rcases hc with hc | hc
    · right; rw [hcon, hc]
    · left; rw [hcon, hc]

/-- C38: a seed file is read exactly if it holds the hexadecimal of 32 bytes, white space around it aside, and these bytes give a
pair; that pair is the result. -/
theorem seed_file_exact (p : Prims) (contents : Bytes) (k : Pair) :
    Pair.fromHexContents p contents = .ok k ↔ ∃ seed, SeedFile contents seed ∧ Derived p seed k := by
  unfold Pair.fromHexContents
  simp only [seedFile_iff, ← pair_exact]
  cases hu : utf8Decode contents with
  | none => simp
  | some s =>
    simp only [Option.some.injEq, exists_eq_left']
    cases hd : Hex.decodeToBuf (utf8 (trim s)) 32 with
    | error e => simp
    | ok seed => simp

/-- C38: no file holds two seeds. -/
theorem seed_file_unique {contents a b : Bytes} (ha : SeedFile contents a) (hb : SeedFile contents b) : a = b := by
  obtain ⟨s, h1, h2⟩ := seedFile_iff.mp ha
  obtain ⟨t, g1, g2⟩ := seedFile_iff.mp hb
  rw [h1, Option.some.injEq] at g1
  subst g1
  rw [h2] at g2
  exact Except.ok.inj g2

/-- The encoding of a seed, with a newline at the end, is a seed file. -/
theorem encoded_seed_file {seed : Bytes} (h : seed.length = 32) : SeedFile (Hex.encode seed ++ [10]) seed := by
  refine ⟨[], [Char.ofNat 10], Hex.encode seed, by simp [Blank], ?_, ?_, h, .inl ?_⟩
  · intro c hc
    rw [List.mem_singleton] at hc
    subst hc
    decide
  · have := Hex.hex_decode_encode seed (by rw [h]; decide)
    obtain ⟨body, h1, h2, -⟩ := Format.decode_iff.mp this
    rcases h2 with h2 | h2
    · exfalso
      have e : (Hex.encode seed).length = 64 := by rw [Hex.encode_length, h]
      have := Format.text_length h1
      rw [h2, List.length_append, this, h] at e
      simp [ascii] at e
    · rw [h2]; exact h1
  · have e : utf8 (String.ofList [Char.ofNat 10]) = [10] := by decide +kernel
    rw [e]
    rfl

/-! ## Ciphertexts -/

theorem tryFromSlice_sealed {buf : Bytes} {s : Sealed} :
    Borsh.tryFromSlice sealedCodec buf = some s ↔ Ciphertext s.nonce s.senderPublic s.encryptedMessage buf := by
  constructor
  · intro h
    obtain ⟨h2, g1, g2, g3⟩ := Borsh.tryFromSlice_some lawful_sealed h
    exact ⟨g1, g2, g3, by rw [h2]; simp [sealedCodec, Borsh.imap, Borsh.pair, Borsh.fixed, Borsh.bytes]⟩
  · rintro ⟨h1, h2, h3, rfl⟩
    have := Borsh.tryFromSlice_enc lawful_sealed (a := s) ⟨h1, h2, h3⟩
    rw [← this]
    simp [sealedCodec, Borsh.imap, Borsh.pair, Borsh.fixed, Borsh.bytes]

/-- C38: what a pair decrypts, exactly: the bytes are a ciphertext from a valid point, and AES opens the body with the key of
sender, receiver and their shared secret, and with both points, each with its length, as associated data. -/
theorem decrypt_exact (p : Prims) (hp : p.Laws) (seed : Bytes) (k : Pair) (hk : Derived p seed k) (buf m : Bytes) :
    k.decrypt p buf = .ok m ↔ ∃ nonce sender body, Ciphertext nonce sender body buf ∧ p.pointOk sender = true ∧
      p.aesDec (sharedKey p sender (p.point k.encSecret) (p.dh k.encSecret sender)) nonce
        (sender ++ [65] ++ p.point k.encSecret ++ [65]) body = some m := by
  have hlen : (p.point k.encSecret).length = 65 := hp.point_length _ hk.scalars.1
  have had : ∀ sender : Bytes, sender.length = 65 →
      aad sender (p.point k.encSecret) = .ok (sender ++ [65] ++ p.point k.encSecret ++ [65]) := by
    intro sender h
    unfold aad
    rw [h, hlen, if_pos (by decide), if_pos (by decide)]
    rfl
  unfold Pair.decrypt openSealed
  cases hb : Borsh.tryFromSlice sealedCodec buf with
  | none =>
    simp only [reduceCtorEq, false_iff]
    rintro ⟨nonce, sender, body, h, -⟩
    have := (tryFromSlice_sealed (s := ⟨nonce, sender, body⟩)).mpr h
    rw [hb] at this
    cases this
  | some s =>
    have hc := tryFromSlice_sealed.mp hb
    have hu : ∀ nonce sender body, Ciphertext nonce sender body buf → s = ⟨nonce, sender, body⟩ := by
      intro nonce sender body h
      have := (tryFromSlice_sealed (s := ⟨nonce, sender, body⟩)).mpr h
      rw [hb, Option.some.injEq] at this
      exact this
    simp only
    constructor
    · intro h
      by_cases ho : p.pointOk s.senderPublic = true
      · rw [if_pos ho, had _ hc.2.1] at h
        simp only at h
        refine ⟨s.nonce, s.senderPublic, s.encryptedMessage, hc, ho, ?_⟩
        unfold sharedKey
        unfold cipherKey kdfPreImage at h
        cases hd : p.aesDec ((p.hmac (s.senderPublic ++ p.point k.encSecret ++ p.dh k.encSecret s.senderPublic)
            (ascii "qos_encryption_hmac_message")).take 32) s.nonce
            (s.senderPublic ++ [65] ++ p.point k.encSecret ++ [65]) s.encryptedMessage with
        | none => rw [hd] at h; cases h
        | some x => rw [hd] at h; cases h; rfl
      · rw [if_neg ho] at h; cases h
    · rintro ⟨nonce, sender, body, h, ho, hd⟩
      cases hu _ _ _ h
      rw [if_pos ho, had _ h.2.1]
      simp only
      unfold sharedKey at hd
      unfold cipherKey kdfPreImage
      rw [hd]

theorem tryFromSlice_sym {buf nonce body : Bytes} :
    Borsh.tryFromSlice symCodec buf = some (nonce, body) ↔ SymmetricCiphertext nonce body buf := by
  constructor
  · intro h
    obtain ⟨h2, g1, g2⟩ := Borsh.tryFromSlice_some lawful_sym h
    exact ⟨g1, g2, by rw [h2]; simp [symCodec, Borsh.pair, Borsh.fixed, Borsh.bytes]⟩
  · rintro ⟨h1, h2, rfl⟩
    have := Borsh.tryFromSlice_enc lawful_sym (a := (nonce, body)) ⟨h1, h2⟩
    rw [← this]
    simp [symCodec, Borsh.pair, Borsh.fixed, Borsh.bytes]

/-- C38: what symmetric encryption gives, exactly: the nonce and the body that AES makes with the fixed text as associated data. -/
theorem symmetric_encrypt_exact (p : Prims) (key nonce msg ct : Bytes) (hn : nonce.length = 12) :
    symSeal p key nonce msg = .ok ct ↔ ∃ body, p.aesEnc key nonce (ascii "qos_aes_gcm_256_hmac_sha512") msg = some body ∧
      SymmetricCiphertext nonce body ct := by
  unfold symSeal symTag
  cases he : p.aesEnc key nonce (ascii "qos_aes_gcm_256_hmac_sha512") msg with
  | none => simp
  | some body =>
    simp only [Option.some.injEq, exists_eq_left']
    by_cases hl : body.length < 2 ^ 32
    · rw [if_pos hl]
      have e : symCodec.enc (nonce, body) = nonce ++ (leBytes 4 body.length ++ body) := by
        simp [symCodec, Borsh.pair, Borsh.fixed, Borsh.bytes]
      rw [e]
      constructor
      · intro h; cases h; exact ⟨hn, hl, rfl⟩
      · rintro ⟨-, -, rfl⟩; rfl
    · rw [if_neg hl]
      constructor
      · intro h; cases h
      · rintro ⟨-, h, -⟩; exact absurd h hl

/-- C38: what symmetric decryption accepts, exactly. -/
theorem symmetric_decrypt_exact (p : Prims) (key buf m : Bytes) :
    symOpen p key buf = .ok m ↔ ∃ nonce body, SymmetricCiphertext nonce body buf ∧
      p.aesDec key nonce (ascii "qos_aes_gcm_256_hmac_sha512") body = some m := by
  unfold symOpen symTag
  cases hb : Borsh.tryFromSlice symCodec buf with
  | none =>
    simp only [reduceCtorEq, false_iff]
    rintro ⟨nonce, body, h, -⟩
    rw [tryFromSlice_sym.mpr h] at hb
    cases hb
  | some x =>
    obtain ⟨nonce, body⟩ := x
    simp only
    constructor
    · intro h
      refine ⟨nonce, body, tryFromSlice_sym.mp hb, ?_⟩
      cases hd : p.aesDec key nonce (ascii "qos_aes_gcm_256_hmac_sha512") body with
      | none => rw [hd] at h; cases h
      | some y => rw [hd] at h; cases h; rfl
    · rintro ⟨n, b, h, hd⟩
      have := tryFromSlice_sym.mpr h
      rw [hb, Option.some.injEq, Prod.mk.injEq] at this
      obtain ⟨rfl, rfl⟩ := this
      rw [hd]

/-- A message encrypted to a pair is a ciphertext of this form, which the pair opens. -/
example : ∃ k ct, Derived toyPrims (List.replicate 32 7) k ∧ k.decrypt toyPrims ct = .ok [1, 2, 3] ∧
    (∃ nonce sender body, Ciphertext nonce sender body ct) := by
  obtain ⟨k, hk⟩ : ∃ k, Pair.fromMasterSeed toyPrims (List.replicate 32 7) = .ok k := exists_ok (by decide +kernel)
  have hd := (pair_exact _ _ _).mp hk
  have hr : SealRandom.Ok toyPrims ⟨List.replicate 32 9, List.replicate 12 4⟩ := by
    unfold SealRandom.Ok
    exact ⟨by decide +kernel, rfl⟩
  have hpub := (public_of_pair toyPrims toyLaws _ _ hk).1
  obtain ⟨ct, hct⟩ := encrypt_total toyPrims toyLaws _ [1, 2, 3] _ _ hpub hr (by decide)
  have := decrypt_encrypt toyPrims toyLaws _ _ _ _ _ hk hr hct
  obtain ⟨n, s, b, h, -⟩ := (decrypt_exact _ toyLaws _ _ hd _ _).mp this
  exact ⟨k, ct, hd, this, n, s, b, h⟩

example : ∃ ct, symSeal toyPrims (List.replicate 32 1) (List.replicate 12 4) [1, 2, 3] = .ok ct ∧
    ∃ body, SymmetricCiphertext (List.replicate 12 4) body ct := by
  obtain ⟨ct, h⟩ : ∃ ct, symSeal toyPrims (List.replicate 32 1) (List.replicate 12 4) [1, 2, 3] = .ok ct :=
    exists_ok (by decide +kernel)
  obtain ⟨body, -, hb⟩ := (symmetric_encrypt_exact _ _ _ _ _ rfl).mp h
  exact ⟨ct, h, body, hb⟩

end Qos.P256
