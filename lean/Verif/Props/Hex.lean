import Verif.Lemmas.Hex
/-!
# C22 – the hex codec (`qos_hex`)

Specification: `Digit` says what a hex digit denotes by position in the two literal digit strings;
`Pair` what a pair of characters denotes; `Text` what a whole text denotes.
-/
namespace Qos.Hex

/-- Specification: character `c` is the hex digit with value `d`. -/
def Digit (c : UInt8) (d : Nat) : Prop :=
  (ascii "0123456789abcdef")[d]? = some c ∨ (ascii "0123456789ABCDEF")[d]? = some c

/-- Specification: what a pair of characters denotes – two hex digits (either case), or a plus sign
followed by one hex digit (a quirk inherited from `u8::from_str_radix`). -/
inductive Pair : UInt8 → UInt8 → UInt8 → Prop
  | digits {a b hi lo} : Digit a hi → Digit b lo → Pair a b (UInt8.ofNat (16 * hi + lo))
  | plus {b lo} : Digit b lo → Pair 43 b (UInt8.ofNat lo)

/-- Specification: a text is a sequence of pairs. -/
inductive Text : Bytes → Bytes → Prop
  | nil : Text [] []
  | cons {a b v s r} : Pair a b v → Text s r → Text (a :: b :: s) (v :: r)

private theorem digitVal_ok (c : UInt8) :
    (∀ d, Digit c d → digitVal c = some (UInt8.ofNat d) ∧ d < 16) := by
  intro d hd
  have key : ∀ d : Fin 16, ∀ c : Fin 256, 
     ((ascii "0123456789abcdef")[d.val]? = some (UInt8.ofNat c.val) ∨
      (ascii "0123456789ABCDEF")[d.val]? = some (UInt8.ofNat c.val)) →
      digitVal (UInt8.ofNat c.val) = some (UInt8.ofNat d.val) := by decide +kernel
  have hlt : d < 16 := by
    rcases hd with h | h <;>
    · have := (List.getElem?_eq_some_iff.1 h).1
      simpa [ascii] using this
  refine ⟨?_, hlt⟩
  have := key ⟨d, hlt⟩ ⟨c.toNat, c.toNat_lt⟩
  simpa using this (by simpa [Digit] using hd)

private theorem digitVal_some (c v : UInt8) (h : digitVal c = some v) :
    Digit c v.toNat ∧ v.toNat < 16 := by
  have key : ∀ c : Fin 256, (digitVal (UInt8.ofNat c.val)).all (fun v =>
      ((ascii "0123456789abcdef")[v.toNat]? = some (UInt8.ofNat c.val) ∨
         (ascii "0123456789ABCDEF")[v.toNat]? = some (UInt8.ofNat c.val)) ∧ v.toNat < 16) := by
    decide +kernel
  have := key ⟨c.toNat, c.toNat_lt⟩
  simp [h] at this
  simpa [Digit] using this

private theorem decodePair_iff (a b v : UInt8) : decodePair a b = .ok v ↔ Pair a b v := by
  have noplus : digitVal 43 = none := by decide
  have small : ∀ c d, Digit c d → c < 128 := by
    intro c d hd
    have := (digitVal_ok c d hd).1
    have key : ∀ c : Fin 256, digitVal (UInt8.ofNat c.val) ≠ none → UInt8.ofNat c.val < 128 := by
      decide +kernel
    have k := key ⟨c.toNat, c.toNat_lt⟩
    simp [this] at k
    exact k
  have arith : ∀ hi lo : Nat, hi < 16 → lo < 16 →
      UInt8.ofNat hi * 16 + UInt8.ofNat lo = UInt8.ofNat (16 * hi + lo) := by
    have key : ∀ hi lo : Fin 16, UInt8.ofNat hi.val * 16 + UInt8.ofNat lo.val
      = UInt8.ofNat (16 * hi.val + lo.val) := by decide +kernel
    intro hi lo h1 h2
    exact key ⟨hi, h1⟩ ⟨lo, h2⟩
  constructor
  · intro h
    unfold decodePair at h
    split at h
    · simp at h
    · split at h
      · simp at h
      · split at h
        · rename_i w hw
          simp at h; subst h
          unfold fromStrRadix16 at hw
          split at hw
          · rename_i h43; subst h43
            have := digitVal_some _ _ hw
            have p := Pair.plus this.1
            simpa using p
          · split at hw
            · rename_i x y hx hy
              simp at hw; subst hw
              have h1 := digitVal_some _ _ hx
              have h2 := digitVal_some _ _ hy
              have p := Pair.digits h1.1 h2.1
              rw [← arith _ _ h1.2 h2.2] at p
              simpa using p
            · simp at hw
        · simp at h
  · intro h
    cases h with
    | @digits _ _ hi lo h1 h2 =>
      have e1 := digitVal_ok _ _ h1
      have e2 := digitVal_ok _ _ h2
      have s1 := small _ _ h1
      have s2 := small _ _ h2
      have n1 : a ≠ 43 := by intro h; subst h; rw [noplus] at e1; simp at e1
      have g1 : ¬ a ≥ 128 := UInt8.not_le.2 s1
      have g2 : ¬ b ≥ 128 := UInt8.not_le.2 s2
      simp [decodePair, g1, g2, fromStrRadix16, n1, e1.1, e2.1, arith _ _ e1.2 e2.2]
    | @plus _ lo h2 =>
      have e2 := digitVal_ok _ _ h2
      have s2 := small _ _ h2
      have g2 : ¬ b ≥ 128 := UInt8.not_le.2 s2
      have g1 : ¬ (43 : UInt8) ≥ 128 := by decide
      simp [decodePair, g1, g2, fromStrRadix16, e2.1]

private theorem decodePairs_iff (s r : Bytes) (he : s.length % 2 = 0) :
    decodePairs s = .ok r ↔ Text s r := by
  constructor
  · intro h
    fun_induction decodePairs s generalizing r with
    | case1 => simp at h
    | case2 => simp at h
    | case3 a b rest v hv vs hvs ih =>
      simp at h; subst h
      exact .cons ((decodePair_iff _ _ _).1 hv) (ih vs (by simp at he; omega) hvs)
    | case4 s hs =>
      simp at h; subst h
      match s, hs with
      | [], _ => exact .nil
      | [_], _ => simp at he
      | _ :: _ :: _, hs => exact absurd rfl (hs _ _ _)
  · intro h
    induction h with
    | nil => rfl
    | cons hp _ ih =>
      simp [decodePairs, (decodePair_iff _ _ _).2 hp, ih (by simp at he; omega)]

private theorem Text.even {s r : Bytes} (h : Text s r) : s.length % 2 = 0 := by
  induction h with
  | nil => rfl
  | cons _ _ ih => simp; omega

/-- C22: decoding what was encoded returns the original bytes, for every byte string whose text is
below the 256 MiB limit of `decode`. -/
theorem hex_decode_encode (b : Bytes) (h : 2 * b.length < 256 * 1024 * 1024) :
    decode (encode b) = .ok b := by
  unfold decode
  rcases b with _ | ⟨x, xs⟩
  · rfl
  · rw [stripPrefix_encode]
    have h1 : ¬ (encode (x :: xs)).length = 0 := by simp
    have h2 : ¬ (encode (x :: xs)).length = 1 := by simp; omega
    have h3 : (encode (x :: xs)).length < strMaxLength := by
      simp only [encode_length, strMaxLength]; omega
    have h4 : (encode (x :: xs)).length % 2 = 0 := by simp
    simp [-encode_length, h1, h2, h3, h4, decodePairs_encode]

example : decode (encode [0, 255, 16, 10]) = .ok [0, 255, 16, 10] := by decide

/-- C22: the same with an `0x` prefix. -/
theorem hex_decode_encode_prefixed (b : Bytes) (h : 2 * b.length < 256 * 1024 * 1024) :
    decode (ascii "0x" ++ encode b) = .ok b := by
  have e : ascii "0x" = [48, 120] := by decide
  have h3 : (encode b).length < strMaxLength := by
      simp only [encode_length, strMaxLength]; omega
  have h4 : (encode b).length % 2 = 0 := by simp
  simp [-encode_length, e, decode, stripPrefix_0x, h3, h4, decodePairs_encode]

/-- C22: and this is the exact limit – a byte string of 128 MiB or more encodes to text that
`decode` refuses. -/
theorem hex_decode_encode_limit (b : Bytes) (h : 256 * 1024 * 1024 ≤ 2 * b.length) :
    decode (encode b) = .error .exceedsMaxLength := by
  have h1 : ¬ (encode b).length = 0 := by rw [encode_length]; omega
  have h2 : ¬ (encode b).length = 1 := by simp; omega
  have h3 : ¬ (encode b).length < strMaxLength := by
    simp only [encode_length, strMaxLength]; omega
  unfold decode
  rw [stripPrefix_encode]
  simp [-encode_length, h1, h2, h3]

example : ∃ b : Bytes, 256 * 1024 * 1024 ≤ 2 * b.length :=
  ⟨List.replicate (128 * 1024 * 1024) 0, by rw [List.length_replicate]; decide⟩

/-- C22: fixed-size decoding (`decode_to_buf`, used for key files and `[u8; N]` fields) round-trips
for every length, without size limit, and only at exactly the right buffer size. -/
theorem hex_decodeToBuf_encode (b : Bytes) (n : Nat) :
    decodeToBuf (encode b) n =
      if b.length = n then .ok b else .error .stringDoesNotMatchBufferLength := by
  unfold decodeToBuf
  rcases b with _ | ⟨x, xs⟩
  · simp [encode]; split <;> split <;> first | rfl | omega
  · rw [stripPrefix_encode]
    have h1 : ¬ (encode (x :: xs)).length = 0 := by simp
    have h2 : ¬ (encode (x :: xs)).length = 1 := by simp; omega
    have h4 : (encode (x :: xs)).length % 2 = 0 := by simp
    have h5 : (encode (x :: xs)).length / 2 = (x :: xs).length := by rw [encode_length]; omega
    rw [if_neg h1, if_neg h2]
    simp only [h4, h5, decodePairs_encode]
    by_cases hn : (x :: xs).length = n <;> simp [hn]

/-- C22: encoding is injective. -/
theorem hex_encode_injective (a b : Bytes) (h : encode a = encode b) : a = b := by
  have h1 := decodePairs_encode a
  have h2 := decodePairs_encode b
  rw [h, h2] at h1
  simpa using h1.symm

/-- C22: the text is exactly twice as long and consists of the characters `0-9a-f` only. -/
theorem hex_encode_shape (b : Bytes) :
    (encode b).length = 2 * b.length ∧ ∀ c ∈ encode b, c ∈ ascii "0123456789abcdef" := by
  refine ⟨encode_length b, ?_⟩
  intro c hc
  simp only [encode, List.mem_flatMap] at hc
  obtain ⟨x, -, hx⟩ := hc
  have key : ∀ x : Fin 256, ∀ c ∈ byteChars (UInt8.ofNat x.val),
    c ∈ ascii "0123456789abcdef" := by decide +kernel
  have := key ⟨x.toNat, x.toNat_lt⟩ c
  simp at this
  exact this hx

/-- C22: exact characterisation of what `decode` accepts and returns, for every input string. -/
theorem hex_decode_accepts_iff (raw r : Bytes) :
    decode raw = .ok r ↔
      (raw = [] ∧ r = []) ∨
      (raw.length ≠ 1 ∧ ∃ body, body.length < 256 * 1024 * 1024 ∧ Text body r ∧
        (raw = ascii "0x" ++ body ∨
          (raw = body ∧ 2 ≤ raw.length ∧ ¬ ∃ t, raw = ascii "0x" ++ t))) := by
  have e : ascii "0x" = [48, 120] := by decide
  simp only [e]
  match raw with
  | [] =>
    constructor
    · intro h
      simp [decode] at h
      exact .inl ⟨rfl, h⟩
    · rintro (⟨-, rfl⟩ | ⟨-, body, -, -, h | ⟨-, h, -⟩⟩)
      · rfl
      · simp at h
      · simp at h
  | [x] => simp [decode]
  | x :: y :: rest =>
    have hd : decode (x :: y :: rest) =
      (if (stripPrefix (x :: y :: rest)).length < strMaxLength then
        if (stripPrefix (x :: y :: rest)).length % 2 = 0 then
          decodePairs (stripPrefix (x :: y :: rest)) else .error .oddLength
      else .error .exceedsMaxLength) := by
      simp [decode]
    rw [hd]
    have general : ∀ body : Bytes,
      ((if body.length < strMaxLength then
        if body.length % 2 = 0 then decodePairs body else .error .oddLength
      else .error .exceedsMaxLength) = .ok r ↔
        (body.length < 256 * 1024 * 1024 ∧ Text body r)) := by
      intro body
      have em : strMaxLength = 256 * 1024 * 1024 := by decide
      rw [em]
      constructor
      · intro h
        split at h
        · split at h
          · rename_i hl he
            exact ⟨hl, (decodePairs_iff _ _ he).1 h⟩
          · simp at h
        · simp at h
      · rintro ⟨hl, ht⟩
        have he := ht.even
        rw [if_pos hl, if_pos he]
        exact (decodePairs_iff _ _ he).2 ht
    rw [general]
    by_cases hp : ∃ t, x :: y :: rest = [48, 120] ++ t
    · obtain ⟨t, ht⟩ := hp
      simp at ht
      obtain ⟨rfl, rfl, rfl⟩ := ht
      rw [stripPrefix_0x]
      constructor
      · intro h
        exact .inr ⟨by simp, rest, h.1, h.2, .inl rfl⟩
      · rintro (h | ⟨-, body, h1, h2, h3⟩)
        · simp at h
        · rcases h3 with h3 | ⟨h3, -, h4⟩
          · simp at h3; subst h3; exact ⟨h1, h2⟩
          · exact absurd ⟨rest, rfl⟩ h4
    · have hs : stripPrefix (x :: y :: rest) = x :: y :: rest := by
        unfold stripPrefix
        split
        · rename_i h
          exact absurd ⟨_, h⟩ hp
        · rfl
      rw [hs]
      constructor
      · intro h
        exact .inr ⟨by simp, _, h.1, h.2, .inr ⟨rfl, by simp, hp⟩⟩
      · rintro (h | ⟨-, body, h1, h2, h3⟩)
        · simp at h
        · rcases h3 with h3 | ⟨h3, -, -⟩
          · exact absurd ⟨body, h3⟩ hp
          · subst h3; exact ⟨h1, h2⟩

example : decode (ascii "0xAb+f") = .ok [171, 15] := by decide
example : decode (ascii "abc") = .error .oddLength ∧ decode (ascii "zz") = .error .parseInt := by
  decide

/-- C22 (refutation of the natural expectation): decoding is not injective, even among texts without
prefix: distinct texts – differing by letter case, or by a plus sign – decode to the same bytes. So
hex text is not a canonical identifier. -/
theorem hex_decode_not_injective :
    (∃ s t : Bytes, s ≠ t ∧ decode s = .ok [171] ∧ decode t = .ok [171]) ∧
    (∃ s t : Bytes, s ≠ t ∧ decode s = .ok [15] ∧ decode t = .ok [15] ∧ 43 ∈ s) :=
  ⟨⟨ascii "ab", ascii "AB", by decide, by decide, by decide⟩,
   ⟨ascii "+f", ascii "0f", by decide, by decide, by decide, by decide⟩⟩

/-- C22: decoding then re-encoding canonicalises: whatever text was accepted, the canonical text of
the result decodes to the same bytes. -/
theorem hex_canonicalise (s r : Bytes) (h : decode s = .ok r) : decode (encode r) = .ok r := by
  apply hex_decode_encode
  rcases (hex_decode_accepts_iff s r).1 h with ⟨-, rfl⟩ | ⟨-, body, hl, ht, -⟩
  · simp
  · have : ∀ {s r}, Text s r → s.length = 2 * r.length := by
      intro s r h
      induction h with
      | nil => rfl
      | cons _ _ ih => simp; omega
    rw [← this ht]; exact hl

end Qos.Hex
