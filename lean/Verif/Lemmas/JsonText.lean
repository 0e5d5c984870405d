import Verif.Spec.JsonText
import Verif.Lemmas.JsonCanon
import Verif.Lemmas.Ip
import Mathlib.Tactic.IntervalCases
namespace Qos.JsonText
open Json

/-! ### Space -/

theorem isWs_iff {c : Char} : isWs c = true ↔ c = ' ' ∨ c = '\t' ∨ c = '\n' ∨ c = '\r' := by
  unfold isWs
  simp only [Bool.or_eq_true, decide_eq_true_eq]
  tauto

theorem space_nil : Space [] := by intro c h; cases h

theorem skipWs_space {a : List Char} (h : Space a) (r : List Char) : skipWs (a ++ r) = skipWs r := by
  induction a with
  | nil => rfl
  | cons c a ih =>
    rw [List.cons_append, skipWs, if_pos (isWs_iff.mpr (h c (by simp)))]
    exact ih (fun x hx => h x (by simp [hx]))

theorem skipWs_sound (cs : List Char) : ∃ a, Space a ∧ cs = a ++ skipWs cs := by
  induction cs with
  | nil => exact ⟨[], space_nil, rfl⟩
  | cons c cs ih =>
    unfold skipWs
    split
    · rename_i hc
      obtain ⟨a, h1, h2⟩ := ih
      refine ⟨c :: a, ?_, by rw [List.cons_append, ← h2]⟩
      intro x hx
      rcases List.mem_cons.mp hx with rfl | hx
      · exact isWs_iff.mp hc
      · exact h1 x hx
    · exact ⟨[], space_nil, rfl⟩

/-- The text does not begin with white space. -/
def Solid (t : List Char) : Prop := ∃ c r, t = c :: r ∧ isWs c = false

theorem skipWs_solid {t : List Char} (h : Solid t) (r : List Char) : skipWs (t ++ r) = t ++ r := by
  obtain ⟨c, s, rfl, hc⟩ := h
  simp [skipWs, hc]

/-! ### Strings -/

theorem char_of_toNat {c : Char} {n : Nat} (h : c.toNat = n) : c = Char.ofNat n := by
  rw [← h, Char.ofNat_toNat]

theorem hexDigit_iff {c : Char} {n : Nat} : hexDigit c = some n ↔ HexDigit c n := by
  constructor
  · intro h
    unfold hexDigit at h
    simp only at h
    generalize hk : c.toNat = k at h
    have hc := char_of_toNat hk
    subst hc
    split at h
    · rename_i hr
      obtain ⟨h1, h2⟩ := hr
      cases h
      left
      clear hk
      interval_cases k <;> rfl
    · split at h
      · rename_i hr
        obtain ⟨h1, h2⟩ := hr
        cases h
        left
        clear hk
        interval_cases k <;> rfl
      · split at h
        · rename_i hr
          obtain ⟨h1, h2⟩ := hr
          cases h
          right
          clear hk
          interval_cases k <;> rfl
        · cases h
  · intro h
    have hn : n < 16 := by
      rcases h with h | h
      · exact (List.getElem?_eq_some_iff.mp h).1
      · exact (List.getElem?_eq_some_iff.mp h).1
    rcases h with h | h
    · interval_cases n <;> (cases h; decide)
    · interval_cases n <;> (cases h; decide)

theorem hex4_iff {a b c d : Char} {n : Nat} : hex4 a b c d = some n ↔ CodeUnit [a, b, c, d] n := by
  unfold hex4
  constructor
  · intro h
    split at h
    · rename_i h1 h2 h3 h4
      cases h
      refine ⟨_, _, _, _, _, _, _, _, rfl, hexDigit_iff.mp h1, hexDigit_iff.mp h2, hexDigit_iff.mp h3,
        hexDigit_iff.mp h4, ?_⟩
      omega
    · cases h
  · rintro ⟨a', b', c', d', w, x, y, z, he, h1, h2, h3, h4, hn⟩
    cases he
    rw [hexDigit_iff.mpr h1, hexDigit_iff.mpr h2, hexDigit_iff.mpr h3, hexDigit_iff.mpr h4]
    simp only [Option.some.injEq]
    omega

theorem codeUnit_len {t : List Char} {n : Nat} (h : CodeUnit t n) :
    ∃ a b c d, t = [a, b, c, d] ∧ hex4 a b c d = some n := by
  obtain ⟨a, b, c, d, w, x, y, z, he, h1, h2, h3, h4, hn⟩ := h
  subst he
  exact ⟨a, b, c, d, rfl, hex4_iff.mpr ⟨a, b, c, d, w, x, y, z, rfl, h1, h2, h3, h4, hn⟩⟩

theorem codeUnit_lt {t : List Char} {n : Nat} (h : CodeUnit t n) : n < 0x10000 := by
  obtain ⟨a, b, c, d, w, x, y, z, he, h1, h2, h3, h4, hn⟩ := h
  have hl : ∀ {c m}, HexDigit c m → m < 16 := by
    intro c m h
    rcases h with h | h
    · exact (List.getElem?_eq_some_iff.mp h).1
    · exact (List.getElem?_eq_some_iff.mp h).1
  have := hl h1; have := hl h2; have := hl h3; have := hl h4
  omega

theorem simpleEscape_iff {e c : Char} : simpleEscape e = some c ↔ (e, c.toNat) ∈ shortEscapes := by
  constructor
  · intro h
    unfold simpleEscape at h
    repeat' (split at h; · (subst_vars; cases h; decide))
    cases h
  · intro h
    simp only [shortEscapes, List.mem_cons, Prod.mk.injEq, List.not_mem_nil, or_false] at h
    rcases h with ⟨rfl, h⟩ | ⟨rfl, h⟩ | ⟨rfl, h⟩ | ⟨rfl, h⟩ | ⟨rfl, h⟩ | ⟨rfl, h⟩ | ⟨rfl, h⟩ | ⟨rfl, h⟩ <;>
      (rw [char_of_toNat h]; decide)

theorem toNat_ofNat_scalar {n : Nat} (h : n < 0xD800 ∨ (0xE000 ≤ n ∧ n < 0x110000)) : (Char.ofNat n).toNat = n := by
  have hv : n.isValidChar := by
    rcases h with h | h
    · exact Or.inl (by omega)
    · exact Or.inr ⟨by omega, by omega⟩
  unfold Char.ofNat
  rw [dif_pos hv]
  rfl

theorem char_scalar (c : Char) : c.toNat < 0xD800 ∨ (0xE000 ≤ c.toNat ∧ c.toNat < 0x110000) := by
  have := c.valid
  rcases this with h | h
  · exact Or.inl h
  · exact Or.inr ⟨by have := h.1; show _ ≤ c.val.toNat; omega, h.2⟩

theorem parseStr_sound : ∀ (n : Nat) (cs s r : List Char), cs.length ≤ n → parseStr cs = some (s, r) →
    ∃ t, cs = t ++ '"' :: r ∧ Body t s := by
  intro n
  induction n with
  | zero =>
    intro cs s r hl h
    cases cs with
    | nil => simp [parseStr] at h
    | cons c cs => simp at hl
  | succ n ih =>
    intro cs s r hl h
    cases cs with
    | nil => simp [parseStr] at h
    | cons c cs =>
      simp only [List.length_cons] at hl
      unfold parseStr at h
      split at h
      · cases h
        rename_i hc
        subst hc
        exact ⟨[], rfl, .done⟩
      · rename_i hq
        split at h
        · rename_i hc
          subst hc
          split at h
          · rename_i a b d e cs'
            simp only [List.length_cons] at hl
            split at h
            · cases h
            · rename_i u hx
              have hu := hex4_iff.mp hx
              split at h
              · rename_i hhi
                split at h
                · rename_i a' b' d' e' cs''
                  simp only [List.length_cons] at hl
                  split at h
                  · cases h
                  · rename_i m hy
                    have hm := hex4_iff.mp hy
                    split at h
                    · rename_i hlo
                      split at h
                      · rename_i q rest hz
                        cases h
                        obtain ⟨t, rfl, hb⟩ := ih _ _ _ (by omega) hz
                        refine ⟨'\\' :: 'u' :: ([a, b, d, e] ++ '\\' :: 'u' :: ([a', b', d', e'] ++ t)), by simp, ?_⟩
                        refine Body.pair (hi := u - 0xD800) (lo := m - 0xDC00) ?_ (by omega) ?_ (by omega) ?_ hb
                        · rw [show 0xD800 + (u - 0xD800) = u by omega]; exact hu
                        · rw [show 0xDC00 + (m - 0xDC00) = m by omega]; exact hm
                        · rw [toNat_ofNat_scalar (by omega)]
                          omega
                      · cases h
                    · cases h
                · cases h
              · rename_i hhi
                split at h
                · cases h
                · rename_i hlo
                  split at h
                  · rename_i q rest hz
                    cases h
                    obtain ⟨t, rfl, hb⟩ := ih _ _ _ (by omega) hz
                    have := codeUnit_lt hu
                    refine ⟨'\\' :: 'u' :: ([a, b, d, e] ++ t), by simp, ?_⟩
                    refine Body.unit ?_ hb
                    rw [toNat_ofNat_scalar (by omega)]
                    exact hu
                  · cases h
          · rename_i e cs' _
            simp only [List.length_cons] at hl
            split at h
            · rename_i x hx
              split at h
              · rename_i q rest hz
                cases h
                obtain ⟨t, rfl, hb⟩ := ih _ _ _ (by omega) hz
                exact ⟨'\\' :: e :: t, by simp, .short (simpleEscape_iff.mp hx) hb⟩
              · cases h
            · cases h
          · cases h
        · rename_i hb
          split at h
          · cases h
          · split at h
            · rename_i q rest hz
              cases h
              obtain ⟨t, rfl, hbd⟩ := ih _ _ _ (by omega) hz
              exact ⟨c :: t, by simp, .plain hq hb (by omega) hbd⟩
            · cases h

theorem short_ne_u {e : Char} {n : Nat} (h : (e, n) ∈ shortEscapes) : e ≠ 'u' := by
  rintro rfl
  simp [shortEscapes] at h

theorem parseStr_complete {t s : List Char} (h : Body t s) (r : List Char) :
    parseStr (t ++ '"' :: r) = some (s, r) := by
  induction h with
  | done =>
    show parseStr ('"' :: r) = _
    unfold parseStr
    rw [if_pos rfl]
  | @plain c t s h1 h2 h3 _ ih =>
    rw [List.cons_append]
    unfold parseStr
    rw [if_neg h1, if_neg h2, if_neg (by omega), ih]
  | @short e c t s h1 _ ih =>
    rw [List.cons_append, List.cons_append]
    have hu := short_ne_u h1
    unfold parseStr
    rw [if_neg (by decide), if_pos rfl]
    split
    · rename_i heq
      injection heq with h _
      exact absurd h hu
    · rename_i heq
      cases heq
      rw [simpleEscape_iff.mpr h1, ih]
    · rename_i heq
      cases heq
  | @unit h c t s h1 _ ih =>
    obtain ⟨a, b, d, e, rfl, hx⟩ := codeUnit_len h1
    have := char_scalar c
    show parseStr ('\\' :: 'u' :: a :: b :: d :: e :: (t ++ '"' :: r)) = _
    unfold parseStr
    rw [if_neg (by decide), if_pos rfl]
    simp only [hx]
    rw [if_neg (by omega), if_neg (by omega), ih, Char.ofNat_toNat]
  | @pair h l c t s hi lo h1 h2 h3 h4 h5 _ ih =>
    obtain ⟨a, b, d, e, rfl, hx⟩ := codeUnit_len h1
    obtain ⟨a', b', d', e', rfl, hy⟩ := codeUnit_len h3
    show parseStr ('\\' :: 'u' :: a :: b :: d :: e :: '\\' :: 'u' :: a' :: b' :: d' :: e' :: (t ++ '"' :: r)) = _
    unfold parseStr
    rw [if_neg (by decide), if_pos rfl]
    simp only [hx, hy]
    rw [if_pos (by omega), if_pos (by omega), ih]
    have : 0x10000 + (0xD800 + hi - 0xD800) * 0x400 + (0xDC00 + lo - 0xDC00) = c.toNat := by omega
    simp only [this, Char.ofNat_toNat]

/-! ### Numbers -/

theorem digit_iff {c : Char} : (digitNat c).isSome ↔ Digit c := by
  unfold digitNat
  constructor
  · intro h
    split at h
    · rename_i hr
      generalize hk : c.toNat = k at hr
      have hc := char_of_toNat hk
      subst hc
      obtain ⟨h1, h2⟩ := hr
      clear hk h
      unfold Digit
      interval_cases k <;> decide
    · cases h
  · intro h
    have : c = '0' ∨ c = '1' ∨ c = '2' ∨ c = '3' ∨ c = '4' ∨ c = '5' ∨ c = '6' ∨ c = '7' ∨ c = '8' ∨ c = '9' := by
      simpa [Digit] using h
    rcases this with rfl | rfl | rfl | rfl | rfl | rfl | rfl | rfl | rfl | rfl <;> decide

theorem takeDigits_sound : ∀ (cs d r : List Char), takeDigits cs = (d, r) → cs = d ++ r ∧ ∀ c ∈ d, Digit c := by
  intro cs
  induction cs with
  | nil =>
    intro d r h
    cases h
    exact ⟨rfl, by simp⟩
  | cons c cs ih =>
    intro d r h
    unfold takeDigits at h
    split at h
    · rename_i hc
      cases h
      obtain ⟨h1, h2⟩ := ih _ _ rfl
      refine ⟨by rw [List.cons_append, ← h1], ?_⟩
      intro x hx
      rcases List.mem_cons.mp hx with rfl | hx
      · exact digit_iff.mp hc
      · exact h2 x hx
    · cases h
      exact ⟨rfl, by simp⟩

theorem digits_of {d : List Char} (h : ¬ d.isEmpty) (hd : ∀ c ∈ d, Digit c) : Digits d :=
  ⟨fun e => h (by rw [e]; rfl), hd⟩

theorem parseFrac_sound {cs f r : List Char} (h : parseFrac cs = some (f, r)) : cs = f ++ r ∧ FracPart f := by
  unfold parseFrac at h
  split at h
  · rename_i cs'
    split at h
    rename_i d q hd
    obtain ⟨h1, h2⟩ := takeDigits_sound _ _ _ hd
    split at h
    · cases h
    · rename_i hne
      cases h
      exact ⟨by rw [h1]; rfl, Or.inr ⟨d, rfl, digits_of hne h2⟩⟩
  · cases h
    exact ⟨rfl, Or.inl rfl⟩

theorem parseExp_sound {cs f r : List Char} (h : parseExp cs = some (f, r)) : cs = f ++ r ∧ ExpPart f := by
  unfold parseExp at h
  split at h
  · rename_i c cs'
    split at h
    · rename_i hc
      split at h
      · rename_i s cs''
        split at h
        · rename_i hs
          split at h
          rename_i d q hd
          obtain ⟨h1, h2⟩ := takeDigits_sound _ _ _ hd
          split at h
          · cases h
          · rename_i hne
            cases h
            refine ⟨by rw [h1]; rfl, Or.inr ⟨c, [s], d, rfl, hc, ?_, digits_of hne h2⟩⟩
            rcases hs with rfl | rfl
            · exact Or.inr (Or.inl rfl)
            · exact Or.inr (Or.inr rfl)
        · split at h
          rename_i d q hd
          obtain ⟨h1, h2⟩ := takeDigits_sound _ _ _ hd
          split at h
          · cases h
          · rename_i hne
            cases h
            exact ⟨by rw [h1]; rfl, Or.inr ⟨c, [], d, rfl, hc, Or.inl rfl, digits_of hne h2⟩⟩
      · cases h
    · cases h
      exact ⟨rfl, Or.inl rfl⟩
  · cases h
    exact ⟨rfl, Or.inl rfl⟩

theorem fits_iff {t : List Char} {i : Int} : Fits t i ↔ t = intText i ∧ -(2 ^ 63) ≤ i ∧ i < 2 ^ 64 := by
  unfold Fits
  rw [← intText_eq i, String.toList_ofList]

theorem intText_injective {i j : Int} (h : intText i = intText j) : i = j := by
  cases i with
  | ofNat n =>
    cases j with
    | ofNat m => rw [natText_injective h]
    | negSucc m => exact absurd h (natText_head_ne_minus n _)
  | negSucc n =>
    cases j with
    | ofNat m => exact absurd h.symm (natText_head_ne_minus m _)
    | negSucc m =>
      have h2 : natText (n + 1) = natText (m + 1) := by injection h
      have := natText_injective h2
      rw [show n = m by omega]

theorem natText_zero : natText 0 = ['0'] := by decide

theorem minus_zero_not (i : Int) : '-' :: ['0'] ≠ intText i := by
  intro h
  cases i with
  | ofNat n => exact natText_head_ne_minus n ['0'] h.symm
  | negSucc n =>
    have : ['0'] = natText (n + 1) := by
      injection h
    rw [← natText_zero] at this
    have := natText_injective this
    omega

theorem intText_mem {i : Int} {c : Char} (h : c ∈ intText i) : c = '-' ∨ (digitNat c).isSome := by
  cases i with
  | ofNat n => exact Or.inr (natText_digits n c h)
  | negSucc n =>
    rcases List.mem_cons.mp h with rfl | h
    · exact Or.inl rfl
    · exact Or.inr (natText_digits _ c h)

theorem number_unique {t : List Char} {v w : Json} (h : Number t v) (h' : Number t w) : v = w := by
  rcases h.2 with ⟨i, hi, rfl⟩ | ⟨hn, rfl⟩
  · rcases h'.2 with ⟨j, hj, rfl⟩ | ⟨hn, rfl⟩
    · have := intText_injective ((fits_iff.mp hi).1.symm.trans (fits_iff.mp hj).1)
      rw [this]
    · exact absurd ⟨i, hi⟩ hn
  · rcases h'.2 with ⟨j, hj, rfl⟩ | ⟨_, rfl⟩
    · exact absurd ⟨j, hj⟩ hn
    · rfl

theorem intPart_of {d : List Char} (hd : ∀ c ∈ d, Digit c) (hne : ¬ d.isEmpty)
    (hz : ¬ (d.head? = some '0' ∧ d.length > 1)) : IntPart d := by
  cases d with
  | nil => exact absurd rfl hne
  | cons c r =>
    by_cases hc : c = '0'
    · left
      subst hc
      cases r with
      | nil => rfl
      | cons x r => exact absurd ⟨rfl, by simp⟩ hz
    · exact Or.inr ⟨c, r, rfl, hd c (by simp), hc, fun x hx => hd x (by simp [hx])⟩

theorem number_mkInt {d : List Char} {n : Nat} {neg : Bool} (hn : d = natText n)
    (ht : NumberText ((if neg = true then ['-'] else []) ++ d)) :
    Number ((if neg = true then ['-'] else []) ++ d) (mkInt neg n ((if neg = true then ['-'] else []) ++ d)) := by
  subst hn
  refine ⟨ht, ?_⟩
  cases neg with
  | false =>
    simp only [mkInt, Bool.false_eq_true, if_false, List.nil_append]
    by_cases hb : n < 2 ^ 64
    · rw [if_pos hb]
      exact Or.inl ⟨n, fits_iff.mpr ⟨rfl, by omega, by exact_mod_cast hb⟩, rfl⟩
    · rw [if_neg hb]
      refine Or.inr ⟨?_, rfl⟩
      rintro ⟨i, hi⟩
      obtain ⟨h1, h2, h3⟩ := fits_iff.mp hi
      have : (Int.ofNat n) = i := intText_injective h1
      apply hb
      rw [← this] at h3
      have h4 : ((n : Nat) : Int) < 2 ^ 64 := h3
      omega
  | true =>
    simp only [mkInt, if_true]
    by_cases hb : n = 0 ∨ n > 2 ^ 63
    · rw [if_pos hb]
      refine Or.inr ⟨?_, rfl⟩
      rintro ⟨i, hi⟩
      obtain ⟨h1, h2, h3⟩ := fits_iff.mp hi
      rcases hb with rfl | hb
      · exact minus_zero_not i h1
      · obtain ⟨m, rfl⟩ : ∃ m, n = m + 1 := ⟨n - 1, by omega⟩
        have : (Int.negSucc m) = i := intText_injective h1
        omega
    · rw [if_neg hb]
      obtain ⟨m, rfl⟩ : ∃ m, n = m + 1 := ⟨n - 1, by omega⟩
      exact Or.inl ⟨Int.negSucc m, fits_iff.mpr ⟨rfl, by omega, by omega⟩, by rw [Int.negSucc_eq]; rfl⟩

theorem not_fits {t : List Char} {c : Char} (hc : c ∈ t) (h1 : c ≠ '-') (h2 : digitNat c = none) :
    ¬ ∃ i, Fits t i := by
  rintro ⟨i, hi⟩
  obtain ⟨rfl, _⟩ := fits_iff.mp hi
  rcases intText_mem hc with h | h
  · exact h1 h
  · rw [h2] at h; cases h

theorem frac_mem {f : List Char} (h : FracPart f) (hne : f ≠ []) : '.' ∈ f := by
  rcases h with h | ⟨r, rfl, _⟩
  · exact absurd h hne
  · simp

theorem exp_mem {f : List Char} (h : ExpPart f) (hne : f ≠ []) : 'e' ∈ f ∨ 'E' ∈ f := by
  rcases h with h | ⟨e, s, r, rfl, h, _⟩
  · exact absurd h hne
  · rcases h with rfl | rfl
    · left; simp
    · right; simp

theorem splitSign_sound (cs : List Char) :
    cs = (if (splitSign cs).1 = true then ['-'] else []) ++ (splitSign cs).2 := by
  unfold splitSign
  split <;> simp

theorem parseNumber_sound {cs r : List Char} {v : Json} (h : parseNumber cs = some (v, r)) :
    ∃ t, cs = t ++ r ∧ Number t v := by
  unfold parseNumber at h
  have hs := splitSign_sound cs
  revert h hs
  rcases splitSign cs with ⟨neg, cs1⟩
  intro h hs
  simp only at h hs
  obtain ⟨h1, h2⟩ := takeDigits_sound cs1 _ _ rfl
  revert h h1 h2
  rcases takeDigits cs1 with ⟨d, q⟩
  intro h h1 h2
  simp only at h h1 h2
  split at h
  · cases h
  · rename_i hne
    split at h
    · cases h
    · rename_i hz
      split at h
      · cases h
      · rename_i f r1 hf
        obtain ⟨h3, h4⟩ := parseFrac_sound hf
        split at h
        · cases h
        · rename_i e r2 he
          obtain ⟨h5, h6⟩ := parseExp_sound he
          have hsign : (if neg = true then ['-'] else ([] : List Char)) = [] ∨
              (if neg = true then ['-'] else ([] : List Char)) = ['-'] := by
            cases neg
            · left; rfl
            · right; rfl
          have ht : NumberText ((if neg = true then ['-'] else []) ++ d ++ f ++ e) :=
            ⟨_, d, f, e, rfl, hsign, intPart_of h2 hne hz, h4, h6⟩
          have hcs : cs = ((if neg = true then ['-'] else []) ++ d ++ f ++ e) ++ r2 := by
            rw [hs, h1, h3, h5]; simp only [List.append_assoc]
          split at h
          · rename_i hfe
            obtain ⟨hf0, he0⟩ := hfe
            have hf1 := List.isEmpty_iff.mp hf0
            have he1 := List.isEmpty_iff.mp he0
            subst hf1
            subst he1
            simp only [List.append_nil] at ht hcs h
            split at h
            · rename_i n hn
              cases h
              have hdn : d = natText n :=
                HostCli.digits_canonical (HostCli.digits_iff.mpr ⟨(digits_of hne h2).1, hn⟩) hz
              exact ⟨_, hcs, number_mkInt hdn ht⟩
            · cases h
          · rename_i hfe
            cases h
            refine ⟨_, hcs, ht, Or.inr ⟨?_, rfl⟩⟩
            by_cases hf0 : f = []
            · have he0 : e ≠ [] := by
                rintro rfl
                exact hfe ⟨by rw [hf0]; rfl, rfl⟩
              rcases exp_mem h6 he0 with hm | hm
              · exact not_fits (c := 'e') (by simp [hm]) (by decide) (by decide)
              · exact not_fits (c := 'E') (by simp [hm]) (by decide) (by decide)
            · exact not_fits (c := '.') (by simp [frac_mem h4 hf0]) (by decide) (by decide)

/-- The text does not begin with a digit. -/
def NoDigit (t : List Char) : Prop := ∀ c, t.head? = some c → digitNat c = none

theorem exp_head {e r : List Char} (h : ExpPart e) (hr : Stop r) :
    ∀ c, (e ++ r).head? = some c → digitNat c = none ∧ c ≠ '.' := by
  intro c hc
  rcases h with rfl | ⟨x, s, q, rfl, hx, _⟩
  · exact ⟨(hr c hc).1, (hr c hc).2.1⟩
  · simp only [List.cons_append, List.head?_cons, Option.some.injEq] at hc
    subst hc
    rcases hx with rfl | rfl <;> decide

theorem frac_head {f e r : List Char} (hf : FracPart f) (h : ExpPart e) (hr : Stop r) :
    ∀ c, (f ++ (e ++ r)).head? = some c → digitNat c = none := by
  intro c hc
  rcases hf with rfl | ⟨q, rfl, _⟩
  · exact (exp_head h hr c hc).1
  · simp only [List.cons_append, List.head?_cons, Option.some.injEq] at hc
    subst hc
    decide

theorem digits_some {d : List Char} (h : ∀ c ∈ d, Digit c) : ∀ c ∈ d, (digitNat c).isSome :=
  fun c hc => digit_iff.mpr (h c hc)

theorem parseExp_complete {e r : List Char} (h : ExpPart e) (hr : Stop r) : parseExp (e ++ r) = some (e, r) := by
  rcases h with rfl | ⟨x, s, d, rfl, hx, hs, hd, hdd⟩
  · exact parseExp_stop hr
  · have ht := takeDigits_append d r (digits_some hdd) (fun c hc => (hr c hc).1)
    have hne : ¬ d.isEmpty := fun h => hd (List.isEmpty_iff.mp h)
    rw [List.cons_append, List.append_assoc]
    unfold parseExp
    simp only
    rw [if_pos hx]
    rcases hs with rfl | rfl | rfl
    · cases d with
      | nil => exact absurd rfl hd
      | cons y d =>
        have hy := digit_iff.mpr (hdd y (by simp))
        have hp : ¬ (y = '+' ∨ y = '-') := by
          rintro (rfl | rfl)
          · exact absurd hy (by decide)
          · exact absurd hy (by decide)
        simp only [List.nil_append, List.cons_append] at ht ⊢
        rw [if_neg hp, ht]
        simp
    · simp only [List.cons_append, List.nil_append]
      rw [ht]
      simp [hne]
    · simp only [List.cons_append, List.nil_append]
      rw [ht]
      simp [hne]

theorem parseFrac_complete {f e r : List Char} (hf : FracPart f) (h : ExpPart e) (hr : Stop r) :
    parseFrac (f ++ (e ++ r)) = some (f, e ++ r) := by
  rcases hf with rfl | ⟨d, rfl, hd, hdd⟩
  · rw [List.nil_append]
    unfold parseFrac
    split
    · rename_i heq
      exact absurd rfl (exp_head h hr '.' (by rw [heq]; rfl)).2
    · rfl
  · have hne : ¬ d.isEmpty := fun h => hd (List.isEmpty_iff.mp h)
    rw [List.cons_append]
    unfold parseFrac
    simp only
    rw [takeDigits_append d (e ++ r) (digits_some hdd) (fun c hc => (exp_head h hr c hc).1)]
    simp [hne]

theorem intPart_digits {d : List Char} (h : IntPart d) :
    (∀ c ∈ d, Digit c) ∧ ¬ d.isEmpty ∧ ¬ (d.head? = some '0' ∧ d.length > 1) := by
  rcases h with rfl | ⟨x, r, rfl, hx, hz, hr⟩
  · refine ⟨?_, by simp, by simp⟩
    intro c hc
    rw [List.mem_singleton.mp hc]
    unfold Digit
    decide
  · refine ⟨?_, by simp, by simp [hz]⟩
    intro c hc
    rcases List.mem_cons.mp hc with rfl | hc
    · exact hx
    · exact hr c hc

theorem digitsNat_some {d : List Char} : ∀ acc, (∀ c ∈ d, (digitNat c).isSome) → ∃ n, digitsNat acc d = some n := by
  induction d with
  | nil => intro acc _; exact ⟨acc, rfl⟩
  | cons c d ih =>
    intro acc h
    obtain ⟨x, hx⟩ := Option.isSome_iff_exists.mp (h c (by simp))
    obtain ⟨n, hn⟩ := ih (10 * acc + x) (fun c hc => h c (by simp [hc]))
    exact ⟨n, by rw [digitsNat, hx]; exact hn⟩

theorem splitSign_complete {s d : List Char} (hs : s = [] ∨ s = ['-']) (hd : IntPart d) (r : List Char) :
    ∃ neg, splitSign (s ++ (d ++ r)) = (neg, d ++ r) := by
  rcases hs with rfl | rfl
  · refine ⟨false, ?_⟩
    rw [List.nil_append]
    unfold splitSign
    split
    · rename_i heq
      obtain ⟨h1, h2, _⟩ := intPart_digits hd
      cases d with
      | nil => exact absurd rfl h2
      | cons c d =>
        rw [List.cons_append] at heq
        injection heq with hc _
        subst hc
        exact absurd (digit_iff.mpr (h1 '-' (by simp))) (by decide)
    · rfl
  · exact ⟨true, rfl⟩

theorem parseNumber_runs {t r : List Char} (h : NumberText t) (hr : Stop r) :
    ∃ v, parseNumber (t ++ r) = some (v, r) := by
  obtain ⟨s, d, f, e, rfl, hs, hd, hf, he⟩ := h
  obtain ⟨neg, hn⟩ := splitSign_complete hs hd (f ++ (e ++ r))
  obtain ⟨h1, h2, h3⟩ := intPart_digits hd
  obtain ⟨n, hdn⟩ := digitsNat_some (d := d) 0 (digits_some h1)
  have hcs : s ++ d ++ f ++ e ++ r = s ++ (d ++ (f ++ (e ++ r))) := by simp only [List.append_assoc]
  unfold parseNumber
  rw [hcs, hn]
  simp only [takeDigits_append d (f ++ (e ++ r)) (digits_some h1) (frac_head hf he hr)]
  rw [if_neg h2, if_neg h3]
  simp only [parseFrac_complete hf he hr, parseExp_complete he hr, hdn]
  split
  · exact ⟨_, rfl⟩
  · exact ⟨_, rfl⟩

theorem parseNumber_complete {t r : List Char} {v : Json} (h : Number t v) (hr : Stop r) :
    parseNumber (t ++ r) = some (v, r) := by
  obtain ⟨w, hw⟩ := parseNumber_runs h.1 hr
  obtain ⟨t', h1, h2⟩ := parseNumber_sound hw
  have := List.append_cancel_right h1
  subst this
  rw [hw, number_unique h h2]

theorem number_head {t : List Char} (h : NumberText t) :
    ∃ c r, t = c :: r ∧ (c = '-' ∨ (digitNat c).isSome) := by
  obtain ⟨s, d, f, e, rfl, hs, hd, _, _⟩ := h
  rcases hs with rfl | rfl
  · obtain ⟨h1, h2, _⟩ := intPart_digits hd
    cases d with
    | nil => exact absurd rfl h2
    | cons c d => exact ⟨c, _, rfl, Or.inr (digit_iff.mpr (h1 c (by simp)))⟩
  · exact ⟨'-', _, rfl, Or.inl rfl⟩

/-! ### Values -/

theorem value_head {n : Nat} {t : List Char} {v : Json} (h : Value n t v) :
    ∃ c r, t = c :: r ∧ isWs c = false ∧ c ≠ ']' := by
  cases h with
  | null => exact ⟨'n', _, rfl, by decide, by decide⟩
  | yes => exact ⟨'t', _, rfl, by decide, by decide⟩
  | no => exact ⟨'f', _, rfl, by decide, by decide⟩
  | number h =>
    obtain ⟨c, r, rfl, hc⟩ := number_head h.1
    refine ⟨c, r, rfl, ?_, ?_⟩
    · cases hw : isWs c with
      | false => rfl
      | true =>
        rcases isWs_iff.mp hw with rfl | rfl | rfl | rfl <;> exact absurd hc (by decide)
    · rintro rfl
      exact absurd hc (by decide)
  | string _ => exact ⟨'"', _, rfl, by decide, by decide⟩
  | emptyArray _ => exact ⟨'[', _, rfl, by decide, by decide⟩
  | array _ => exact ⟨'[', _, rfl, by decide, by decide⟩
  | emptyObject _ => exact ⟨'{', _, rfl, by decide, by decide⟩
  | object _ => exact ⟨'{', _, rfl, by decide, by decide⟩

theorem value_solid {n : Nat} {t : List Char} {v : Json} (h : Value n t v) : Solid t := by
  obtain ⟨c, r, h1, h2, _⟩ := value_head h
  exact ⟨c, r, h1, h2⟩

theorem stop_space {b r : List Char} (h : Space b) (hr : Stop r) : Stop (b ++ r) := by
  cases b with
  | nil => exact hr
  | cons c b =>
    intro x hx
    simp only [List.cons_append, List.head?_cons, Option.some.injEq] at hx
    subst hx
    rcases h c (by simp) with rfl | rfl | rfl | rfl <;> decide

theorem expect_sound {w cs r : List Char} (h : expect w cs = some r) : cs = w ++ r := by
  unfold expect at h
  split at h
  · rename_i hp
    cases h
    obtain ⟨s, rfl⟩ := List.isPrefixOf_iff_prefix.mp hp
    simp
  · cases h

theorem expect_complete (w r : List Char) : expect w (w ++ r) = some r := by
  unfold expect
  rw [if_pos (List.isPrefixOf_iff_prefix.mpr ⟨r, rfl⟩)]
  simp

theorem skipWs_eq {cs t : List Char} (h : skipWs cs = t) : ∃ a, Space a ∧ cs = a ++ t := by
  subst h
  exact skipWs_sound cs

theorem parse_sound : ∀ fuel,
    (∀ d cs v r, parseValue fuel d cs = some (v, r) → ∃ a t, cs = a ++ (t ++ r) ∧ Space a ∧ Value (d - 1) t v) ∧
    (∀ d cs vs r, parseElems fuel d cs = some (vs, r) → ∃ t, cs = t ++ ']' :: r ∧ Elements (d - 1) t vs) ∧
    (∀ d cs kvs r, parseMembers fuel d cs = some (kvs, r) → ∃ t, cs = t ++ '}' :: r ∧ Members (d - 1) t kvs) := by
  intro fuel
  induction fuel with
  | zero =>
    refine ⟨?_, ?_, ?_⟩ <;> (intro d cs v r h; simp [parseValue, parseElems, parseMembers] at h)
  | succ fuel ih =>
    obtain ⟨ihv, ihe, ihm⟩ := ih
    refine ⟨?_, ?_, ?_⟩
    · intro d cs v r h
      unfold parseValue at h
      split at h
      · cases h
      · rename_i c cs' hs
        obtain ⟨a, ha, rfl⟩ := skipWs_eq hs
        clear hs
        split at h
        · rename_i hc
          subst hc
          obtain ⟨r', h1, h2⟩ := Option.map_eq_some_iff.mp h
          cases h2
          rw [expect_sound h1]
          exact ⟨a, _, rfl, ha, Value.null⟩
        · split at h
          · rename_i hc
            subst hc
            obtain ⟨r', h1, h2⟩ := Option.map_eq_some_iff.mp h
            cases h2
            rw [expect_sound h1]
            exact ⟨a, _, rfl, ha, Value.yes⟩
          · split at h
            · rename_i hc
              subst hc
              obtain ⟨r', h1, h2⟩ := Option.map_eq_some_iff.mp h
              cases h2
              rw [expect_sound h1]
              exact ⟨a, _, rfl, ha, Value.no⟩
            · split at h
              · rename_i hc
                subst hc
                obtain ⟨⟨s, r'⟩, h1, h2⟩ := Option.map_eq_some_iff.mp h
                cases h2
                obtain ⟨t, rfl, hb⟩ := parseStr_sound _ _ _ _ (Nat.le_refl _) h1
                exact ⟨a, '"' :: (t ++ ['"']), by simp, ha, Value.string hb⟩
              · split at h
                · rename_i hc
                  subst hc
                  split at h
                  · cases h
                  · rename_i hd
                    obtain ⟨m, rfl⟩ : ∃ m, d = m + 2 := ⟨d - 2, by omega⟩
                    split at h
                    · rename_i hs'
                      cases h
                      obtain ⟨w, hw, rfl⟩ := skipWs_eq hs'
                      exact ⟨a, '[' :: (w ++ [']']), by simp, ha, Value.emptyArray hw⟩
                    · obtain ⟨⟨s, r'⟩, h1, h2⟩ := Option.map_eq_some_iff.mp h
                      cases h2
                      obtain ⟨t, rfl, hb⟩ := ihe _ _ _ _ h1
                      exact ⟨a, '[' :: (t ++ [']']), by simp, ha, Value.array hb⟩
                · split at h
                  · rename_i hc
                    subst hc
                    split at h
                    · cases h
                    · rename_i hd
                      obtain ⟨m, rfl⟩ : ∃ m, d = m + 2 := ⟨d - 2, by omega⟩
                      split at h
                      · rename_i hs'
                        cases h
                        obtain ⟨w, hw, rfl⟩ := skipWs_eq hs'
                        exact ⟨a, '{' :: (w ++ ['}']), by simp, ha, Value.emptyObject hw⟩
                      · obtain ⟨⟨s, r'⟩, h1, h2⟩ := Option.map_eq_some_iff.mp h
                        cases h2
                        obtain ⟨t, rfl, hb⟩ := ihm _ _ _ _ h1
                        exact ⟨a, '{' :: (t ++ ['}']), by simp, ha, Value.object hb⟩
                  · split at h
                    · obtain ⟨t, h1, h2⟩ := parseNumber_sound h
                      exact ⟨a, t, by rw [h1], ha, Value.number h2⟩
                    · cases h
    · intro d cs v r h
      unfold parseElems at h
      split at h
      · cases h
      · rename_i hv
        obtain ⟨a, t, rfl, ha, ht⟩ := ihv _ _ _ _ hv
        split at h
        · rename_i hs
          obtain ⟨b, hb, rfl⟩ := skipWs_eq hs
          obtain ⟨⟨s, r'⟩, h1, h2⟩ := Option.map_eq_some_iff.mp h
          cases h2
          obtain ⟨q, rfl, hq⟩ := ihe _ _ _ _ h1
          exact ⟨a ++ t ++ b ++ ',' :: q, by simp, .more ha ht hb hq⟩
        · rename_i hs
          obtain ⟨b, hb, rfl⟩ := skipWs_eq hs
          cases h
          exact ⟨a ++ t ++ b, by simp, .one ha ht hb⟩
        · cases h
    · intro d cs v r h
      unfold parseMembers at h
      split at h
      · rename_i hs
        obtain ⟨a, ha, rfl⟩ := skipWs_eq hs
        split at h
        · cases h
        · rename_i hk
          obtain ⟨k, rfl, hkb⟩ := parseStr_sound _ _ _ _ (Nat.le_refl _) hk
          split at h
          · rename_i hs2
            obtain ⟨b, hb, rfl⟩ := skipWs_eq hs2
            split at h
            · cases h
            · rename_i hv
              obtain ⟨c, t, rfl, hc, ht⟩ := ihv _ _ _ _ hv
              split at h
              · rename_i hs3
                obtain ⟨e, he, rfl⟩ := skipWs_eq hs3
                obtain ⟨⟨s, r'⟩, h1, h2⟩ := Option.map_eq_some_iff.mp h
                cases h2
                obtain ⟨q, rfl, hq⟩ := ihm _ _ _ _ h1
                exact ⟨a ++ '"' :: (k ++ '"' :: (b ++ ':' :: (c ++ t ++ e ++ ',' :: q))), by simp,
                  .more ha hkb hb hc ht he hq⟩
              · rename_i hs3
                obtain ⟨e, he, rfl⟩ := skipWs_eq hs3
                cases h
                exact ⟨a ++ '"' :: (k ++ '"' :: (b ++ ':' :: (c ++ t ++ e))), by simp,
                  .one ha hkb hb hc ht he⟩
              · cases h
          · cases h
      · cases h

theorem skipWs_before {a t : List Char} {c : Char} (ha : Space a) (hc : isWs c = false) :
    skipWs (a ++ c :: t) = c :: t := by
  rw [skipWs_space ha, skipWs, if_neg (by simp [hc])]

theorem elements_head {n : Nat} {t : List Char} {vs : List Json} (h : Elements n t vs) (r : List Char) :
    ∃ c q, skipWs (t ++ r) = c :: q ∧ c ≠ ']' := by
  cases h with
  | @one _ a t b v ha hv hb =>
    obtain ⟨c, q, rfl, h1, h2⟩ := value_head hv
    refine ⟨c, q ++ (b ++ r), ?_, h2⟩
    have := skipWs_before (t := q ++ (b ++ r)) ha h1
    simpa using this
  | @more _ a t b v s vs ha hv hb hs =>
    obtain ⟨c, q, rfl, h1, h2⟩ := value_head hv
    refine ⟨c, q ++ (b ++ (',' :: s ++ r)), ?_, h2⟩
    have := skipWs_before (t := q ++ (b ++ (',' :: s ++ r))) ha h1
    simpa using this

theorem members_head {n : Nat} {t : List Char} {kvs : List (String × Json)} (h : Members n t kvs) (r : List Char) :
    ∃ q, skipWs (t ++ r) = '"' :: q := by
  cases h with
  | one ha _ _ _ _ _ =>
    rw [List.append_assoc, List.cons_append]
    exact ⟨_, skipWs_before ha (by decide)⟩
  | more ha _ _ _ _ _ _ =>
    rw [List.append_assoc, List.cons_append]
    exact ⟨_, skipWs_before ha (by decide)⟩

theorem parse_complete : ∀ fuel,
    (∀ n t v a r, Space a → Value n t v → Stop r → 2 * t.length ≤ fuel →
      parseValue fuel (n + 1) (a ++ (t ++ r)) = some (v, r)) ∧
    (∀ n t vs r, Elements n t vs → 2 * t.length + 1 ≤ fuel →
      parseElems fuel (n + 1) (t ++ ']' :: r) = some (vs, r)) ∧
    (∀ n t kvs r, Members n t kvs → 2 * t.length + 1 ≤ fuel →
      parseMembers fuel (n + 1) (t ++ '}' :: r) = some (kvs, r)) := by
  intro fuel
  induction fuel with
  | zero =>
    refine ⟨?_, ?_, ?_⟩
    · intro n t v a r ha hv hr hf
      obtain ⟨c, q, rfl, _⟩ := value_head hv
      simp only [List.length_cons] at hf
      omega
    · intro n t vs r _ hf
      omega
    · intro n t vs r _ hf
      omega
  | succ fuel ih =>
    obtain ⟨ihv, ihe, ihm⟩ := ih
    refine ⟨?_, ?_, ?_⟩
    · intro n t v a r ha hv hr hf
      have hsk : skipWs (a ++ (t ++ r)) = t ++ r := by
        rw [skipWs_space ha]
        exact skipWs_solid (value_solid hv) r
      cases hv with
      | null =>
        rw [show "null".toList ++ r = 'n' :: (['u', 'l', 'l'] ++ r) from rfl] at hsk ⊢
        unfold parseValue
        rw [hsk]
        simp only [if_true]
        rw [expect_complete]
        rfl
      | yes =>
        rw [show "true".toList ++ r = 't' :: (['r', 'u', 'e'] ++ r) from rfl] at hsk ⊢
        unfold parseValue
        rw [hsk]
        simp only
        rw [if_neg (by decide), if_pos trivial, expect_complete]
        rfl
      | no =>
        rw [show "false".toList ++ r = 'f' :: (['a', 'l', 's', 'e'] ++ r) from rfl] at hsk ⊢
        unfold parseValue
        rw [hsk]
        simp only
        rw [if_neg (by decide), if_neg (by decide), if_pos trivial, expect_complete]
        rfl
      | number h =>
        have hp := parseNumber_complete h hr
        obtain ⟨c, q, rfl, hc⟩ := number_head h.1
        rw [List.cons_append] at hsk hp ⊢
        unfold parseValue
        rw [hsk]
        simp only
        have hne : ∀ x : Char, (x = '-' ∨ (digitNat x).isSome = true → False) → c ≠ x := by
          rintro x hx rfl
          exact hx hc
        rw [if_neg (hne _ (by decide)), if_neg (hne _ (by decide)), if_neg (hne _ (by decide)),
          if_neg (hne _ (by decide)), if_neg (hne _ (by decide)), if_neg (hne _ (by decide)), if_pos hc, hp]
      | @string _ t s h =>
        have hp := parseStr_complete h r
        rw [show '"' :: (t ++ ['"']) ++ r = '"' :: (t ++ '"' :: r) by simp] at hsk ⊢
        unfold parseValue
        rw [hsk]
        simp only
        rw [if_neg (by decide), if_neg (by decide), if_neg (by decide), if_pos trivial, hp]
        rfl
      | @emptyArray n w h =>
        rw [show '[' :: (w ++ [']']) ++ r = '[' :: (w ++ ']' :: r) by simp] at hsk ⊢
        unfold parseValue
        rw [hsk]
        simp only
        rw [if_neg (by decide), if_neg (by decide), if_neg (by decide), if_neg (by decide), if_pos trivial,
          if_neg (by omega), skipWs_before h (by decide)]
        rfl
      | @array n t vs h =>
        rw [show '[' :: (t ++ [']']) ++ r = '[' :: (t ++ ']' :: r) by simp] at hsk ⊢
        have hp := ihe n t vs r h (by simp only [List.length_cons, List.length_append, List.length_nil] at hf; omega)
        obtain ⟨c, q, hh, hc⟩ := elements_head h (']' :: r)
        unfold parseValue
        rw [hsk]
        simp only
        rw [if_neg (by decide), if_neg (by decide), if_neg (by decide), if_neg (by decide), if_pos trivial,
          if_neg (by omega), hh]
        split
        · rename_i heq
          injection heq with h1 _
          exact absurd h1 hc
        · rw [show n + 1 + 1 - 1 = n + 1 from rfl, hp]
          rfl
      | @emptyObject n w h =>
        rw [show '{' :: (w ++ ['}']) ++ r = '{' :: (w ++ '}' :: r) by simp] at hsk ⊢
        unfold parseValue
        rw [hsk]
        simp only
        rw [if_neg (by decide), if_neg (by decide), if_neg (by decide), if_neg (by decide), if_neg (by decide),
          if_pos trivial, if_neg (by omega), skipWs_before h (by decide)]
        rfl
      | @object n t vs h =>
        rw [show '{' :: (t ++ ['}']) ++ r = '{' :: (t ++ '}' :: r) by simp] at hsk ⊢
        have hp := ihm n t vs r h (by simp only [List.length_cons, List.length_append, List.length_nil] at hf; omega)
        obtain ⟨q, hh⟩ := members_head h ('}' :: r)
        unfold parseValue
        rw [hsk]
        simp only
        rw [if_neg (by decide), if_neg (by decide), if_neg (by decide), if_neg (by decide), if_neg (by decide),
          if_pos trivial, if_neg (by omega), hh]
        split
        · rename_i heq
          injection heq with h1 _
          exact absurd h1 (by decide)
        · rw [show n + 1 + 1 - 1 = n + 1 from rfl, hp]
          rfl
    · intro n t vs r h hf
      cases h with
      | @one _ a t b v ha hv hb =>
        have hp := ihv n t v a (b ++ ']' :: r) ha hv (stop_space hb (stop_cons (by simp)))
          (by simp only [List.length_append] at hf; omega)
        rw [show a ++ t ++ b ++ ']' :: r = a ++ (t ++ (b ++ ']' :: r)) by simp]
        unfold parseElems
        rw [hp]
        simp only
        rw [skipWs_before hb (by decide)]
        rfl
      | @more _ a t b v q vs ha hv hb hq =>
        have hp := ihv n t v a (b ++ ',' :: (q ++ ']' :: r)) ha hv (stop_space hb (stop_cons (by simp)))
          (by simp only [List.length_append, List.length_cons] at hf; omega)
        have hp2 := ihe n q vs r hq (by simp only [List.length_append, List.length_cons] at hf; omega)
        rw [show a ++ t ++ b ++ ',' :: q ++ ']' :: r = a ++ (t ++ (b ++ ',' :: (q ++ ']' :: r))) by simp]
        unfold parseElems
        rw [hp]
        simp only
        rw [skipWs_before hb (by decide)]
        simp only
        rw [hp2]
        rfl
    · intro n t vs r h hf
      cases h with
      | @one _ a k s b c t d v ha hk hb hc hv hd =>
        have hp := ihv n t v c (d ++ '}' :: r) hc hv (stop_space hd (stop_cons (by simp)))
          (by simp only [List.length_append, List.length_cons] at hf; omega)
        rw [show a ++ '"' :: (k ++ '"' :: (b ++ ':' :: (c ++ t ++ d))) ++ '}' :: r
          = a ++ '"' :: (k ++ '"' :: (b ++ ':' :: (c ++ (t ++ (d ++ '}' :: r))))) by simp]
        unfold parseMembers
        rw [skipWs_before ha (by decide)]
        simp only
        rw [parseStr_complete hk]
        simp only
        rw [skipWs_before hb (by decide)]
        simp only
        rw [hp]
        simp only
        rw [skipWs_before hd (by decide)]
        rfl
      | @more _ a k s b c t d v q kvs ha hk hb hc hv hd hq =>
        have hp := ihv n t v c (d ++ ',' :: (q ++ '}' :: r)) hc hv (stop_space hd (stop_cons (by simp)))
          (by simp only [List.length_append, List.length_cons] at hf; omega)
        have hp2 := ihm n q kvs r hq (by simp only [List.length_append, List.length_cons] at hf; omega)
        rw [show a ++ '"' :: (k ++ '"' :: (b ++ ':' :: (c ++ t ++ d ++ ',' :: q))) ++ '}' :: r
          = a ++ '"' :: (k ++ '"' :: (b ++ ':' :: (c ++ (t ++ (d ++ ',' :: (q ++ '}' :: r)))))) by simp]
        unfold parseMembers
        rw [skipWs_before ha (by decide)]
        simp only
        rw [parseStr_complete hk]
        simp only
        rw [skipWs_before hb (by decide)]
        simp only
        rw [hp]
        simp only
        rw [skipWs_before hd (by decide)]
        simp only
        rw [hp2]
        rfl

theorem parseText_iff {cs : List Char} {v : Json} : parseText cs = some v ↔ Document cs v := by
  constructor
  · intro h
    unfold parseText at h
    split at h
    · rename_i r hv
      split at h
      · rename_i hr
        cases h
        obtain ⟨a, t, h1, ha, ht⟩ := (parse_sound _).1 _ _ _ _ hv
        obtain ⟨b, hb, h2⟩ := skipWs_eq (List.isEmpty_iff.mp hr)
        refine ⟨a, t, b, ?_, ha, ht, hb⟩
        rw [h1, h2]
        simp
      · cases h
    · cases h
  · rintro ⟨a, t, b, rfl, ha, ht, hb⟩
    have hs : Stop b := by
      have := stop_space hb stop_nil
      rwa [List.append_nil] at this
    have hp := (parse_complete (2 * (a ++ t ++ b).length + 2)).1 127 t v a b ha ht hs
      (by simp only [List.length_append]; omega)
    unfold parseText
    rw [show a ++ t ++ b = a ++ (t ++ b) by simp] at hp ⊢
    rw [hp]
    have : skipWs b = [] := by
      have := skipWs_space hb []
      rwa [List.append_nil] at this
    simp [this]

end Qos.JsonText
