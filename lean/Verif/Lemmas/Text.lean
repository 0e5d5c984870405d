import Verif.Model.Text
import Mathlib.Tactic.IntervalCases
namespace Qos

theorem utf8Decode_utf8Chars (cs : List Char) :
    utf8Decode (cs.flatMap String.utf8EncodeChar) = some (String.ofList cs) := by
  have : (cs.flatMap String.utf8EncodeChar).toByteArray = cs.utf8Encode := rfl
  unfold utf8Decode
  rw [this, List.utf8Decode?_utf8Encode]
  simp

theorem utf8Decode_utf8 (s : String) : utf8Decode (utf8 s) = some s := by
  unfold utf8; rw [utf8Decode_utf8Chars]; simp

theorem utf8_injective {s t : String} (h : utf8 s = utf8 t) : s = t := by
  have := congrArg utf8Decode h
  simpa [utf8Decode_utf8] using this

theorem utf8Chars_injective {s t : List Char}
    (h : s.flatMap String.utf8EncodeChar = t.flatMap String.utf8EncodeChar) : s = t := by
  have := congrArg utf8Decode h
  simp only [utf8Decode_utf8Chars, Option.some.injEq] at this
  have := congrArg String.toList this
  simpa using this

theorem utf8_of_utf8Decode {bs : Bytes} {s : String} (h : utf8Decode bs = some s) : utf8 s = bs := by
  unfold utf8Decode at h
  rw [Option.map_eq_some_iff] at h
  obtain ⟨cs, h1, h2⟩ := h
  have hs : (ByteArray.utf8Decode? bs.toByteArray).isSome := by rw [h1]; rfl
  have h3 : ((ByteArray.utf8Decode? bs.toByteArray).get hs).toList.utf8Encode = bs.toByteArray :=
    ByteArray.utf8Encode_get_utf8Decode?
  have h4 : (ByteArray.utf8Decode? bs.toByteArray).get hs = cs := by simp [h1]
  rw [h4] at h3
  subst h2
  unfold utf8
  have : (cs.toList.flatMap String.utf8EncodeChar).toByteArray = bs.toByteArray := h3
  have h5 := congrArg (fun b : ByteArray => b.data.toList) this
  simpa using h5

theorem digitNat_digitChar {n : Nat} (h : n < 10) : digitNat (digitChar n) = some n := by
  interval_cases n <;> decide

theorem digitsNat_append (acc : Nat) (a b : List Char) :
    digitsNat acc (a ++ b) = (digitsNat acc a).bind fun x => digitsNat x b := by
  induction a generalizing acc with
  | nil => rfl
  | cons c a ih =>
    simp only [List.cons_append, digitsNat]
    cases digitNat c with
    | none => rfl
    | some d => exact ih _

theorem natTextAux_spec (fuel n : Nat) (h : n < fuel) :
    digitsNat 0 (natTextAux fuel n) = some n := by
  induction fuel generalizing n with
  | zero => omega
  | succ f ih =>
    unfold natTextAux
    split
    · rename_i h10
      simp [digitsNat, digitNat_digitChar h10]
    · rename_i h10
      rw [digitsNat_append, ih (n / 10) (by omega)]
      simp only [Option.bind_some, digitsNat, digitNat_digitChar (Nat.mod_lt n (by decide : 0 < 10))]
      congr 1; omega

theorem digitsNat_natText (n : Nat) : digitsNat 0 (natText n) = some n :=
  natTextAux_spec (n + 1) n (by omega)

theorem natTextAux_digits (fuel n : Nat) : ∀ c ∈ natTextAux fuel n, (digitNat c).isSome := by
  induction fuel generalizing n with
  | zero => simp [natTextAux]
  | succ f ih =>
    unfold natTextAux
    split
    · rename_i h10; simp [digitNat_digitChar h10]
    · intro c hc
      rw [List.mem_append] at hc
      rcases hc with hc | hc
      · exact ih _ c hc
      · simp only [List.mem_singleton] at hc
        subst hc
        simp [digitNat_digitChar (Nat.mod_lt n (by decide : 0 < 10))]

theorem natText_digits (n : Nat) : ∀ c ∈ natText n, (digitNat c).isSome := natTextAux_digits _ _

theorem natTextAux_ne_nil (fuel n : Nat) (h : n < fuel) : natTextAux fuel n ≠ [] := by
  cases fuel with
  | zero => omega
  | succ f => unfold natTextAux; split <;> simp

theorem natText_ne_nil (n : Nat) : natText n ≠ [] := natTextAux_ne_nil _ _ (by omega)

/-- No leading zero, except for the text `0` itself. -/
theorem natTextAux_head (fuel n : Nat) (h : n < fuel) (hn : 0 < n) :
    (natTextAux fuel n).head? ≠ some '0' := by
  induction fuel generalizing n with
  | zero => omega
  | succ f ih =>
    unfold natTextAux
    split
    · rename_i h10
      interval_cases n <;> decide
    · rw [List.head?_append, Option.or_of_isSome (by simpa using natTextAux_ne_nil _ _ (by omega))]
      exact ih _ (by omega) (by omega)

theorem natText_zero : natText 0 = ['0'] := by decide

theorem natText_no_leading_zero (n : Nat) :
    ¬ ((natText n).head? = some '0' ∧ (natText n).length > 1) := by
  rintro ⟨h1, h2⟩
  rcases Nat.eq_zero_or_pos n with rfl | hn
  · rw [natText_zero] at h2; simp at h2
  · exact natTextAux_head _ _ (by omega) hn h1

theorem natText_injective {m n : Nat} (h : natText m = natText n) : m = n := by
  have := congrArg (digitsNat 0) h
  simpa [digitsNat_natText] using this

theorem natText_head_ne_plus (n : Nat) (r : List Char) : natText n ≠ '+' :: r := by
  intro h
  have := natText_digits n '+' (by rw [h]; simp)
  revert this; decide

theorem natText_head_ne_minus (n : Nat) (r : List Char) : natText n ≠ '-' :: r := by
  intro h
  have := natText_digits n '-' (by rw [h]; simp)
  revert this; decide

theorem intText_injective {i j : Int} (h : intText i = intText j) : i = j := by
  cases i with
  | ofNat m => cases j with
    | ofNat n => simp only [intText] at h; rw [natText_injective h]
    | negSucc n => simp only [intText] at h; exact absurd h (natText_head_ne_minus _ _)
  | negSucc m => cases j with
    | ofNat n => simp only [intText] at h; exact absurd h.symm (natText_head_ne_minus _ _)
    | negSucc n =>
      simp only [intText, List.cons.injEq, true_and] at h
      have := natText_injective h
      simp only [Int.negSucc.injEq]; omega

theorem parseUnsigned_natText {bound n : Nat} (h : n < bound) :
    parseUnsigned bound (natText n) = some n := by
  have hs : stripPlus (natText n) = natText n := by
    unfold stripPlus
    split
    · rename_i r heq; exact absurd heq (natText_head_ne_plus n r)
    · rfl
  simp [parseUnsigned, hs, digitsNat_natText, natText_ne_nil, h]

theorem parseUnsigned_lt {bound n : Nat} {cs : List Char} (h : parseUnsigned bound cs = some n) :
    n < bound := by
  unfold parseUnsigned at h
  revert h
  generalize stripPlus cs = ds
  intro h
  cases hd : ds.isEmpty
  · cases hn : digitsNat 0 ds with
    | none => simp [hd, hn] at h
    | some m =>
      simp only [hd, hn, Bool.false_eq_true, if_false] at h
      by_cases hb : m < bound
      · simp only [hb, if_true, Option.some.injEq] at h; omega
      · simp [hb] at h
  · simp [hd] at h

/-! ### UTF-16 -/

theorem char_not_surrogate (c : Char) : ¬ (0xD800 ≤ c.toNat ∧ c.toNat < 0xE000) := by
  have := c.valid
  simp only [UInt32.isValidChar, Nat.isValidChar] at this
  simp only [Char.toNat] at *
  omega

theorem char_lt (c : Char) : c.toNat < 0x110000 := by
  have := c.valid
  simp only [UInt32.isValidChar, Nat.isValidChar] at this
  simp only [Char.toNat] at *
  omega

theorem utf16Char_prefix {a b : Char} {x y : List Nat} (h : utf16Char a ++ x = utf16Char b ++ y) :
    a = b ∧ x = y := by
  have ha := char_not_surrogate a
  have hb := char_not_surrogate b
  have ha' := char_lt a
  have hb' := char_lt b
  have key : a.toNat = b.toNat → a = b := fun h => Char.toNat_inj.mp h
  unfold utf16Char at h
  split at h <;> split at h <;>
    simp only [List.cons_append, List.nil_append, List.cons.injEq] at h
  · exact ⟨key h.1, h.2⟩
  · omega
  · omega
  · refine ⟨key ?_, h.2.2⟩
    omega

theorem utf16Chars_injective {a b : List Char} (h : a.flatMap utf16Char = b.flatMap utf16Char) :
    a = b := by
  have hne : ∀ c : Char, utf16Char c ≠ [] := by
    intro c; unfold utf16Char; split <;> simp
  induction a generalizing b with
  | nil => cases b with
    | nil => rfl
    | cons c b =>
      simp only [List.flatMap_nil, List.flatMap_cons] at h
      have := congrArg List.length h
      have h2 := List.length_pos_iff.mpr (hne c)
      simp only [List.length_nil, List.length_append] at this
      omega
  | cons d a ih => cases b with
    | nil =>
      simp only [List.flatMap_nil, List.flatMap_cons] at h
      have := congrArg List.length h
      have h2 := List.length_pos_iff.mpr (hne d)
      simp only [List.length_nil, List.length_append] at this
      omega
    | cons c b =>
      simp only [List.flatMap_cons] at h
      obtain ⟨hc, h⟩ := utf16Char_prefix h
      rw [ih h, hc]

theorem utf16_injective {a b : String} (h : utf16 a = utf16 b) : a = b := by
  have := utf16Chars_injective h
  exact String.toList_inj.mp this

end Qos
