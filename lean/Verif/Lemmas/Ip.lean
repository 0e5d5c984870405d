import Verif.Spec.HostCli
import Verif.Lemmas.Text
import Mathlib.Data.List.Induction
import Mathlib.Data.List.TakeWhile
import Mathlib.Tactic.IntervalCases
/-!
# Lemmas for IP addresses
-/
namespace Qos.Reaper

theorem digitChar_eq (n : Nat) (h : n < 10) : digitChar n = Nat.digitChar n := by
  revert h; revert n; decide

theorem natTextAux_toDigitsCore : ∀ (fuel n : Nat) (acc : List Char), n < fuel →
    Nat.toDigitsCore 10 fuel n acc = natTextAux fuel n ++ acc
  | 0, n, acc, h => absurd h (Nat.not_lt_zero _)
  | fuel + 1, n, acc, h => by
    unfold Nat.toDigitsCore natTextAux
    by_cases hn : n < 10
    · have h0 : n / 10 = 0 := by omega
      have h1 : n % 10 = n := by omega
      simp [hn, h0, h1, digitChar_eq]
    · have h0 : n / 10 ≠ 0 := by omega
      have h2 : n / 10 < fuel := by omega
      simp only [h0, if_false, hn]
      rw [natTextAux_toDigitsCore fuel (n / 10) _ h2, digitChar_eq _ (Nat.mod_lt _ (by decide))]
      simp

theorem natText_toString (n : Nat) : (toString n).toList = natText n := by
  have : toString n = String.ofList (Nat.toDigits 10 n) := rfl
  rw [this, String.toList_ofList]
  unfold Nat.toDigits natText
  rw [natTextAux_toDigitsCore _ _ _ (by omega)]
  simp

end Qos.Reaper

namespace Qos.HostCli

/-! ## Decimal -/

theorem digits_ne {cs : List Char} {n : Nat} (h : Digits cs n) : cs ≠ [] := by
  cases h <;> simp

theorem digits_sound {cs : List Char} {n : Nat} (h : Digits cs n) : digitsNat 0 cs = some n := by
  induction h with
  | one d hd => simp [digitsNat, show digitNat (Char.ofNat (48 + d)) = some d from digitNat_digitChar hd]
  | snoc cs n d _ hd ih =>
    rw [digitsNat_append, ih]
    simp [digitsNat, show digitNat (Char.ofNat (48 + d)) = some d from digitNat_digitChar hd]

theorem digitNat_char {c : Char} {d : Nat} (h : digitNat c = some d) : d < 10 ∧ c = Char.ofNat (48 + d) := by
  unfold digitNat at h
  split at h
  · rename_i hc
    have hd : d = c.toNat - 48 := (Option.some.inj h).symm
    subst hd
    refine ⟨by omega, ?_⟩
    rw [show 48 + (c.toNat - 48) = c.toNat from by omega, Char.ofNat_toNat]
  · cases h

theorem digits_complete {cs : List Char} {n : Nat} (hne : cs ≠ []) (h : digitsNat 0 cs = some n) : Digits cs n := by
  induction cs using List.reverseRecOn generalizing n with
  | nil => exact absurd rfl hne
  | append_singleton init c ih =>
    rw [digitsNat_append] at h
    cases hi : digitsNat 0 init with
    | none => rw [hi] at h; cases h
    | some m =>
      rw [hi] at h
      simp only [Option.bind_some, digitsNat] at h
      cases hc : digitNat c with
      | none => rw [hc] at h; cases h
      | some d =>
        rw [hc] at h
        obtain ⟨hd, rfl⟩ := digitNat_char hc
        have hn : n = 10 * m + d := (Option.some.inj h).symm
        subst hn
        by_cases he : init = []
        · subst he
          simp only [digitsNat, Option.some.injEq] at hi
          subst hi
          simpa using Digits.one d hd
        · exact .snoc init m d (ih he hi) hd

theorem digits_iff {cs : List Char} {n : Nat} : Digits cs n ↔ cs ≠ [] ∧ digitsNat 0 cs = some n :=
  ⟨fun h => ⟨digits_ne h, digits_sound h⟩, fun h => digits_complete h.1 h.2⟩

/-! ## IPv4 -/

theorem byte_all {P : UInt8 → Prop} (h : ∀ n : Fin 256, P (UInt8.ofNat n)) (b : UInt8) : P b := by
  have := h ⟨b.toNat, b.toNat_lt⟩
  simpa using this

theorem natTextAux_fuel : ∀ (f g n : Nat), n < f → n < g → natTextAux f n = natTextAux g n
  | 0, _, _, h, _ => absurd h (by omega)
  | _, 0, _, _, h => absurd h (by omega)
  | f + 1, g + 1, n, hf, hg => by
    unfold natTextAux
    by_cases h : n < 10
    · rw [if_pos h, if_pos h]
    · rw [if_neg h, if_neg h, natTextAux_fuel f g (n / 10) (by omega) (by omega)]

theorem natText_step {n d : Nat} (hn : 0 < n) (hd : d < 10) : natText (10 * n + d) = natText n ++ [digitChar d] := by
  conv => lhs; unfold natText natTextAux
  rw [if_neg (by omega), show (10 * n + d) / 10 = n from by omega, show (10 * n + d) % 10 = d from by omega,
    natTextAux_fuel (10 * n + d) (n + 1) n (by omega) (by omega)]
  rfl

/-- Digits without a leading zero are the decimal text of their value. -/
theorem digits_canonical {cs : List Char} {n : Nat} (h : Digits cs n) (hz : ¬ (cs.head? = some '0' ∧ 1 < cs.length)) :
    cs = natText n := by
  induction h with
  | one d hd =>
    unfold natText natTextAux
    rw [if_pos hd]
    rfl
  | snoc cs n d hc hd ih =>
    have hne := digits_ne hc
    obtain ⟨c, r, rfl⟩ := List.exists_cons_of_ne_nil hne
    have h0 : c ≠ '0' := fun e => hz ⟨by simp [e], by simp⟩
    have e := ih (fun hx => h0 (by simpa using hx.1))
    have hpos : 0 < n := by
      rcases Nat.eq_zero_or_pos n with rfl | h
      · rw [natText_zero] at e
        cases e
        exact absurd rfl h0
      · exact h
    rw [natText_step hpos hd, ← e]
    rfl

theorem readOctet_text (b : UInt8) (r : List Char) (hr : ∀ c ∈ r.head?, isDigit c = false) :
    readOctet (natText b.toNat ++ r) = some (b, r) := by
  have hd : ∀ c ∈ natText b.toNat, isDigit c = true := fun c hc => natText_digits _ c hc
  have ht : (natText b.toNat ++ r).takeWhile isDigit = natText b.toNat := by
    rw [List.takeWhile_append_of_pos hd]
    cases r with
    | nil => simp
    | cons c r => rw [List.takeWhile_cons_of_neg (by simp [hr c (by simp)])]; simp
  have hdr : (natText b.toNat ++ r).dropWhile isDigit = r := by
    rw [List.dropWhile_append_of_pos hd]
    cases r with
    | nil => rfl
    | cons c r => rw [List.dropWhile_cons_of_neg (by simp [hr c (by simp)])]
  have hlen : (natText b.toNat).length ≤ 3 := by
    have : ∀ b : UInt8, (natText b.toNat).length ≤ 3 := byte_all (by decide +kernel)
    exact this b
  unfold readOctet
  simp only [ht, hdr, digitsNat_natText]
  rw [if_neg (by
    rintro (h | h | h)
    · exact natText_ne_nil _ h
    · omega
    · exact natText_no_leading_zero _ h), if_pos b.toNat_lt]
  simp

theorem readOctet_some {cs r : List Char} {b : UInt8} (h : readOctet cs = some (b, r)) : cs = natText b.toNat ++ r := by
  unfold readOctet at h
  simp only at h
  split at h
  · cases h
  · rename_i hc
    simp only [not_or] at hc
    cases hd : digitsNat 0 (cs.takeWhile isDigit) with
    | none => rw [hd] at h; cases h
    | some n =>
      rw [hd] at h
      simp only at h
      split at h
      · rename_i hn
        simp only [Option.some.injEq, Prod.mk.injEq] at h
        obtain ⟨rfl, rfl⟩ := h
        have e := digits_canonical (digits_complete hc.1 hd) hc.2.2
        rw [UInt8.toNat_ofNat_of_lt' hn, ← e, List.takeWhile_append_dropWhile]
      · cases h

theorem readDotted_some {cs r : List Char} {b : UInt8} (h : readDotted cs = some (b, r)) :
    cs = '.' :: natText b.toNat ++ r := by
  unfold readDotted at h
  cases cs with
  | nil => cases h
  | cons c cs =>
    simp only [expect] at h
    by_cases hc : c = '.'
    · rw [if_pos hc] at h
      rw [readOctet_some h, hc]
      rfl
    · rw [if_neg hc] at h; cases h

theorem readDotted_text (b : UInt8) (r : List Char) (hr : ∀ c ∈ r.head?, isDigit c = false) :
    readDotted ('.' :: (natText b.toNat ++ r)) = some (b, r) := by
  unfold readDotted
  simp only [expect, if_true, Option.bind_some]
  exact readOctet_text b r hr

theorem chars_toList (i : Ipv4) : i.text.toList = i.chars := by
  unfold Ipv4.text Ipv4.chars
  rw [String.toList_append, String.toList_append, String.toList_append, String.toList_append, String.toList_append,
    String.toList_append, Reaper.natText_toString, Reaper.natText_toString, Reaper.natText_toString, Reaper.natText_toString]
  simp only [List.append_assoc]
  rfl

theorem readIpv4_some {cs r : List Char} {i : Ipv4} (h : readIpv4 cs = some (i, r)) : cs = i.chars ++ r := by
  unfold readIpv4 at h
  simp only [Option.bind_eq_some_iff, Prod.exists] at h
  obtain ⟨a, r1, h1, b, r2, h2, c, r3, h3, d, r4, h4, h5⟩ := h
  simp only [Option.some.injEq, Prod.mk.injEq] at h5
  obtain ⟨rfl, rfl⟩ := h5
  unfold Ipv4.chars
  rw [readOctet_some h1, readDotted_some h2, readDotted_some h3, readDotted_some h4]
  simp

theorem readIpv4_chars (i : Ipv4) (r : List Char) (hr : ∀ c ∈ r.head?, isDigit c = false) :
    readIpv4 (i.chars ++ r) = some (i, r) := by
  unfold readIpv4 Ipv4.chars
  have e : natText i.a.toNat ++ '.' :: (natText i.b.toNat ++ '.' :: (natText i.c.toNat ++ '.' :: natText i.d.toNat)) ++ r =
      natText i.a.toNat ++ '.' :: (natText i.b.toNat ++ '.' :: (natText i.c.toNat ++ '.' :: (natText i.d.toNat ++ r))) := by
    simp
  rw [e, readOctet_text _ _ (by simp; decide)]
  simp only [Option.bind_some]
  rw [readDotted_text _ _ (by simp; decide)]
  simp only [Option.bind_some]
  rw [readDotted_text _ _ (by simp; decide)]
  simp only [Option.bind_some]
  rw [readDotted_text _ _ hr]
  simp

theorem parseIpv4_iff {s : String} {i : Ipv4} : parseIpv4 s = some i ↔ s = i.text := by
  constructor
  · intro h
    unfold parseIpv4 at h
    split at h
    · cases h
    · simp only [Option.bind_eq_some_iff, Prod.exists] at h
      obtain ⟨j, r, h1, h2⟩ := h
      split at h2
      · rename_i he
        subst he
        cases h2
        apply String.toList_inj.mp
        rw [chars_toList, readIpv4_some h1, List.append_nil]
      · cases h2
  · rintro rfl
    have hlen : ¬ 15 < (utf8 i.text).length := by
      have key : ∀ b : UInt8, ((natText b.toNat).flatMap String.utf8EncodeChar).length ≤ 3 := byte_all (by decide +kernel)
      unfold utf8
      rw [chars_toList]
      have hdot : (String.utf8EncodeChar '.').length = 1 := by decide
      simp only [Ipv4.chars, List.flatMap_append, List.flatMap_cons, List.length_append, hdot]
      have h1 := key i.a
      have h2 := key i.b
      have h3 := key i.c
      have h4 := key i.d
      omega
    have h := readIpv4_chars i [] (by simp)
    rw [List.append_nil] at h
    unfold parseIpv4
    rw [if_neg hlen, chars_toList, h]
    simp

end Qos.HostCli

namespace Qos.Ip
open HostCli

/-! ## Hexadecimal -/

theorem digit_iff {c : Char} {d : Nat} : Digit c d ↔ hexNat c = some d := by
  constructor
  · intro h
    have hd : d < 16 := by
      rcases h with h | h <;> exact (List.getElem?_eq_some_iff.mp h).1
    unfold Digit at h
    interval_cases d <;> rcases h with h | h <;> cases h <;> decide
  · intro h
    unfold hexNat at h
    have key : ∀ n : Nat, n < 128 → hexNat (Char.ofNat n) = some d → Digit (Char.ofNat n) d := by
      have : ∀ n : Fin 128, ∀ k : Fin 16, hexNat (Char.ofNat n) = some k.val →
          ("0123456789abcdef".toList[k.val]? = some (Char.ofNat n) ∨ "0123456789ABCDEF".toList[k.val]? = some (Char.ofNat n)) := by
        decide +kernel
      intro n hn hx
      have hd : d < 16 := by
        revert hx
        unfold hexNat
        have hv : (Char.ofNat n).toNat = n := by
          have : ∀ k : Fin 128, (Char.ofNat k).toNat = k.val := by decide +kernel
          exact this ⟨n, hn⟩
        rw [hv]
        split
        · intro hx; cases hx; omega
        · split
          · intro hx; cases hx; omega
          · split
            · intro hx; cases hx; omega
            · intro hx; cases hx
      exact this ⟨n, hn⟩ ⟨d, hd⟩ hx
    have hc : c.toNat < 128 := by
      revert h
      split
      · omega
      · split
        · omega
        · split
          · omega
          · intro h; cases h
    have := key c.toNat hc (by rw [Char.ofNat_toNat]; exact h)
    rwa [Char.ofNat_toNat] at this

theorem hexNat_lt {c : Char} {d : Nat} (h : hexNat c = some d) : d < 16 := by
  rcases digit_iff.mpr h with h | h <;> exact (List.getElem?_eq_some_iff.mp h).1

theorem hexValue_snoc (cs : List Char) (c : Char) : hexValue (cs ++ [c]) = 16 * hexValue cs + (hexNat c).getD 0 := by
  unfold hexValue; rw [List.foldl_append]; rfl

theorem hexDigits_iff {cs : List Char} {n : Nat} : HexDigits cs n ↔ (∀ c ∈ cs, isHex c = true) ∧ hexValue cs = n := by
  constructor
  · intro h
    induction h with
    | nil => exact ⟨by simp, rfl⟩
    | @snoc cs n c d hc hd ih =>
      have := digit_iff.mp hd
      refine ⟨fun x hx => ?_, by rw [hexValue_snoc, ih.2, this]; rfl⟩
      rcases List.mem_append.mp hx with hx | hx
      · exact ih.1 x hx
      · rw [List.mem_singleton.mp hx]; simp [isHex, this]
  · rintro ⟨h, rfl⟩
    induction cs using List.reverseRecOn with
    | nil => exact .nil
    | append_singleton cs c ih =>
      rw [hexValue_snoc]
      have hc : isHex c = true := h c (by simp)
      unfold isHex at hc
      obtain ⟨d, hd⟩ := Option.isSome_iff_exists.mp hc
      rw [hd]
      exact .snoc (ih fun x hx => h x (by simp [hx])) (digit_iff.mpr hd)

theorem hexValue_lt (cs : List Char) (h : ∀ c ∈ cs, isHex c = true) : hexValue cs < 16 ^ cs.length := by
  induction cs using List.reverseRecOn with
  | nil => simp [hexValue]
  | append_singleton cs c ih =>
    have hc : isHex c = true := h c (by simp)
    obtain ⟨d, hd⟩ := Option.isSome_iff_exists.mp (show (hexNat c).isSome = true from hc)
    have := ih fun x hx => h x (by simp [hx])
    rw [hexValue_snoc, hd, List.length_append, List.length_singleton, Nat.pow_succ]
    have := hexNat_lt hd
    simp only [Option.getD_some]
    omega

theorem group_iff {t : List Char} {g : UInt16} : Group t g ↔
    t ≠ [] ∧ t.length ≤ 4 ∧ (∀ c ∈ t, isHex c = true) ∧ UInt16.ofNat (hexValue t) = g := by
  unfold Group
  rw [hexDigits_iff]
  constructor
  · rintro ⟨h1, h2, h3, h4⟩
    exact ⟨by rintro rfl; simp at h1, h2, h3, by rw [h4]; simp⟩
  · rintro ⟨h1, h2, h3, rfl⟩
    refine ⟨List.length_pos_iff.mpr h1, h2, h3, ?_⟩
    have h := hexValue_lt t h3
    have : 16 ^ t.length ≤ 16 ^ 4 := Nat.pow_le_pow_right (by decide) h2
    have e : (16 : Nat) ^ 4 = 65536 := by decide
    rw [UInt16.toNat_ofNat_of_lt' (show hexValue t < 65536 by omega)]

theorem readHex_some {cs r : List Char} {g : UInt16} (h : readHex cs = some (g, r)) : ∃ t, cs = t ++ r ∧ Group t g := by
  unfold readHex at h
  simp only at h
  split at h
  · cases h
  · rename_i hc
    simp only [not_or, Nat.not_lt] at hc
    simp only [Option.some.injEq, Prod.mk.injEq] at h
    refine ⟨cs.takeWhile isHex, by rw [← h.2, List.takeWhile_append_dropWhile], group_iff.mpr ⟨hc.1, hc.2, ?_, h.1⟩⟩
    intro c hx
    exact List.mem_takeWhile_imp hx

theorem readHex_group {t r : List Char} {g : UInt16} (h : Group t g) (hr : ∀ c ∈ r.head?, isHex c = false) :
    readHex (t ++ r) = some (g, r) := by
  obtain ⟨h1, h2, h3, rfl⟩ := group_iff.mp h
  have ht : (t ++ r).takeWhile isHex = t := by
    rw [List.takeWhile_append_of_pos h3]
    cases r with
    | nil => simp
    | cons c r => rw [List.takeWhile_cons_of_neg (by simp [hr c (by simp)])]; simp
  have hd : (t ++ r).dropWhile isHex = r := by
    rw [List.dropWhile_append_of_pos h3]
    cases r with
    | nil => rfl
    | cons c r => rw [List.dropWhile_cons_of_neg (by simp [hr c (by simp)])]
  unfold readHex
  simp only [ht, hd]
  rw [if_neg (by rintro (h | h); exact h1 h; omega)]

theorem isHex_of_isDigit {c : Char} (h : isDigit c = true) : isHex c = true := by
  unfold isDigit digitNat at h
  unfold isHex hexNat
  split at h
  · rename_i hc; rw [if_pos hc]; rfl
  · simp at h

/-- A group is not the beginning of an IPv4 address. -/
theorem readIpv4_group {t r : List Char} {g : UInt16} (h : Group t g) (hr : ∀ c ∈ r.head?, isHex c = false ∧ c ≠ '.') :
    readIpv4 (t ++ r) = none := by
  obtain ⟨h1, h2, h3, -⟩ := group_iff.mp h
  cases hx : readIpv4 (t ++ r) with
  | none => rfl
  | some x =>
    exfalso
    obtain ⟨i, q⟩ := x
    have e := readIpv4_some hx
    unfold Ipv4.chars at e
    rw [List.append_assoc, List.cons_append] at e
    have hd : ∀ c ∈ natText i.a.toNat, isHex c = true := fun c hc => isHex_of_isDigit (natText_digits _ c hc)
    rcases List.append_eq_append_iff.mp e with ⟨u, hu, hv⟩ | ⟨u, hu, hv⟩
    · cases u with
      | nil =>
        rw [List.nil_append] at hv
        have := hr '.' (by rw [hv]; rfl)
        exact this.2 rfl
      | cons c u =>
        have := hr c (by rw [hv]; rfl)
        rw [hd c (by rw [hu]; simp)] at this
        cases this.1
    · cases u with
      | nil =>
        rw [List.nil_append] at hv
        have := hr '.' (by rw [← hv]; rfl)
        exact this.2 rfl
      | cons c u =>
        rw [List.cons_append, List.cons.injEq] at hv
        have := h3 c (by rw [hu]; simp)
        rw [← hv.1] at this
        revert this; decide

/-! ## Groups -/

theorem group_pair (a b : UInt8) : Pair (group a b) a b := by
  unfold Pair group
  have := a.toNat_lt
  have := b.toNat_lt
  rw [UInt16.toNat_ofNat_of_lt' (show 256 * a.toNat + b.toNat < 65536 by omega)]

theorem Pair.eq {g : UInt16} {a b : UInt8} (h : Pair g a b) : group a b = g :=
  UInt16.toNat_inj.mp ((group_pair a b).trans h.symm)

theorem readIpv4_colon (q : List Char) : readIpv4 (':' :: q) = none := by
  have : readOctet (':' :: q) = none := by
    unfold readOctet
    rw [List.takeWhile_cons_of_neg (by decide)]
    simp
  unfold readIpv4; rw [this]; rfl

theorem readHex_colon (q : List Char) : readHex (':' :: q) = none := by
  unfold readHex
  rw [List.takeWhile_cons_of_neg (by decide)]
  simp

/-- Where groups end: at the end or at `::`. -/
def Stop (r : List Char) : Prop := r = [] ∨ ∃ q, r = ':' :: ':' :: q

/-- With the separator, except before the first group. -/
def sep (first : Bool) (t : List Char) : List Char := if first then t else ':' :: t

theorem separated_sep {α : Type} (first : Bool) (read : List Char → Option (α × List Char)) (t r : List Char) :
    separated first read (sep first t ++ r) = read (t ++ r) := by
  cases first
  · simp [separated, sep, expect]
  · simp [separated, sep]

theorem separated_stop {α : Type} {first : Bool} {read : List Char → Option (α × List Char)} {r : List Char} (h : Stop r)
    (h0 : read [] = none) (h1 : ∀ q, read (':' :: q) = none) : separated first read r = none := by
  cases first
  · rcases h with rfl | ⟨q, rfl⟩
    · rfl
    · simpa [separated, expect] using h1 q
  · rcases h with rfl | ⟨q, rfl⟩
    · exact h0
    · exact h1 _

theorem readGroups_stop (n : Nat) (first : Bool) {r : List Char} (h : Stop r) : readGroups n first r = ([], false, r) := by
  cases n with
  | zero => rfl
  | succ n =>
    have h1 : readEmbedded (n + 1) first r = none := by
      unfold readEmbedded
      split
      · exact separated_stop h rfl readIpv4_colon
      · rfl
    unfold readGroups
    rw [h1, separated_stop h rfl readHex_colon]

theorem stop_head {r : List Char} (h : Stop r) : ∀ c ∈ r.head?, isHex c = false ∧ c ≠ '.' := by
  rcases h with rfl | ⟨q, rfl⟩
  · simp
  · intro c hc; cases hc; decide

theorem not_digit {c : Char} (h : isHex c = false) : isDigit c = false := by
  cases hd : isDigit c with
  | false => rfl
  | true => rw [isHex_of_isDigit hd] at h; cases h

theorem Pieces.pos {b : Bool} {t : List Char} {gs : List UInt16} (h : Pieces b t gs) : 1 ≤ gs.length := by
  cases h <;> simp

theorem readEmbedded_group {n : Nat} {first : Bool} {t r : List Char} {g : UInt16} (h : Group t g)
    (hr : ∀ c ∈ r.head?, isHex c = false ∧ c ≠ '.') : readEmbedded n first (sep first t ++ r) = none := by
  unfold readEmbedded
  split
  · rw [separated_sep, readIpv4_group h hr]
  · rfl

theorem readGroups_pieces {b : Bool} {t : List Char} {gs : List UInt16} (h : Pieces b t gs) : ∀ (n : Nat) (first : Bool)
    (r : List Char), gs.length ≤ n → Stop r → readGroups n first (sep first t ++ r) = (gs, b, r) := by
  induction h with
  | @one t g hg =>
    intro n first r hn hr
    obtain ⟨m, rfl⟩ : ∃ m, n = m + 1 := ⟨n - 1, by simp at hn; omega⟩
    unfold readGroups
    rw [readEmbedded_group hg (stop_head hr), separated_sep, readHex_group hg fun c hc => (stop_head hr c hc).1]
    simp only
    rw [readGroups_stop m false hr]
  | embedded i hx hy =>
    intro n first r hn hr
    obtain ⟨m, rfl⟩ : ∃ m, n = m + 1 := ⟨n - 1, by simp at hn; omega⟩
    have h2 : 2 ≤ m + 1 := by simpa using hn
    unfold readGroups readEmbedded
    rw [if_pos h2, separated_sep, chars_toList, readIpv4_chars i r fun c hc => not_digit (stop_head hr c hc).1]
    simp only
    rw [hx.eq, hy.eq]
  | @cons b t r' g gs hg _ ih =>
    intro n first r hn hr
    obtain ⟨m, rfl⟩ : ∃ m, n = m + 1 := ⟨n - 1, by simp at hn; omega⟩
    have hc : ∀ c ∈ (':' :: (r' ++ r)).head?, isHex c = false ∧ c ≠ '.' := by intro c hc; cases hc; decide
    have e : sep first (t ++ ':' :: r') ++ r = sep first t ++ (':' :: (r' ++ r)) := by
      cases first <;> simp [sep]
    have := ih m false r (by simpa using hn) hr
    rw [show sep false r' ++ r = ':' :: (r' ++ r) from rfl] at this
    unfold readGroups
    rw [e, readEmbedded_group hg hc, separated_sep, readHex_group hg fun c hx => (hc c hx).1]
    simp only
    rw [this]

theorem separated_some {α : Type} {first : Bool} {read : List Char → Option (α × List Char)} {cs r : List Char} {x : α}
    (h : separated first read cs = some (x, r)) : ∃ q, cs = sep first q ∧ read q = some (x, r) := by
  cases first
  · simp only [separated, Bool.false_eq_true, if_false, Option.bind_eq_some_iff] at h
    obtain ⟨q, h1, h2⟩ := h
    cases cs with
    | nil => cases h1
    | cons c cs =>
      simp only [expect] at h1
      split at h1
      · rename_i hc
        cases h1
        exact ⟨q, by rw [hc]; rfl, h2⟩
      · cases h1
  · exact ⟨cs, rfl, h⟩

theorem sep_append (first : Bool) (t r : List Char) : sep first (t ++ r) = sep first t ++ r := by
  cases first <;> simp [sep]

theorem readGroups_cases (n : Nat) : ∀ (first : Bool) (cs : List Char),
    ((readGroups n first cs).1 = [] ∧ (readGroups n first cs).2.1 = false ∧ (readGroups n first cs).2.2 = cs) ∨
    ∃ t, cs = sep first t ++ (readGroups n first cs).2.2 ∧ Pieces (readGroups n first cs).2.1 t (readGroups n first cs).1 ∧
      (readGroups n first cs).1.length ≤ n := by
  induction n with
  | zero => intro first cs; exact .inl ⟨rfl, rfl, rfl⟩
  | succ n ih =>
    intro first cs
    unfold readGroups
    cases he : readEmbedded (n + 1) first cs with
    | some x =>
      obtain ⟨i, r⟩ := x
      right
      simp only
      unfold readEmbedded at he
      split at he
      · rename_i hn
        obtain ⟨q, rfl, hq⟩ := separated_some he
        refine ⟨i.chars, by rw [readIpv4_some hq, sep_append], ?_, by simpa using hn⟩
        rw [← chars_toList]
        exact .embedded i (group_pair _ _) (group_pair _ _)
      · cases he
    | none =>
      simp only
      cases hs : separated first readHex cs with
      | none => exact .inl ⟨rfl, rfl, rfl⟩
      | some x =>
        obtain ⟨g, r⟩ := x
        right
        simp only
        obtain ⟨q, rfl, hq⟩ := separated_some hs
        obtain ⟨t, rfl, hg⟩ := readHex_some hq
        rcases ih false r with ⟨h1, h2, h3⟩ | ⟨u, h1, h2, h3⟩
        · refine ⟨t, by rw [h3, sep_append], ?_, by simp [h1]⟩
          rw [h1, h2]; exact .one hg
        · refine ⟨t ++ ':' :: u, ?_, .cons hg h2, by simpa using h3⟩
          generalize (readGroups n false r).2.2 = q at h1
          rw [h1]
          cases first <;> simp [sep]

/-! ## Addresses -/

theorem ofGroups_some {gs : List UInt16} {a : Ipv6} : ofGroups gs = some a ↔ gs = a.groups := by
  unfold ofGroups
  constructor
  · intro h
    split at h
    · cases h; rfl
    · cases h
  · rintro rfl
    rw [dif_pos a.eight]

theorem expect_some {c : Char} {cs r : List Char} : expect c cs = some r ↔ cs = c :: r := by
  cases cs with
  | nil => simp [expect]
  | cons x cs =>
    simp only [expect]
    split
    · rename_i h; simp [h]
    · rename_i h; simp [h]

theorem maybe_read {b : Bool} {t : List Char} {gs : List UInt16} (h : MaybePieces b t gs) (n : Nat) {r : List Char}
    (hn : gs.length ≤ n) (hr : Stop r) : readGroups n true (t ++ r) = (gs, b, r) := by
  rcases h with ⟨rfl, rfl, rfl⟩ | h
  · exact readGroups_stop n true hr
  · exact readGroups_pieces h n true r hn hr

theorem read_maybe (n : Nat) (cs : List Char) : ∃ t, cs = t ++ (readGroups n true cs).2.2 ∧
    MaybePieces (readGroups n true cs).2.1 t (readGroups n true cs).1 ∧ (readGroups n true cs).1.length ≤ n := by
  rcases readGroups_cases n true cs with ⟨h1, h2, h3⟩ | ⟨t, h1, h2, h3⟩
  · exact ⟨[], by rw [h3]; rfl, .inl ⟨h2, rfl, h1⟩, by simp [h1]⟩
  · exact ⟨t, h1, .inr h2, h3⟩

theorem readIpv6_iff {cs : List Char} {a : Ipv6} : readIpv6 cs = some (a, []) ↔ (∃ b, Pieces b cs a.groups) ∨
    ∃ b h t hs ts k, MaybePieces false h hs ∧ MaybePieces b t ts ∧ 1 ≤ k ∧ a.groups = hs ++ List.replicate k 0 ++ ts ∧
      cs = h ++ "::".toList ++ t := by
  have e : "::".toList = [':', ':'] := rfl
  rw [e]
  constructor
  · intro hr
    unfold readIpv6 at hr
    obtain ⟨t, h1, h2, h3⟩ := read_maybe 8 cs
    simp only at hr
    split at hr
    · rename_i h8
      simp only [Option.map_eq_some_iff, Prod.mk.injEq, ofGroups_some] at hr
      obtain ⟨x, hg, rfl, hn⟩ := hr
      rw [hn, List.append_nil] at h1
      rcases h2 with ⟨-, -, h2⟩ | h2
      · rw [h2] at h8; cases h8
      · subst h1
        rw [hg] at h2
        exact .inl ⟨_, h2⟩
    · rename_i h8
      split at hr
      · cases hr
      · rename_i hb
        simp only [Bool.not_eq_true] at hb
        rw [hb] at h2
        unfold readTail at hr
        simp only [Option.bind_eq_some_iff, expect_some, Option.map_eq_some_iff, Prod.mk.injEq, ofGroups_some] at hr
        obtain ⟨q, hq, q2, hq2, x, hg, rfl, hn⟩ := hr
        obtain ⟨t', g1, g2, g3⟩ := read_maybe (7 - (readGroups 8 true cs).1.length) q2
        rw [hn, List.append_nil] at g1
        refine .inr ⟨_, t, t', _, _, _, h2, g2, ?_, hg.symm, ?_⟩
        · omega
        · rw [h1]
          generalize readGroups 8 true cs = w at *
          rw [hq, hq2, ← g1]
          simp
  · rintro (⟨b, h⟩ | ⟨b, h, t, hs, ts, k, h1, h2, h3, h4, rfl⟩)
    · have := maybe_read (.inr h) 8 (r := []) (by rw [a.eight]) (.inl rfl)
      rw [List.append_nil] at this
      unfold readIpv6
      simp only [this]
      rw [if_pos a.eight, ofGroups_some.mpr rfl]
      rfl
    · have hlen : hs.length + k + ts.length = 8 := by
        have := a.eight
        rw [h4] at this
        simp only [List.length_append, List.length_replicate] at this
        exact this
      have g := maybe_read h1 8 (r := ':' :: ':' :: t) (by omega) (.inr ⟨_, rfl⟩)
      have g2 := maybe_read h2 (7 - hs.length) (r := []) (by omega) (.inl rfl)
      rw [List.append_nil] at g2
      unfold readIpv6
      rw [show h ++ [':', ':'] ++ t = h ++ ':' :: ':' :: t by simp]
      simp only [g]
      rw [if_neg (by omega), if_neg (by simp)]
      unfold readTail
      have e1 : ∀ q, expect ':' (':' :: q) = some q := fun q => rfl
      simp only [e1, Option.bind_some, g2]
      rw [show 8 - hs.length - ts.length = k by omega, ofGroups_some.mpr h4.symm]
      rfl

/-- An IPv6 text does not begin with an IPv4 address. -/
theorem readIpv4_maybe {h t : List Char} {hs : List UInt16} (hm : MaybePieces false h hs) (ht : t = [] → h ≠ [])
    (hr : Stop t) : readIpv4 (h ++ t) = none := by
  rcases hm with ⟨-, rfl, rfl⟩ | hp
  · rcases hr with rfl | ⟨q, rfl⟩
    · exact absurd rfl (ht rfl)
    · exact readIpv4_colon _
  · cases hp with
    | one hg => exact readIpv4_group hg (stop_head hr)
    | @cons _ t' r' _ _ hg _ =>
      rw [show t' ++ ':' :: r' ++ t = t' ++ ':' :: (r' ++ t) by simp]
      exact readIpv4_group hg (by intro c hc; cases hc; decide)

theorem parse_iff {s : String} {a : IpAddr} : parse s = some a ↔ Denotes s.toList a := by
  have key : parse s = some a ↔ readIp s.toList = some (a, []) := by
    unfold parse
    simp only [Option.bind_eq_some_iff, Prod.exists]
    constructor
    · rintro ⟨x, r, h1, h2⟩
      split at h2
      · rename_i hr; cases h2; rw [← hr]; exact h1
      · cases h2
    · intro h
      exact ⟨a, [], h, by simp⟩
  rw [key]
  generalize s.toList = cs
  unfold readIp
  constructor
  · intro h
    cases h4 : readIpv4 cs with
    | some x =>
      rw [h4] at h
      obtain ⟨i, r⟩ := x
      simp only [Option.some.injEq, Prod.mk.injEq] at h
      obtain ⟨rfl, rfl⟩ := h
      rw [readIpv4_some h4, List.append_nil, ← chars_toList]
      exact .v4 i
    | none =>
      rw [h4] at h
      simp only [Option.map_eq_some_iff, Prod.exists, Prod.mk.injEq] at h
      obtain ⟨x, r, h6, rfl, rfl⟩ := h
      rcases readIpv6_iff.mp h6 with ⟨b, h⟩ | ⟨b, h, t, hs, ts, k, h1, h2, h3, g, rfl⟩
      · exact .full x h
      · exact .short x h1 h2 h3 g
  · intro h
    cases h with
    | v4 i =>
      have := readIpv4_chars i [] (by simp)
      rw [List.append_nil] at this
      rw [chars_toList, this]
    | full x hp =>
      have h4 : readIpv4 cs = none := by
        have h8 := x.eight
        generalize x.groups = gs at hp h8
        cases hp with
        | one hg => cases h8
        | embedded i _ _ => cases h8
        | cons hg _ => exact readIpv4_group hg (by intro c hc; cases hc; decide)
      rw [h4]
      simp only
      rw [readIpv6_iff.mpr (.inl ⟨_, hp⟩)]
      rfl
    | @short b h t hs ts k x h1 h2 h3 g =>
      have h4 : readIpv4 (h ++ "::".toList ++ t) = none := by
        rw [List.append_assoc]
        exact readIpv4_maybe h1 (by intro h; cases h) (.inr ⟨t, rfl⟩)
      rw [h4]
      simp only
      rw [readIpv6_iff.mpr (.inr ⟨b, h, t, hs, ts, k, h1, h2, h3, g, rfl⟩)]
      rfl

/-! ## Writing -/

theorem hexChar_fact : ∀ d : Fin 16, hexNat (hexChar d) = some d.val ∧ hexChar d ∈ "0123456789abcdef".toList ∧
    (hexChar d = '0' → d.val = 0) := by decide +kernel

theorem hexNat_hexChar {d : Nat} (h : d < 16) : hexNat (hexChar d) = some d := (hexChar_fact ⟨d, h⟩).1
theorem hexChar_mem {d : Nat} (h : d < 16) : hexChar d ∈ "0123456789abcdef".toList := (hexChar_fact ⟨d, h⟩).2.1
theorem hexChar_zero {d : Nat} (h : d < 16) (he : hexChar d = '0') : d = 0 := (hexChar_fact ⟨d, h⟩).2.2 he

theorem tidy_digits {ds : List Nat} {g : UInt16} (h1 : 1 ≤ ds.length) (h4 : ds.length ≤ 4) (hd : ∀ d ∈ ds, d < 16)
    (hz : ds.head? = some 0 → ds = [0]) (hv : ds.foldl (fun n d => 16 * n + d) 0 = g.toNat) : Tidy (ds.map hexChar) g := by
  refine ⟨⟨by simpa using h1, by simpa using h4, hexDigits_iff.mpr ⟨?_, ?_⟩⟩, ?_, ?_⟩
  · intro c hc
    obtain ⟨d, hm, rfl⟩ := List.mem_map.mp hc
    simp [isHex, hexNat_hexChar (hd d hm)]
  · rw [← hv]
    clear hv hz h1 h4
    unfold hexValue
    suffices ∀ acc : Nat, (ds.map hexChar).foldl (fun n c => 16 * n + (hexNat c).getD 0) acc =
        ds.foldl (fun n d => 16 * n + d) acc from this 0
    intro acc
    induction ds generalizing acc with
    | nil => rfl
    | cons d ds ih =>
      simp only [List.map_cons, List.foldl_cons]
      rw [hexNat_hexChar (hd d (by simp)), Option.getD_some]
      exact ih (fun x hx => hd x (by simp [hx])) _
  · intro c hc
    obtain ⟨d, hm, rfl⟩ := List.mem_map.mp hc
    exact hexChar_mem (hd d hm)
  · intro he
    cases ds with
    | nil => simp at h1
    | cons d ds =>
      simp only [List.map_cons, List.head?_cons, Option.some.injEq] at he
      have h0 := hexChar_zero (hd d (by simp)) he
      have := hz (by rw [h0]; rfl)
      rw [this]; rfl

theorem tidy_hexText (g : UInt16) : Tidy (hexText g) g := by
  have hg := g.toNat_lt
  unfold hexText
  generalize he : g.toNat = n at hg
  by_cases h3 : n / 4096 = 0
  · by_cases h2 : n / 256 % 16 = 0
    · by_cases h1 : n / 16 % 16 = 0
      · have : ([n / 4096, n / 256 % 16, n / 16 % 16].dropWhile fun d => d == 0) = [] := by simp [h3, h2, h1]
        rw [this]
        refine tidy_digits (by simp) (by simp) (by simp; omega) (by simp) (by simp [he]; omega)
      · have : ([n / 4096, n / 256 % 16, n / 16 % 16].dropWhile fun d => d == 0) = [n / 16 % 16] := by
          simp [h3, h2, h1]
        rw [this]
        refine tidy_digits (by simp) (by simp) (by simp; omega) (by simp; omega) (by simp [he]; omega)
    · have : ([n / 4096, n / 256 % 16, n / 16 % 16].dropWhile fun d => d == 0) = [n / 256 % 16, n / 16 % 16] := by
        simp [h3, h2]
      rw [this]
      refine tidy_digits (by simp) (by simp) (by simp; omega) (by simp; omega) (by simp [he]; omega)
  · have : ([n / 4096, n / 256 % 16, n / 16 % 16].dropWhile fun d => d == 0) = [n / 4096, n / 256 % 16, n / 16 % 16] := by
      rw [List.dropWhile_cons_of_neg (by simpa using h3)]
    rw [this]
    refine tidy_digits (by simp) (by simp) (by simp; omega) (by simp; omega) (by simp [he]; omega)

theorem tidy_joined : ∀ gs : List UInt16, TidyGroups (joined gs) gs
  | [] => .nil
  | [g] => .one (tidy_hexText g)
  | g :: g' :: gs => .cons (tidy_hexText g) (tidy_joined (g' :: gs)) (by simp)

theorem tidy_pieces {t : List Char} {gs : List UInt16} (h : TidyGroups t gs) : MaybePieces false t gs := by
  induction h with
  | nil => exact .inl ⟨rfl, rfl, rfl⟩
  | one h => exact .inr (.one h.1)
  | cons h _ hne ih =>
    rcases ih with ⟨-, -, e⟩ | ih
    · exact absurd e hne
    · exact .inr (.cons h.1 ih)

/-- The state of the search after `i` groups. -/
structure Searched (gs : List UInt16) (i : Nat) (c l : Span) : Prop where
  here : c.len = 0 ∨ (c.start + c.len = i ∧ ZeroRun gs c.start c.len)
  most : ∀ s k, ZeroRun gs s k → s + k = i → k ≤ c.len
  run : ZeroRun gs l.start l.len
  before : l.start + l.len ≤ i
  best : ∀ s k, ZeroRun gs s k → s + k ≤ i → 1 ≤ k → k < l.len ∨ (k = l.len ∧ l.start ≤ s)

theorem ZeroRun.prefix {gs : List UInt16} {s k : Nat} (h : ZeroRun gs s (k + 1)) : ZeroRun gs s k :=
  ⟨by have := h.1; omega, fun j h1 h2 => h.2 j h1 (by omega)⟩

theorem Searched.step {gs : List UInt16} {i : Nat} {c l : Span} {g : UInt16} (h : Searched gs i c l) (hg : gs[i]? = some g) :
    Searched gs (i + 1) (spanStep i g c l).1 (spanStep i g c l).2 := by
  have hi : i < gs.length := (List.getElem?_eq_some_iff.mp hg).1
  unfold spanStep
  by_cases h0 : g = 0
  · rw [if_pos h0]
    subst h0
    have hc : ∃ st, (if c.len = 0 then (⟨i, 1⟩ : Span) else ⟨c.start, c.len + 1⟩) = ⟨st, c.len + 1⟩ ∧
        st + (c.len + 1) = i + 1 ∧ ZeroRun gs st (c.len + 1) := by
      by_cases hz : c.len = 0
      · rw [if_pos hz, hz]
        refine ⟨i, rfl, rfl, by omega, fun k h1 h2 => ?_⟩
        rw [show k = i by omega]; exact hg
      · rw [if_neg hz]
        rcases h.here with h1 | ⟨h1, h2⟩
        · exact absurd h1 hz
        · refine ⟨c.start, rfl, by omega, by omega, fun k h3 h4 => ?_⟩
          by_cases hk : k = i
          · rw [hk]; exact hg
          · exact h2.2 k h3 (by omega)
    obtain ⟨st, e, h1, h2⟩ := hc
    simp only
    rw [e]
    have most : ∀ s k, ZeroRun gs s k → s + k = i + 1 → k ≤ c.len + 1 := by
      intro s k hz hs
      cases k with
      | zero => omega
      | succ k => have := h.most s k hz.prefix (by omega); omega
    by_cases hl : l.len < c.len + 1
    · simp only [hl, if_true]
      refine ⟨.inr ⟨h1, h2⟩, most, h2, by simp only; omega, ?_⟩
      intro s k hz hs hk
      simp only
      rcases Nat.lt_or_ge (s + k) (i + 1) with hs' | hs'
      · rcases h.best s k hz (by omega) hk with hb | ⟨hb, -⟩ <;> omega
      · have := most s k hz (by omega); omega
    · simp only [hl, if_false]
      refine ⟨.inr ⟨h1, h2⟩, most, h.run, by have := h.before; omega, ?_⟩
      intro s k hz hs hk
      rcases Nat.lt_or_ge (s + k) (i + 1) with hs' | hs'
      · exact h.best s k hz (by omega) hk
      · have := most s k hz (by omega)
        have := h.before
        omega
  · rw [if_neg h0]
    have none : ∀ s k, ZeroRun gs s k → s + k = i + 1 → k = 0 := by
      intro s k hz hs
      cases k with
      | zero => rfl
      | succ k =>
        have := hz.2 i (by omega) (by omega)
        rw [hg, Option.some.injEq] at this
        exact absurd this h0
    refine ⟨.inl rfl, fun s k hz hs => by rw [none s k hz hs], h.run, by have := h.before; simp only; omega, ?_⟩
    intro s k hz hs hk
    rcases Nat.lt_or_ge (s + k) (i + 1) with hs' | hs'
    · exact h.best s k hz (by omega) hk
    · have := none s k hz (by omega); omega

theorem searched (gs : List UInt16) : ∀ (rest : List UInt16) (i : Nat) (c l : Span), i + rest.length = gs.length →
    gs.drop i = rest → Searched gs i c l → ∃ c', Searched gs gs.length c' (longestFrom i rest c l)
  | [], i, c, l, hi, _, h => ⟨c, by rw [show gs.length = i by simpa using hi.symm]; exact h⟩
  | g :: rest, i, c, l, hi, hd, h => by
    unfold longestFrom
    have hg : gs[i]? = some g := by
      have : (gs.drop i)[0]? = some g := by rw [hd]; rfl
      simpa using this
    refine searched gs rest (i + 1) _ _ (by simp only [List.length_cons] at hi; omega) ?_ (h.step hg)
    rw [← List.drop_drop, hd]; rfl

theorem longest_searched (gs : List UInt16) : ∃ c, Searched gs gs.length c (longestFrom 0 gs ⟨0, 0⟩ ⟨0, 0⟩) :=
  searched gs gs 0 ⟨0, 0⟩ ⟨0, 0⟩ (by omega) rfl
    ⟨.inl rfl, fun s k _ h => by omega, ⟨by simp, fun k _ h => by simp only at h; omega⟩, by simp,
      fun s k _ h hk => by omega⟩

theorem mapped_some {gs : List UInt16} {i : Ipv4} (h : mapped gs = some i) : ∃ x y, gs = [0, 0, 0, 0, 0, 0xffff, x, y] ∧
    Pair x i.a i.b ∧ Pair y i.c i.d := by
  have pair (x : UInt16) : Pair x (high x) (low x) := by
    unfold Pair high low
    have := x.toNat_lt
    rw [UInt8.toNat_ofNat_of_lt' (show x.toNat / 256 < 256 by omega), UInt8.toNat_ofNat_of_lt' (show x.toNat % 256 < 256 by omega)]
    omega
  unfold mapped at h
  split at h
  · cases h
    exact ⟨_, _, rfl, pair _, pair _⟩
  · cases h

theorem mapped_none {gs : List UInt16} (h : mapped gs = none) : ¬ ∃ x y, gs = [0, 0, 0, 0, 0, 0xffff, x, y] := by
  rintro ⟨x, y, rfl⟩
  cases h

theorem display_recommended (a : IpAddr) : Recommended (display a).toList a := by
  cases a with
  | v4 i => simp only [display, String.toList_ofList]; rw [← chars_toList]; exact .v4 i
  | v6 a =>
    simp only [display, String.toList_ofList]
    unfold chars6
    cases hm : mapped a.groups with
    | some i =>
      obtain ⟨x, y, h1, h2, h3⟩ := mapped_some hm
      simp only
      rw [← chars_toList, ← String.toList_append]
      exact .mapped a i x y h1 h2 h3
    | none =>
      simp only
      obtain ⟨c, hs⟩ := longest_searched a.groups
      generalize longestFrom 0 a.groups ⟨0, 0⟩ ⟨0, 0⟩ = z at hs
      by_cases hz : 1 < z.len
      · rw [if_pos hz]
        refine .short a z.start z.len (mapped_none hm) hz hs.run (fun s l hl => ?_) (tidy_joined _) (tidy_joined _)
        rcases Nat.eq_zero_or_pos l with rfl | hp
        · left; omega
        · exact hs.best s l hl (by exact hl.1) hp
      · rw [if_neg hz]
        refine .full a ?_ (tidy_joined _)
        rintro ⟨s, hr⟩
        rcases hs.best s 2 hr hr.1 (by decide) with h | ⟨h, -⟩ <;> omega

theorem zeroRun_split {gs : List UInt16} {s k : Nat} (h : ZeroRun gs s k) :
    gs = gs.take s ++ List.replicate k 0 ++ gs.drop (s + k) := by
  have : (gs.drop s).take k = List.replicate k 0 := by
    apply List.ext_getElem?
    intro j
    rw [List.getElem?_take, List.getElem?_replicate]
    by_cases hj : j < k
    · rw [if_pos hj, if_pos hj, List.getElem?_drop]
      exact h.2 (s + j) (by omega) (by omega)
    · rw [if_neg hj, if_neg hj]
  rw [← this, List.append_assoc, ← List.drop_drop, List.take_append_drop, List.take_append_drop]

theorem recommended_denotes {t : List Char} {a : IpAddr} (h : Recommended t a) : Denotes t a := by
  cases h with
  | v4 i => exact .v4 i
  | mapped a i x y h1 h2 h3 =>
    have hf : Group "ffff".toList 0xffff := group_iff.mpr (by decide)
    have e : ("::ffff:" ++ i.text).toList = [] ++ "::".toList ++ ("ffff".toList ++ ':' :: i.text.toList) := by
      rw [String.toList_append]; rfl
    rw [e]
    exact .short (b := true) (hs := []) (k := 5) a (.inl ⟨rfl, rfl, rfl⟩) (.inr (.cons hf (.embedded i h2 h3))) (by decide) h1
  | full a _ h =>
    rcases tidy_pieces h with ⟨-, -, e⟩ | h
    · have := a.eight; rw [e] at this; cases this
    · exact .full a h
  | short a s k _ hk hr _ h1 h2 =>
    exact .short a (tidy_pieces h1) (tidy_pieces h2) (by omega) (zeroRun_split hr)

theorem parse_display (a : IpAddr) : parse (display a) = some a :=
  parse_iff.mpr (recommended_denotes (display_recommended a))

/-- Characters of an address. -/
theorem denotes_chars {t : List Char} {a : IpAddr} (h : Denotes t a) : ∀ c ∈ t, c ∈ "0123456789abcdefABCDEF.:".toList := by
  have dec (n : Nat) : ∀ c ∈ natText n, c ∈ "0123456789abcdefABCDEF.:".toList := by
    intro c hc
    have h1 := natText_digits n c hc
    obtain ⟨d, hd⟩ := Option.isSome_iff_exists.mp h1
    obtain ⟨h2, rfl⟩ := digitNat_char hd
    have : ∀ d : Fin 10, Char.ofNat (48 + d) ∈ "0123456789abcdefABCDEF.:".toList := by decide +kernel
    exact this ⟨d, h2⟩
  have four (i : Ipv4) : ∀ c ∈ i.text.toList, c ∈ "0123456789abcdefABCDEF.:".toList := by
    intro c hc
    have hdot : '.' ∈ "0123456789abcdefABCDEF.:".toList := by decide +kernel
    rw [chars_toList] at hc
    unfold Ipv4.chars at hc
    simp only [List.mem_append, List.mem_cons] at hc
    rcases hc with hc | rfl | hc | rfl | hc | rfl | hc
    · exact dec _ c hc
    · exact hdot
    · exact dec _ c hc
    · exact hdot
    · exact dec _ c hc
    · exact hdot
    · exact dec _ c hc
  have group {t : List Char} {g : UInt16} (hg : Group t g) : ∀ c ∈ t, c ∈ "0123456789abcdefABCDEF.:".toList := by
    intro c hc
    obtain ⟨-, -, h3, -⟩ := group_iff.mp hg
    obtain ⟨d, hd⟩ := Option.isSome_iff_exists.mp (show (hexNat c).isSome = true from h3 c hc)
    have h1 : ∀ c ∈ "0123456789abcdef".toList, c ∈ "0123456789abcdefABCDEF.:".toList := by decide +kernel
    have h2 : ∀ c ∈ "0123456789ABCDEF".toList, c ∈ "0123456789abcdefABCDEF.:".toList := by decide +kernel
    rcases digit_iff.mpr hd with h | h
    · exact h1 c (List.mem_of_getElem? h)
    · exact h2 c (List.mem_of_getElem? h)
  have colon : ':' ∈ "0123456789abcdefABCDEF.:".toList := by decide +kernel
  have pieces {b : Bool} {t : List Char} {gs : List UInt16} (hp : Pieces b t gs) : ∀ c ∈ t, c ∈ "0123456789abcdefABCDEF.:".toList := by
    induction hp with
    | one hg => exact group hg
    | embedded i _ _ => exact four i
    | cons hg _ ih =>
      intro c hc
      simp only [List.mem_append, List.mem_cons] at hc
      rcases hc with hc | rfl | hc
      · exact group hg c hc
      · exact colon
      · exact ih c hc
  have maybe {b : Bool} {t : List Char} {gs : List UInt16} (hp : MaybePieces b t gs) : ∀ c ∈ t, c ∈ "0123456789abcdefABCDEF.:".toList := by
    rcases hp with ⟨-, rfl, -⟩ | hp
    · simp
    · exact pieces hp
  cases h with
  | v4 i => exact four i
  | full a hp => exact pieces hp
  | short a h1 h2 _ _ =>
    intro c hc
    simp only [List.mem_append] at hc
    rcases hc with (hc | hc) | hc
    · exact maybe h1 c hc
    · have : ∀ c ∈ "::".toList, c = ':' := by decide
      rw [this c hc]; exact colon
    · exact maybe h2 c hc

end Qos.Ip
