import Verif.Model.Prompts
import Verif.Lemmas.Text
import Verif.Lemmas.Ip
import Mathlib.Tactic.IntervalCases
/-! # Reading a prompt back -/
namespace Qos.Client

/-- Texts before the first separator. -/
theorem cut {α : Type} {P : α → Prop} : ∀ {x y : List α} {c d : α} {r s : List α}, (∀ a ∈ x, ¬ P a) → (∀ a ∈ y, ¬ P a) → P c → P d →
    x ++ c :: r = y ++ d :: s → x = y ∧ c = d ∧ r = s
  | [], [], c, d, r, s, _, _, _, _, h => by simpa using h
  | [], b :: y, c, d, r, s, _, hy, hc, _, h => by
    simp only [List.nil_append, List.cons_append, List.cons.injEq] at h
    exact absurd (h.1 ▸ hc) (hy b (by simp))
  | a :: x, [], c, d, r, s, hx, _, _, hd, h => by
    simp only [List.nil_append, List.cons_append, List.cons.injEq] at h
    exact absurd (h.1 ▸ hd) (hx a (by simp))
  | a :: x, b :: y, c, d, r, s, hx, hy, hc, hd, h => by
    simp only [List.cons_append, List.cons.injEq] at h
    obtain ⟨h1, h2⟩ := h
    obtain ⟨h3, h4, h5⟩ := cut (fun a ha => hx a (by simp [ha])) (fun a ha => hy a (by simp [ha])) hc hd h2
    exact ⟨by rw [h1, h3], h4, h5⟩

theorem hexChar_injective {a b : Nat} (ha : a < 16) (hb : b < 16) (h : Ip.hexChar a = Ip.hexChar b) : a = b := by
  have key : ∀ a < 16, ∀ b < 16, Ip.hexChar a = Ip.hexChar b → a = b := by decide
  exact key a ha b hb h

theorem hexChar_ne_brace {a : Nat} (ha : a < 16) : Ip.hexChar a ≠ '}' := by
  have key : ∀ a < 16, Ip.hexChar a ≠ '}' := by decide
  exact key a ha

theorem hexChar_no_newline {a : Nat} (ha : a < 16) : Ip.hexChar a ≠ '\n' := by
  have key : ∀ a < 16, Ip.hexChar a ≠ '\n' := by decide
  exact key a ha

theorem map_hex_injective : ∀ {x y : List Nat}, (∀ a ∈ x, a < 16) → (∀ a ∈ y, a < 16) → x.map Ip.hexChar = y.map Ip.hexChar → x = y
  | [], [], _, _, _ => rfl
  | [], _ :: _, _, _, h => by simp at h
  | _ :: _, [], _, _, h => by simp at h
  | a :: x, b :: y, hx, hy, h => by
    simp only [List.map_cons, List.cons.injEq] at h
    rw [hexChar_injective (hx a (by simp)) (hy b (by simp)) h.1,
      map_hex_injective (fun a ha => hx a (by simp [ha])) (fun a ha => hy a (by simp [ha])) h.2]

theorem digits_small (n : Nat) : ∀ a ∈ (Nat.digits 16 n).reverse, a < 16 := fun _ ha =>
  Nat.digits_lt_base (by omega) (List.mem_reverse.mp ha)

theorem unicodeEscape_cancel {c d : Char} {x y : List Char} (h : unicodeEscape c ++ x = unicodeEscape d ++ y) : c = d ∧ x = y := by
  unfold unicodeEscape at h
  simp only [List.cons_append, List.append_assoc, List.cons.injEq, true_and, List.nil_append] at h
  have hn : ∀ n, ∀ a ∈ (Nat.digits 16 n).reverse.map Ip.hexChar, ¬ a = '}' := by
    intro n a ha
    obtain ⟨k, hk, rfl⟩ := List.mem_map.mp ha
    exact hexChar_ne_brace (digits_small n k hk)
  obtain ⟨h1, _, h2⟩ := cut (P := fun a => a = '}') (hn _) (hn _) rfl rfl h
  have h3 := map_hex_injective (digits_small _) (digits_small _) h1
  exact ⟨Char.toNat_inj.mp (Nat.digits_inj_iff.mp (List.reverse_injective h3)), h2⟩

/-- The character of a short escape. -/
def shortEscape (k : Char) : Option Char :=
  if k = '0' then some '\x00' else if k = 't' then some '\t' else if k = 'r' then some '\r' else if k = 'n' then some '\n'
  else if k = '\\' then some '\\' else if k = '"' then some '"' else none

theorem debugChar_shape (odd : Char → Bool) (c : Char) :
    (∃ k, debugChar odd c = ['\\', k] ∧ shortEscape k = some c) ∨ debugChar odd c = unicodeEscape c ∨
      (debugChar odd c = [c] ∧ c ≠ '\\' ∧ c ≠ '"' ∧ c ≠ '\n') := by
  unfold debugChar
  by_cases h1 : c = '\x00'
  · rw [if_pos h1, h1]; exact Or.inl ⟨_, rfl, by decide⟩
  rw [if_neg h1]
  by_cases h2 : c = '\t'
  · rw [if_pos h2, h2]; exact Or.inl ⟨_, rfl, by decide⟩
  rw [if_neg h2]
  by_cases h3 : c = '\r'
  · rw [if_pos h3, h3]; exact Or.inl ⟨_, rfl, by decide⟩
  rw [if_neg h3]
  by_cases h4 : c = '\n'
  · rw [if_pos h4, h4]; exact Or.inl ⟨_, rfl, by decide⟩
  rw [if_neg h4]
  by_cases h5 : c = '\\'
  · rw [if_pos h5, h5]; exact Or.inl ⟨_, rfl, by decide⟩
  rw [if_neg h5]
  by_cases h6 : c = '"'
  · rw [if_pos h6, h6]; exact Or.inl ⟨_, rfl, by decide⟩
  rw [if_neg h6]
  by_cases h7 : odd c = true
  · rw [if_pos h7]; exact Or.inr (Or.inl rfl)
  · rw [if_neg h7]; exact Or.inr (Or.inr ⟨rfl, h5, h6, h4⟩)

theorem debugChar_cancel (odd : Char → Bool) {c d : Char} {x y : List Char} (h : debugChar odd c ++ x = debugChar odd d ++ y) :
    c = d ∧ x = y := by
  have hu : shortEscape 'u' = none := by decide
  rcases debugChar_shape odd c with ⟨k, hk, hs⟩ | hk | ⟨hk, h1, h2, _⟩ <;>
    rcases debugChar_shape odd d with ⟨l, hl, ht⟩ | hl | ⟨hl, h3, h4, _⟩ <;> rw [hk, hl] at h
  · simp only [List.cons_append, List.cons.injEq, List.nil_append, true_and] at h
    obtain ⟨rfl, h⟩ := h
    rw [hs] at ht
    exact ⟨Option.some.inj ht, h⟩
  · simp only [unicodeEscape, List.cons_append, List.cons.injEq, List.nil_append, true_and] at h
    rw [h.1, hu] at hs
    cases hs
  · simp only [List.cons_append, List.cons.injEq, List.nil_append] at h
    exact absurd h.1.symm h3
  · simp only [unicodeEscape, List.cons_append, List.cons.injEq, List.nil_append, true_and] at h
    rw [← h.1, hu] at ht
    cases ht
  · exact unicodeEscape_cancel h
  · simp only [unicodeEscape, List.cons_append, List.cons.injEq, List.nil_append] at h
    exact absurd h.1.symm h3
  · simp only [List.cons_append, List.cons.injEq, List.nil_append] at h
    exact absurd h.1 h1
  · simp only [unicodeEscape, List.cons_append, List.cons.injEq, List.nil_append] at h
    exact absurd h.1 h1
  · simpa using h

theorem debugChar_not_quote (odd : Char → Bool) (c : Char) (x y : List Char) : debugChar odd c ++ x ≠ '"' :: y := by
  intro h
  rcases debugChar_shape odd c with ⟨k, hk, hs⟩ | hk | ⟨hk, h1, h2, _⟩ <;> rw [hk] at h
  · simp at h
  · simp [unicodeEscape] at h
  · simp only [List.cons_append, List.cons.injEq] at h
    exact h2 h.1

theorem debugBody_cancel (odd : Char → Bool) : ∀ {a b x y : List Char},
    a.flatMap (debugChar odd) ++ '"' :: x = b.flatMap (debugChar odd) ++ '"' :: y → a = b ∧ x = y
  | [], [], x, y, h => by simpa using h
  | [], d :: b, x, y, h => by
    simp only [List.flatMap_nil, List.nil_append, List.flatMap_cons, List.append_assoc] at h
    exact absurd h.symm (debugChar_not_quote odd d _ _)
  | c :: a, [], x, y, h => by
    simp only [List.flatMap_nil, List.nil_append, List.flatMap_cons, List.append_assoc] at h
    exact absurd h (debugChar_not_quote odd c _ _)
  | c :: a, d :: b, x, y, h => by
    simp only [List.flatMap_cons, List.append_assoc] at h
    obtain ⟨h1, h2⟩ := debugChar_cancel odd h
    obtain ⟨h3, h4⟩ := debugBody_cancel odd h2
    exact ⟨by rw [h1, h3], h4⟩

theorem debugText_cancel (odd : Char → Bool) {s t : String} {x y : List Char} (h : debugText odd s ++ x = debugText odd t ++ y) :
    s = t ∧ x = y := by
  unfold debugText at h
  simp only [List.cons_append, List.append_assoc, List.cons.injEq, true_and, List.nil_append] at h
  obtain ⟨h1, h2⟩ := debugBody_cancel odd h
  exact ⟨String.toList_inj.mp h1, h2⟩

theorem debugText_head (odd : Char → Bool) (s : String) : ∃ r, debugText odd s = '"' :: r := ⟨_, rfl⟩

/-- A text that ends where its last character ends. -/
def EndsItself {α : Type} (f : α → List Char) : Prop := ∀ {a b : α} {x y : List Char}, f a ++ x = f b ++ y → a = b ∧ x = y

/-- A text that ends before the next comma or bracket. -/
def EndsAtMark {α : Type} (f : α → List Char) : Prop := ∀ {a b : α} {c d : Char} {x y : List Char}, (c = ',' ∨ c = ']') → (d = ',' ∨ d = ']') →
  f a ++ c :: x = f b ++ d :: y → a = b ∧ c = d ∧ x = y

theorem EndsItself.mark {α : Type} {f : α → List Char} (h : EndsItself f) : EndsAtMark f := by
  intro a b c d x y _ _ e
  obtain ⟨h1, h2⟩ := h e
  simp only [List.cons.injEq] at h2
  exact ⟨h1, h2.1, h2.2⟩

theorem debugRest_cancel {α : Type} {f : α → List Char} (h : EndsAtMark f) : ∀ {as bs : List α} {x y : List Char},
    debugRest f as ++ x = debugRest f bs ++ y → as = bs ∧ x = y := by
  have hd : ∀ (as : List α) (x : List Char), ∃ c r, (c = ',' ∨ c = ']') ∧ debugRest f as ++ x = c :: r := by
    intro as x
    cases as with
    | nil => exact ⟨_, _, Or.inr rfl, rfl⟩
    | cons a as => exact ⟨_, _, Or.inl rfl, rfl⟩
  intro as
  induction as with
  | nil =>
    intro bs x y e
    cases bs with
    | nil => simpa [debugRest] using e
    | cons b bs => simp [debugRest] at e
  | cons a as ih =>
    intro bs x y e
    cases bs with
    | nil => simp [debugRest] at e
    | cons b bs =>
      simp only [debugRest, List.cons_append, List.append_assoc, List.cons.injEq, true_and] at e
      obtain ⟨c, r, hc, h1⟩ := hd as x
      obtain ⟨d, s, hd', h2⟩ := hd bs y
      rw [h1, h2] at e
      obtain ⟨h3, h4, h5⟩ := h hc hd' e
      rw [h4, h5, ← h2] at h1
      obtain ⟨h6, h7⟩ := ih h1
      exact ⟨by rw [h3, h6], h7⟩

theorem debugList_cancel {α : Type} {f : α → List Char} (h : EndsAtMark f) (hn : ∀ a x y, f a ++ x ≠ ']' :: y) {as bs : List α}
    {x y : List Char} (e : debugList f as ++ x = debugList f bs ++ y) : as = bs ∧ x = y := by
  cases as with
  | nil =>
    cases bs with
    | nil => simpa [debugList] using e
    | cons b bs =>
      simp only [debugList, List.cons_append, List.append_assoc, List.cons.injEq, true_and, List.nil_append] at e
      exact absurd e.symm (hn b _ _)
  | cons a as =>
    cases bs with
    | nil =>
      simp only [debugList, List.cons_append, List.append_assoc, List.cons.injEq, true_and, List.nil_append] at e
      exact absurd e (hn a _ _)
    | cons b bs =>
      simp only [debugList, List.cons_append, List.append_assoc, List.cons.injEq, true_and] at e
      have e' : debugRest f (a :: as) ++ x = debugRest f (b :: bs) ++ y := by
        simp only [debugRest, List.cons_append, List.append_assoc, e]
      exact debugRest_cancel h e'

theorem debugHost_cancel (odd : Char → Bool) : EndsItself (debugHost odd) := by
  intro a b x y h
  cases a with
  | none =>
    cases b with
    | none => exact ⟨rfl, List.append_cancel_left h⟩
    | some t => simp [debugHost] at h
  | some s =>
    cases b with
    | none => simp [debugHost] at h
    | some t =>
      simp only [debugHost, List.append_assoc] at h
      obtain ⟨h1, h2⟩ := debugText_cancel odd (List.append_cancel_left h)
      simp only [List.cons_append, List.nil_append, List.cons.injEq, true_and] at h2
      exact ⟨by rw [h1], h2⟩

theorem natText_cancel {m n : Nat} {c d : Char} {x y : List Char} (hc : (digitNat c).isSome = false) (hd : (digitNat d).isSome = false)
    (h : natText m ++ c :: x = natText n ++ d :: y) : m = n ∧ c = d ∧ x = y := by
  have hn : ∀ n, ∀ a ∈ natText n, ¬ ((digitNat a).isSome = false) := by
    intro n a ha
    simp [natText_digits n a ha]
  obtain ⟨h1, h2, h3⟩ := cut (P := fun a => (digitNat a).isSome = false) (hn _) (hn _) hc hd h
  exact ⟨natText_injective h1, h2, h3⟩

theorem debugBridge_server (odd : Char → Bool) (p : UInt16) (h : String) (x : List Char) :
    debugBridge odd (.server p h) ++ x =
      "Server { port: ".toList ++ (natText p.toNat ++ (", host: ".toList ++ (debugText odd h ++ (" }".toList ++ x)))) := by
  have e : ∀ a b c d f x : List Char, (a ++ (b ++ (c ++ (d ++ f)))) ++ x = a ++ (b ++ (c ++ (d ++ (f ++ x)))) := by
    intros
    simp only [List.append_assoc]
  exact e _ _ _ _ _ _

theorem debugBridge_client (odd : Char → Bool) (p : UInt16) (h : Option String) (x : List Char) :
    debugBridge odd (.client p h) ++ x =
      "Client { port: ".toList ++ (natText p.toNat ++ (", host: ".toList ++ (debugHost odd h ++ (" }".toList ++ x)))) := by
  have e : ∀ a b c d f x : List Char, (a ++ (b ++ (c ++ (d ++ f)))) ++ x = a ++ (b ++ (c ++ (d ++ (f ++ x)))) := by
    intros
    simp only [List.append_assoc]
  exact e _ _ _ _ _ _

theorem port_cancel {p q : UInt16} {x y : List Char}
    (h : natText p.toNat ++ (", host: ".toList ++ x) = natText q.toNat ++ (", host: ".toList ++ y)) : p = q ∧ x = y := by
  have hl : ", host: ".toList = ',' :: " host: ".toList := by decide
  rw [hl, List.cons_append, List.cons_append] at h
  obtain ⟨h1, _, h2⟩ := natText_cancel (by decide) (by decide) h
  exact ⟨UInt16.toNat_inj.mp h1, List.append_cancel_left h2⟩

theorem heads_differ {c d : Char} {r s : List Char} {a b x y : List Char} (ha : a = c :: r) (hb : b = d :: s) (h : c ≠ d) :
    a ++ x ≠ b ++ y := by
  subst ha hb
  simp [h]

theorem debugBridge_cancel (odd : Char → Bool) : EndsItself (debugBridge odd) := by
  have hs : "Server { port: ".toList = 'S' :: "erver { port: ".toList := by decide
  have hc : "Client { port: ".toList = 'C' :: "lient { port: ".toList := by decide
  intro a b x y h
  cases a with
  | server p s =>
    rw [debugBridge_server] at h
    cases b with
    | server q t =>
      rw [debugBridge_server] at h
      obtain ⟨h1, h2⟩ := port_cancel (List.append_cancel_left h)
      obtain ⟨h3, h4⟩ := debugText_cancel odd h2
      exact ⟨by rw [h1, h3], List.append_cancel_left h4⟩
    | client q t =>
      rw [debugBridge_client] at h
      exact absurd h (heads_differ hs hc (by decide))
  | client p s =>
    rw [debugBridge_client] at h
    cases b with
    | server q t =>
      rw [debugBridge_server] at h
      exact absurd h (heads_differ hc hs (by decide))
    | client q t =>
      rw [debugBridge_client] at h
      obtain ⟨h1, h2⟩ := port_cancel (List.append_cancel_left h)
      obtain ⟨h3, h4⟩ := debugHost_cancel odd h2
      exact ⟨by rw [h1, h3], List.append_cancel_left h4⟩

end Qos.Client
