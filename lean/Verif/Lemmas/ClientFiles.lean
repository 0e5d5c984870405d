import Verif.Spec.ClientFiles
import Verif.Lemmas.Client
import Verif.Props.P256
import Mathlib.Data.List.Forall2
/-!
# The client's readers and the independent reading agree
-/
namespace Qos.Client

/-! ## Splitting -/

theorem splitAtChar_ne_nil (c : Char) (l : List Char) : splitAtChar c l ≠ [] := by
  cases l with
  | nil => simp [splitAtChar]
  | cons x xs =>
    unfold splitAtChar
    split
    · simp
    · split <;> simp

theorem splitAtChar_self {c : Char} {l : List Char} (h : c ∉ l) : splitAtChar c l = [l] := by
  induction l with
  | nil => rfl
  | cons x xs ih =>
    have hx : x ≠ c := fun e => h (by simp [e])
    have := ih (fun hm => h (by simp [hm]))
    simp [splitAtChar, hx, this]

theorem splitAtChar_append {c : Char} (a b : List Char) (h : c ∉ a) :
    splitAtChar c (a ++ c :: b) = a :: splitAtChar c b := by
  induction a with
  | nil => simp [splitAtChar]
  | cons x xs ih =>
    have hx : x ≠ c := fun e => h (by simp [e])
    have := ih (fun hm => h (by simp [hm]))
    simp [splitAtChar, hx, this]

/-- Text either has no separator or a first one. -/
theorem first_sep (c : Char) (l : List Char) : c ∉ l ∨ ∃ a b, l = a ++ c :: b ∧ c ∉ a := by
  induction l with
  | nil => exact Or.inl (by simp)
  | cons x xs ih =>
    by_cases hx : x = c
    · exact Or.inr ⟨[], xs, by simp [hx], by simp⟩
    · rcases ih with h | ⟨a, b, rfl, h⟩
      · exact Or.inl (by simp [h, Ne.symm hx])
      · exact Or.inr ⟨x :: a, b, rfl, by simp [h, Ne.symm hx]⟩

theorem splitAtChar_last (c : Char) (n : Nat) : ∀ l : List Char, l.length ≤ n → ∀ w, c ∉ w →
    ((splitAtChar c l).getLast? = some w ↔ l = w ∨ ∃ r, l = r ++ c :: w) := by
  induction n with
  | zero =>
    intro l hl w hw
    have : l = [] := List.length_eq_zero_iff.mp (by omega)
    subst this
    simp [splitAtChar, eq_comm]
  | succ n ih =>
    intro l hl w hw
    rcases first_sep c l with h | ⟨a, b, rfl, h⟩
    · rw [splitAtChar_self h]
      constructor
      · intro e
        exact Or.inl (by simpa using e)
      · rintro (rfl | ⟨r, rfl⟩)
        · rfl
        · exact absurd (by simp) h
    · rw [splitAtChar_append a b h, List.getLast?_cons]
      have hb : ∃ z, (splitAtChar c b).getLast? = some z := by
        cases hz : (splitAtChar c b).getLast? with
        | none => exact absurd (List.getLast?_eq_none_iff.mp hz) (splitAtChar_ne_nil c b)
        | some z => exact ⟨z, rfl⟩
      obtain ⟨z, hz⟩ := hb
      rw [hz]
      have hi := ih b (by simp at hl; omega) w hw
      rw [hz] at hi
      simp only [Option.getD_some]
      constructor
      · intro e
        rcases hi.mp e with rfl | ⟨r, rfl⟩
        · exact Or.inr ⟨a, rfl⟩
        · exact Or.inr ⟨a ++ c :: r, by simp⟩
      · rintro (rfl | ⟨r, hr⟩)
        · exact absurd (by simp) hw
        · apply hi.mpr
          have hlen := congrArg List.length hr
          simp at hlen
          by_cases hle : w.length ≤ b.length
          · by_cases heq : w.length = b.length
            · left
              have := List.append_inj_right' hr (by simp [heq])
              simpa using this
            · right
              have hlt : w.length + 1 ≤ b.length := by omega
              have e1 := congrArg (List.drop (a.length + 1)) hr
              have hd : (a ++ c :: b).drop (a.length + 1) = b := by
                rw [List.drop_append]; simp
              rw [hd, List.drop_append_of_le_length (by omega)] at e1
              exact ⟨_, e1⟩
          · exfalso
            have : a.length = r.length + (w.length - b.length) := by omega
            have hc : (a ++ c :: b)[r.length]? = some c := by rw [hr]; simp
            rw [List.getElem?_append_left (by omega)] at hc
            exact h (List.mem_of_getElem? hc)

theorem splitStr_last {c : Char} {s w : String} (hw : c ∉ w.toList) :
    (splitStr c s).getLast? = some w ↔ s = w ∨ ∃ r, s = r ++ String.singleton c ++ w := by
  have h := splitAtChar_last c s.toList.length s.toList (Nat.le_refl _) w.toList hw
  unfold splitStr
  rw [List.getLast?_map]
  have : (Option.map String.ofList (splitAtChar c s.toList).getLast? = some w) ↔
      (splitAtChar c s.toList).getLast? = some w.toList := by
    cases (splitAtChar c s.toList).getLast? with
    | none => simp
    | some z =>
      simp only [Option.map_some, Option.some.injEq]
      constructor
      · rintro rfl; simp
      · rintro rfl; simp
  rw [this, h]
  constructor
  · rintro (e | ⟨r, e⟩)
    · exact Or.inl (String.toList_inj.mp e)
    · exact Or.inr ⟨String.ofList r, String.toList_inj.mp (by simpa using e)⟩
  · rintro (rfl | ⟨r, rfl⟩)
    · exact Or.inl rfl
    · exact Or.inr ⟨r.toList, by simp⟩

theorem splitStr_one {c : Char} {s w : String} (hw : c ∉ w.toList) : splitStr c s = [w] ↔ s = w := by
  unfold splitStr
  constructor
  · intro h
    rcases first_sep c s.toList with hc | ⟨a, b, he, hc⟩
    · rw [splitAtChar_self hc] at h
      simpa using h
    · rw [he, splitAtChar_append a b hc] at h
      simp only [List.map_cons, List.cons.injEq, List.map_eq_nil_iff] at h
      exact absurd h.2 (splitAtChar_ne_nil c b)
  · rintro rfl
    rw [splitAtChar_self hw]
    simp

theorem splitStr_two {c : Char} {s v w : String} :
    splitStr c s = [v, w] ↔ s = v ++ String.singleton c ++ w ∧ c ∉ v.toList ∧ c ∉ w.toList := by
  unfold splitStr
  constructor
  · intro h
    rcases first_sep c s.toList with hc | ⟨a, b, he, hc⟩
    · rw [splitAtChar_self hc] at h
      simp at h
    · rw [he, splitAtChar_append a b hc] at h
      simp only [List.map_cons, List.cons.injEq] at h
      obtain ⟨rfl, h⟩ := h
      rcases first_sep c b with hb | ⟨a', b', he', hb⟩
      · rw [splitAtChar_self hb] at h
        simp only [List.map_cons, List.map_nil, List.cons.injEq, and_true] at h
        subst h
        exact ⟨String.toList_inj.mp (by simpa using he), by simpa using hc, by simpa using hb⟩
      · rw [he', splitAtChar_append a' b' hb] at h
        simp only [List.map_cons, List.cons.injEq, List.map_eq_nil_iff] at h
        exact absurd h.2 (splitAtChar_ne_nil c b')
  · rintro ⟨rfl, hv, hw⟩
    have : (v ++ String.singleton c ++ w).toList = v.toList ++ c :: w.toList := by simp
    rw [this, splitAtChar_append _ _ hv, splitAtChar_self hw]
    simp

theorem splitStr_head (c : Char) (s : String) :
    c ∉ ((splitStr c s).headD "").toList ∧
    (s = (splitStr c s).headD "" ∨ ∃ r, s = (splitStr c s).headD "" ++ String.singleton c ++ r) := by
  unfold splitStr
  rcases first_sep c s.toList with hc | ⟨a, b, he, hc⟩
  · rw [splitAtChar_self hc]
    simpa using hc
  · rw [he, splitAtChar_append a b hc]
    refine ⟨by simpa using hc, Or.inr ⟨String.ofList b, String.toList_inj.mp (by simpa using he)⟩⟩

theorem aliasOf_iff (n a : String) : AliasOf n a ↔ (splitStr '.' n).headD "" = a := by
  unfold AliasOf
  constructor
  · rintro ⟨hn, rfl | ⟨r, rfl⟩⟩
    · rw [(splitStr_one hn).mpr rfl]; rfl
    · unfold splitStr
      have : (a ++ "." ++ r).toList = a.toList ++ '.' :: r.toList := by simp
      rw [this, splitAtChar_append _ _ hn]
      simp
  · rintro rfl
    exact splitStr_head '.' n

theorem isKeyFile_iff (n : String) : isKeyFile n = true ↔ n = "pub" ∨ ∃ stem, n = stem ++ ".pub" := by
  unfold isKeyFile
  rw [decide_eq_true_iff, splitStr_last (by decide)]
  constructor
  · rintro (h | ⟨r, h⟩)
    · exact Or.inl h
    · exact Or.inr ⟨r, by rw [h]; exact String.toList_inj.mp (by simp)⟩
  · rintro (h | ⟨r, h⟩)
    · exact Or.inl h
    · exact Or.inr ⟨r, by rw [h]; exact String.toList_inj.mp (by simp)⟩

theorem dotUnderscore_iff (n : String) : ['.', '_'].isPrefixOf n.toList = true ↔ ∃ r, n = "._" ++ r := by
  rw [List.isPrefixOf_iff_prefix]
  constructor
  · rintro ⟨r, h⟩
    exact ⟨String.ofList r, String.toList_inj.mp (by simpa using h.symm)⟩
  · rintro ⟨r, rfl⟩
    exact ⟨r.toList, by simp⟩

theorem keyName_iff (n : String) :
    (isKeyFile n && !(['.', '_'].isPrefixOf n.toList)) = true ↔ IsKeyName n := by
  unfold IsKeyName
  rw [Bool.and_eq_true, isKeyFile_iff, ← dotUnderscore_iff]
  cases ['.', '_'].isPrefixOf n.toList <;> simp

/-! ## Lists of results -/

theorem mapM_ok {ε α β : Type} (f : α → Except ε β) (l : List α) (r : List β) :
    l.mapM f = .ok r ↔ List.Forall₂ (fun a b => f a = .ok b) l r := by
  induction l generalizing r with
  | nil => simp [List.mapM_nil, pure, Except.pure, eq_comm]
  | cons a as ih =>
    rw [List.mapM_cons, ebind_ok]
    constructor
    · rintro ⟨b, hb, h⟩
      obtain ⟨bs, hbs, h⟩ := ebind_ok.mp h
      have := epure_ok.mp h
      subst this
      exact .cons hb ((ih bs).mp hbs)
    · intro h
      cases h with
      | cons hb hbs => exact ⟨_, hb, ebind_ok.mpr ⟨_, (ih _).mpr hbs, rfl⟩⟩

/-! ## Order -/

theorem bytesLe_iff (a b : Bytes) : bytesLe a b = true ↔ a ≤ b := by
  induction a generalizing b with
  | nil => simp [bytesLe]
  | cons x xs ih =>
    cases b with
    | nil => simp [bytesLe]
    | cons y ys =>
      unfold bytesLe
      rw [List.cons_le_cons_iff]
      by_cases h1 : x < y
      · simp [h1]
      · by_cases h2 : y < x
        · simp only [h1, h2, if_true, if_false, Bool.false_eq_true, false_or, false_iff, not_and]
          rintro rfl
          exact absurd h2 h1
        · have : x = y := UInt8.le_antisymm (UInt8.not_lt.mp h2) (UInt8.not_lt.mp h1)
          subst this
          simp [h1, ih]

theorem utf8_injective {a b : String} (h : utf8 a = utf8 b) : a = b := by
  have := congrArg utf8Decode h
  simpa [utf8Decode_utf8] using this

theorem memberLe_iff (a b : QuorumMember) : memberLe a b ↔ MemberOrder a b := by
  unfold memberLe MemberOrder
  by_cases h : utf8 a.aliasName = utf8 b.aliasName
  · have := utf8_injective h
    rw [if_pos h, bytesLe_iff, this]
    constructor
    · exact fun h => Or.inr ⟨rfl, h⟩
    · rintro (h | ⟨_, h⟩)
      · exact absurd h (List.lt_irrefl _)
      · exact h
  · rw [if_neg h, bytesLe_iff]
    constructor
    · intro hle
      rcases List.le_iff_lt_or_eq.mp hle with hl | he
      · exact Or.inl hl
      · exact absurd he h
    · rintro (hl | ⟨he, _⟩)
      · exact List.le_of_lt hl
      · exact absurd (congrArg utf8 he) h

end Qos.Client
