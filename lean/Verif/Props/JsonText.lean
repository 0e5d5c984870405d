import Verif.Lemmas.JsonText
/-!
# C78: JSON text is read exactly as RFC 8259 says

`Json.parse` models `serde_json::from_slice` behind `qos_json::from_slice`
(/repo/src/qos_json/src/lib.rs:44-46). The specification is the grammar of `Spec/JsonText.lean`.
-/
namespace Qos.JsonText
open Json

/-- Reading bytes succeeds with a value exactly when the bytes are the UTF-8 of a JSON text that denotes
the value. -/
theorem reads_exactly (bs : Bytes) (v : Json) :
    Json.parse bs = some v ↔ ∃ t, bs = utf8 (String.ofList t) ∧ Document t v := by
  constructor
  · intro h
    unfold Json.parse at h
    split at h
    · rename_i s hs
      refine ⟨s.toList, ?_, parseText_iff.mp h⟩
      rw [String.ofList_toList]
      exact (utf8_of_utf8Decode hs).symm
    · cases h
  · rintro ⟨t, rfl, ht⟩
    unfold Json.parse
    rw [utf8Decode_utf8]
    simp only [String.toList_ofList]
    exact parseText_iff.mpr ht

/-- Bytes are refused exactly when they are not the UTF-8 of any JSON text. -/
theorem refused_iff (bs : Bytes) :
    Json.parse bs = none ↔ ¬ ∃ t v, bs = utf8 (String.ofList t) ∧ Document t v := by
  rw [← Option.not_isSome_iff_eq_none, Option.isSome_iff_exists]
  constructor
  · rintro h ⟨t, v, h1, h2⟩
    exact h ⟨v, (reads_exactly bs v).mpr ⟨t, h1, h2⟩⟩
  · rintro h ⟨v, hv⟩
    obtain ⟨t, h1, h2⟩ := (reads_exactly bs v).mp hv
    exact h ⟨t, v, h1, h2⟩

/-- No text denotes two values. -/
theorem text_denotes_one_value {t : List Char} {v w : Json} (h : Document t v) (h' : Document t w) : v = w := by
  have := parseText_iff.mpr h
  rw [parseText_iff.mpr h'] at this
  exact (Option.some.inj this).symm

mutual
theorem value_height : ∀ {n : Nat} {t : List Char} {v : Json}, Value n t v → height v ≤ n
  | _, _, _, .null => by simp [height]
  | _, _, _, .yes => by simp [height]
  | _, _, _, .no => by simp [height]
  | _, _, _, .number h => by
    rcases h.2 with ⟨i, _, rfl⟩ | ⟨_, rfl⟩ <;> simp [height]
  | _, _, _, .string _ => by simp [height]
  | _, _, _, .emptyArray _ => by simp [height, heightArr]
  | _, _, _, .array h => by
    have := elements_height h
    simp only [height]
    omega
  | _, _, _, .emptyObject _ => by simp [height, heightObj]
  | _, _, _, .object h => by
    have := members_height h
    simp only [height]
    omega
theorem elements_height : ∀ {n : Nat} {t : List Char} {vs : List Json}, Elements n t vs → heightArr vs ≤ n
  | _, _, _, .one _ h _ => by
    have := value_height h
    simp only [heightArr]
    omega
  | _, _, _, .more _ h _ hs => by
    have := value_height h
    have := elements_height hs
    simp only [heightArr]
    omega
theorem members_height : ∀ {n : Nat} {t : List Char} {kvs : List (String × Json)}, Members n t kvs → heightObj kvs ≤ n
  | _, _, _, .one _ _ _ _ h _ => by
    have := value_height h
    simp only [heightObj]
    omega
  | _, _, _, .more _ _ _ _ h _ hs => by
    have := value_height h
    have := members_height hs
    simp only [heightObj]
    omega
end

mutual
theorem value_mono : ∀ {n m : Nat} {t : List Char} {v : Json}, n ≤ m → Value n t v → Value m t v
  | _, _, _, _, _, .null => .null
  | _, _, _, _, _, .yes => .yes
  | _, _, _, _, _, .no => .no
  | _, _, _, _, _, .number h => .number h
  | _, _, _, _, _, .string h => .string h
  | _, m + 1, _, _, _, .emptyArray h => .emptyArray h
  | _, m + 1, _, _, hm, .array h => .array (elements_mono (Nat.le_of_succ_le_succ hm) h)
  | _, m + 1, _, _, _, .emptyObject h => .emptyObject h
  | _, m + 1, _, _, hm, .object h => .object (members_mono (Nat.le_of_succ_le_succ hm) h)
theorem elements_mono : ∀ {n m : Nat} {t : List Char} {vs : List Json}, n ≤ m → Elements n t vs → Elements m t vs
  | _, _, _, _, hm, .one a h b => .one a (value_mono hm h) b
  | _, _, _, _, hm, .more a h b hs => .more a (value_mono hm h) b (elements_mono hm hs)
theorem members_mono : ∀ {n m : Nat} {t : List Char} {kvs : List (String × Json)}, n ≤ m → Members n t kvs → Members m t kvs
  | _, _, _, _, hm, .one a k b c h d => .one a k b c (value_mono hm h) d
  | _, _, _, _, hm, .more a k b c h d hs => .more a k b c (value_mono hm h) d (members_mono hm hs)
end

/-- Whatever is read is nested at most 127 deep. -/
theorem nesting_bounded (bs : Bytes) (v : Json) (h : Json.parse bs = some v) : height v ≤ 127 := by
  obtain ⟨t, _, a, m, b, _, _, hv, _⟩ := (reads_exactly bs v).mp h
  exact value_height hv

/-- The text the writer produces is in the grammar, at the nesting of the value. -/
theorem written_is_value (v : Json) (hp : Plain v) : Value (height v) (write v) v := by
  have h := parseValue_write v (size v) (height v + 1) [] hp (Nat.le_refl _) (by omega) stop_nil
  obtain ⟨a, t, h1, h2, h3⟩ := (parse_sound _).1 _ _ _ _ h
  obtain ⟨c, q, hw, hc, _⟩ := write_head v hp
  have ha : a = [] := by
    cases a with
    | nil => rfl
    | cons x a =>
      rw [hw] at h1
      injection h1 with hx _
      subst hx
      have := isWs_iff.mpr (h2 c (by simp))
      rw [hc] at this
      cases this
  subst ha
  simp only [List.append_nil, List.nil_append] at h1
  rw [h1]
  exact h3

/-- A written value without floats whose integers fit in 64 bits is read back exactly when it is nested at
most 127 deep. -/
theorem written_read_iff (v : Json) (hp : Plain v) : Json.parse (writeBytes v) = some v ↔ height v ≤ 127 :=
  ⟨nesting_bounded _ v, fun h => parse_writeBytes v hp (by omega)⟩

/-- Deeper nesting is refused, whatever the value. -/
theorem too_deep_refused (v : Json) (hp : Plain v) (hd : 128 ≤ height v) : Json.parse (writeBytes v) = none := by
  cases h : Json.parse (writeBytes v) with
  | none => rfl
  | some w =>
    exfalso
    obtain ⟨t, h1, h2⟩ := (reads_exactly _ _).mp h
    have ht : write v = t := by
      have : (write v).flatMap String.utf8EncodeChar = t.flatMap String.utf8EncodeChar := by
        rw [show t.flatMap String.utf8EncodeChar = utf8 (String.ofList t) by
          unfold utf8; rw [String.toList_ofList], ← h1]
        rfl
      exact utf8Chars_injective this
    subst ht
    have hv := written_is_value v hp
    obtain ⟨a, m, b, hab, ha, hm, hb⟩ := h2
    have hsb : Stop b := by
      have := stop_space hb stop_nil
      rwa [List.append_nil] at this
    have e1 := (parse_complete (2 * (write v).length)).1 (height v) m w a b ha
      (value_mono (by omega) hm) hsb (by rw [hab]; simp only [List.length_append]; omega)
    have e2 := (parse_complete (2 * (write v).length)).1 (height v) (write v) v [] [] space_nil
      hv stop_nil (Nat.le_refl _)
    rw [show [] ++ (write v ++ []) = a ++ (m ++ b) by simp [hab]] at e2
    rw [e1] at e2
    cases e2
    have := value_height hm
    omega

theorem numberText_int (i : Int) : NumberText (intText i) := by
  have hn : ∀ n, IntPart (natText n) := by
    intro n
    refine intPart_of (fun c hc => digit_iff.mp (natText_digits n c hc)) ?_ ?_
    · intro h
      exact natText_ne_nil n (List.isEmpty_iff.mp h)
    · exact natText_no_leading_zero n
  cases i with
  | ofNat n => exact ⟨[], natText n, [], [], by simp [intText], Or.inl rfl, hn n, Or.inl rfl, Or.inl rfl⟩
  | negSucc n =>
    exact ⟨['-'], natText (n + 1), [], [], by simp [intText], Or.inr rfl, hn _, Or.inl rfl, Or.inl rfl⟩

/-- The decimal notation of an integer is read as that integer exactly when it fits in 64 bits, signed or
unsigned. -/
theorem integer_read_iff (i : Int) :
    Json.parse (utf8 (toString i)) = some (.int i) ↔ -(2 ^ 63) ≤ i ∧ i < 2 ^ 64 := by
  have ht : toString i = String.ofList (intText i) := (intText_eq i).symm
  have hd : ∀ v, Number (intText i) v → Json.parse (utf8 (toString i)) = some v := fun v hv =>
    (reads_exactly _ _).mpr ⟨intText i, by rw [ht],
      [], intText i, [], by simp, space_nil, Value.number hv, space_nil⟩
  by_cases h : -(2 ^ 63) ≤ i ∧ i < 2 ^ 64
  · exact ⟨fun _ => h, fun _ => hd _ ⟨numberText_int i, Or.inl ⟨i, fits_iff.mpr ⟨rfl, h.1, h.2⟩, rfl⟩⟩⟩
  · refine ⟨fun hp => ?_, fun hr => absurd hr h⟩
    have := hd (.float (intText i)) ⟨numberText_int i, Or.inr ⟨?_, rfl⟩⟩
    · rw [this] at hp
      cases hp
    · rintro ⟨j, hj⟩
      obtain ⟨h1, h2, h3⟩ := fits_iff.mp hj
      have := intText_injective h1
      subst this
      exact h ⟨h2, h3⟩

/-- Surrounding white space changes nothing. -/
theorem space_ignored (a b t : List Char) (v : Json) (ha : Space a) (hb : Space b)
    (h : Json.parse (utf8 (String.ofList t)) = some v) :
    Json.parse (utf8 (String.ofList (a ++ t ++ b))) = some v := by
  obtain ⟨t', h1, a', m, b', rfl, ha', hm, hb'⟩ := (reads_exactly _ _).mp h
  have := congrArg String.toList (utf8_injective h1)
  simp only [String.toList_ofList] at this
  subst this
  have happ : ∀ {x y : List Char}, Space x → Space y → Space (x ++ y) := by
    intro x y hx hy c hc
    rcases List.mem_append.mp hc with h | h
    · exact hx c h
    · exact hy c h
  exact (reads_exactly _ _).mpr ⟨_, rfl, a ++ a', m, b' ++ b, by simp, happ ha ha', hm, happ hb' hb⟩

/-! ## The hypotheses are met -/

/-- White space everywhere, both number readings, every kind of escape, an emoji as a surrogate pair,
a repeated member name. -/
def sampleText : List Char :=
  " { \"a\" : [ 1 , -0 ,2.5e+3, 18446744073709551616 ] ,\"\\u0061\":\"\\/\\n\\u00E9\\uD83D\\uDE00\" }\n".toList

/-- Its value. -/
def sampleValue : Json :=
  .obj [("a", .arr [.int 1, .float "-0".toList, .float "2.5e+3".toList, .float "18446744073709551616".toList]),
    ("a", .str "/\né😀")]

theorem sample_document : Document sampleText sampleValue := by
  have : (parseText sampleText).elim false (fun v => beq v sampleValue) = true := by decide +kernel
  cases h : parseText sampleText with
  | none => rw [h] at this; cases this
  | some v =>
    rw [h] at this
    have := (beq_iff v sampleValue).mp this
    subst this
    exact parseText_iff.mp h

example : Json.parse (utf8 (String.ofList sampleText)) = some sampleValue :=
  (reads_exactly _ _).mpr ⟨_, rfl, sample_document⟩

/-- Texts that are not JSON: a superfluous zero, half a surrogate pair, a bare control character, a
comma too many, words after the value. -/
example : ∀ t ∈ ["01".toList, "\"\\ud800\"".toList, "\"\n\"".toList, "[1,]".toList, "{} x".toList, "1.".toList,
    "'a'".toList, "{a:1}".toList, "".toList], ∀ v, ¬ Document t v := by
  intro t ht v hv
  have h := parseText_iff.mpr hv
  have hall : ["01".toList, "\"\\ud800\"".toList, "\"\n\"".toList, "[1,]".toList, "{} x".toList, "1.".toList,
    "'a'".toList, "{a:1}".toList, "".toList].all (fun t => (parseText t).isNone) = true := by decide +kernel
  have := List.all_eq_true.mp hall t ht
  rw [h] at this
  cases this

/-- `n` arrays inside one another. -/
def nested : Nat → Json
  | 0 => .null
  | n + 1 => .arr [nested n]

theorem nested_height (n : Nat) : height (nested n) = n := by
  induction n with
  | zero => rfl
  | succ n ih => simp [nested, height, heightArr, ih]; omega

theorem nested_plain (n : Nat) : Plain (nested n) := by
  induction n with
  | zero => trivial
  | succ n ih => exact ⟨ih, trivial⟩

/-- 127 brackets are read, 128 are refused. -/
example : Json.parse (writeBytes (nested 127)) = some (nested 127) ∧ Json.parse (writeBytes (nested 128)) = none :=
  ⟨(written_read_iff _ (nested_plain _)).mpr (by rw [nested_height]),
    too_deep_refused _ (nested_plain _) (by rw [nested_height])⟩

example : Json.parse (utf8 (toString (18446744073709551615 : Int))) = some (.int 18446744073709551615) ∧
    Json.parse (utf8 (toString (18446744073709551616 : Int))) ≠ some (.int 18446744073709551616) :=
  ⟨(integer_read_iff _).mpr (by decide), fun h => absurd ((integer_read_iff _).mp h) (by decide)⟩

end Qos.JsonText
