import Verif.Lemmas.Json
/-! No JSON text contains a control byte other than tab, line feed and carriage return. -/
namespace Qos.Json

/-- A character that may occur in a JSON text. -/
def Fine (c : Char) : Prop := 32 ≤ c.toNat ∨ c.toNat = 9 ∨ c.toNat = 10 ∨ c.toNat = 13

/-- `r` is what is left of `cs` after reading fine characters. -/
def Eats (cs r : List Char) : Prop := ∃ p, cs = p ++ r ∧ ∀ c ∈ p, Fine c

theorem Eats.refl (cs : List Char) : Eats cs cs := ⟨[], rfl, by simp⟩

theorem Eats.trans {a b c : List Char} (h : Eats a b) (h' : Eats b c) : Eats a c := by
  obtain ⟨p, rfl, hp⟩ := h
  obtain ⟨q, rfl, hq⟩ := h'
  exact ⟨p ++ q, by simp, by
    intro x hx
    rcases List.mem_append.mp hx with hx | hx
    · exact hp x hx
    · exact hq x hx⟩

theorem Eats.cons {c : Char} {a b : List Char} (hc : Fine c) (h : Eats a b) : Eats (c :: a) b := by
  obtain ⟨p, rfl, hp⟩ := h
  exact ⟨c :: p, rfl, by
    intro x hx
    rcases List.mem_cons.mp hx with rfl | hx
    · exact hc
    · exact hp x hx⟩

theorem eats_one {c : Char} {a : List Char} (hc : Fine c) : Eats (c :: a) a := (Eats.refl a).cons hc

theorem fine_of_ge {c : Char} (h : 32 ≤ c.toNat) : Fine c := Or.inl h

theorem fine_ws {c : Char} (h : isWs c = true) : Fine c := by
  simp only [isWs, Bool.or_eq_true, decide_eq_true_eq] at h
  rcases h with ((rfl | rfl) | rfl) | rfl
  · exact Or.inl (by decide)
  · exact Or.inr (Or.inr (Or.inl (by decide)))
  · exact Or.inr (Or.inl (by decide))
  · exact Or.inr (Or.inr (Or.inr (by decide)))

theorem eats_skipWs : ∀ cs, Eats cs (skipWs cs)
  | [] => Eats.refl _
  | c :: cs => by
    simp only [skipWs]
    split
    · exact (eats_skipWs cs).cons (fine_ws (by assumption))
    · exact Eats.refl _

theorem fine_hexDigit {c : Char} {n : Nat} (h : hexDigit c = some n) : Fine c := by
  refine fine_of_ge ?_
  simp only [hexDigit] at h
  split at h
  · omega
  · split at h
    · omega
    · split at h
      · omega
      · cases h

theorem fine_hex4 {a b c d : Char} {n : Nat} (h : hex4 a b c d = some n) : Fine a ∧ Fine b ∧ Fine c ∧ Fine d := by
  simp only [hex4] at h
  split at h
  · exact ⟨fine_hexDigit (by assumption), fine_hexDigit (by assumption), fine_hexDigit (by assumption),
      fine_hexDigit (by assumption)⟩
  · cases h

theorem fine_simpleEscape {c x : Char} (h : simpleEscape c = some x) : Fine c := by
  refine fine_of_ge ?_
  simp only [simpleEscape] at h
  repeat' split at h
  all_goals first | cases h; done | (subst_vars; decide)

theorem fine_lit {c : Char} (h : 32 ≤ c.toNat := by decide) : Fine c := fine_of_ge h

theorem eats_parseStr : ∀ (n : Nat) (cs s r : List Char), cs.length ≤ n → parseStr cs = some (s, r) → Eats cs r := by
  intro n
  induction n with
  | zero =>
    intro cs s r hl h
    cases cs with
    | nil => simp [parseStr] at h
    | cons c cs => simp at hl
  | succ n ih =>
    intro cs s r hl h
    cases cs with
    | nil => simp [parseStr] at h
    | cons c cs =>
      simp only [List.length_cons] at hl
      unfold parseStr at h
      split at h
      · cases h
        rename_i hc
        subst hc
        exact eats_one fine_lit
      · split at h
        · rename_i hc
          subst hc
          refine Eats.cons fine_lit ?_
          split at h
          · rename_i a b d e cs'
            simp only [List.length_cons] at hl
            split at h
            · cases h
            · rename_i hx
              obtain ⟨h1, h2, h3, h4⟩ := fine_hex4 hx
              refine Eats.cons fine_lit (Eats.cons h1 (Eats.cons h2 (Eats.cons h3 (Eats.cons h4 ?_))))
              split at h
              · split at h
                · simp only [List.length_cons] at hl
                  split at h
                  · cases h
                  · rename_i hy
                    obtain ⟨h1, h2, h3, h4⟩ := fine_hex4 hy
                    refine Eats.cons fine_lit (Eats.cons fine_lit
                      (Eats.cons h1 (Eats.cons h2 (Eats.cons h3 (Eats.cons h4 ?_)))))
                    split at h
                    · split at h
                      · rename_i hz
                        cases h
                        exact ih _ _ _ (by omega) hz
                      · cases h
                    · cases h
                · cases h
              · split at h
                · cases h
                · split at h
                  · rename_i hz
                    cases h
                    exact ih _ _ _ (by omega) hz
                  · cases h
          · rename_i e cs' _
            simp only [List.length_cons] at hl
            split at h
            · rename_i hx
              refine Eats.cons (fine_simpleEscape hx) ?_
              split at h
              · rename_i hz
                cases h
                exact ih _ _ _ (by omega) hz
              · cases h
            · cases h
          · cases h
        · split at h
          · cases h
          · refine Eats.cons (fine_of_ge (by omega)) ?_
            split at h
            · rename_i hz
              cases h
              exact ih _ _ _ (by omega) hz
            · cases h

theorem fine_digit {c : Char} (h : (digitNat c).isSome) : Fine c := by
  refine fine_of_ge ?_
  simp only [digitNat] at h
  split at h
  · omega
  · cases h

theorem eats_takeDigits : ∀ cs, Eats cs (takeDigits cs).2
  | [] => Eats.refl _
  | c :: cs => by
    simp only [takeDigits]
    split
    · exact (eats_takeDigits cs).cons (fine_digit (by assumption))
    · exact Eats.refl _

theorem eats_splitSign (cs : List Char) : Eats cs (splitSign cs).2 := by
  unfold splitSign
  split
  · exact eats_one fine_lit
  · exact Eats.refl _

theorem eats_parseFrac {cs f r : List Char} (h : parseFrac cs = some (f, r)) : Eats cs r := by
  unfold parseFrac at h
  split at h
  · simp only at h
    split at h
    · cases h
    · cases h
      exact (eats_takeDigits _).cons fine_lit
  · cases h
    exact Eats.refl _

theorem eats_parseExp {cs f r : List Char} (h : parseExp cs = some (f, r)) : Eats cs r := by
  unfold parseExp at h
  split at h
  · split at h
    · rename_i hc
      refine Eats.cons (by rcases hc with rfl | rfl <;> exact fine_lit) ?_
      split at h
      · split at h
        · rename_i hs
          simp only at h
          split at h
          · cases h
          · cases h; exact (eats_takeDigits _).cons (by rcases hs with rfl | rfl <;> exact fine_lit)
        · simp only at h
          split at h
          · cases h
          · cases h; exact eats_takeDigits _
      · cases h
    · cases h; exact Eats.refl _
  · cases h; exact Eats.refl _

theorem eats_parseNumber {cs r : List Char} {v : Json} (h : parseNumber cs = some (v, r)) : Eats cs r := by
  unfold parseNumber at h
  simp only at h
  refine (eats_splitSign cs).trans ((eats_takeDigits _).trans ?_)
  split at h
  · cases h
  · split at h
    · cases h
    · split at h
      · cases h
      · rename_i hf
        refine (eats_parseFrac hf).trans ?_
        split at h
        · cases h
        · rename_i he
          refine (eats_parseExp he).trans ?_
          split at h
          · split at h
            · cases h; exact Eats.refl _
            · cases h
          · cases h; exact Eats.refl _

theorem eats_expect {w cs r : List Char} (hw : ∀ c ∈ w, Fine c) (h : expect w cs = some r) : Eats cs r := by
  unfold expect at h
  split at h
  · rename_i hp
    cases h
    obtain ⟨t, rfl⟩ := List.isPrefixOf_iff_prefix.mp hp
    exact ⟨w, by simp, hw⟩
  · cases h

theorem eats_of_skipWs {cs r : List Char} {c : Char} (h : skipWs cs = c :: r) (hc : Fine c) : Eats cs r := by
  have := eats_skipWs cs
  rw [h] at this
  exact this.trans (eats_one hc)

theorem eats_parse : ∀ fuel,
    (∀ d cs v r, parseValue fuel d cs = some (v, r) → Eats cs r) ∧
    (∀ d cs v r, parseElems fuel d cs = some (v, r) → Eats cs r) ∧
    (∀ d cs v r, parseMembers fuel d cs = some (v, r) → Eats cs r) := by
  intro fuel
  induction fuel with
  | zero =>
    refine ⟨?_, ?_, ?_⟩ <;> (intro d cs v r h; simp [parseValue, parseElems, parseMembers] at h)
  | succ fuel ih =>
    obtain ⟨ihv, ihe, ihm⟩ := ih
    refine ⟨?_, ?_, ?_⟩
    · intro d cs v r h
      unfold parseValue at h
      split at h
      · cases h
      · rename_i c cs' hs
        have hlit : ∀ {x : Char} {w r : List Char}, c = x → Fine x → (∀ c ∈ w, Fine c) → expect w cs' = some r → Eats cs r := by
          intro x w r hc hx hw he
          subst hc
          exact (eats_of_skipWs hs hx).trans (eats_expect hw he)
        split at h
        · obtain ⟨r', h1, h2⟩ := Option.map_eq_some_iff.mp h
          cases h2
          exact hlit (by assumption) fine_lit (by intro c hc; simp at hc; rcases hc with rfl | rfl | rfl <;> exact fine_lit) h1
        · split at h
          · obtain ⟨r', h1, h2⟩ := Option.map_eq_some_iff.mp h
            cases h2
            exact hlit (by assumption) fine_lit (by intro c hc; simp at hc; rcases hc with rfl | rfl | rfl <;> exact fine_lit) h1
          · split at h
            · obtain ⟨r', h1, h2⟩ := Option.map_eq_some_iff.mp h
              cases h2
              exact hlit (by assumption) fine_lit
                (by intro c hc; simp at hc; rcases hc with rfl | rfl | rfl | rfl <;> exact fine_lit) h1
            · split at h
              · rename_i hc
                subst hc
                obtain ⟨⟨s, r'⟩, h1, h2⟩ := Option.map_eq_some_iff.mp h
                cases h2
                exact (eats_of_skipWs hs fine_lit).trans (eats_parseStr _ _ _ _ (Nat.le_refl _) h1)
              · split at h
                · rename_i hc
                  subst hc
                  refine (eats_of_skipWs hs fine_lit).trans ?_
                  split at h
                  · cases h
                  · split at h
                    · rename_i hs'
                      cases h
                      exact eats_of_skipWs hs' fine_lit
                    · obtain ⟨⟨s, r'⟩, h1, h2⟩ := Option.map_eq_some_iff.mp h
                      cases h2
                      exact ihe _ _ _ _ h1
                · split at h
                  · rename_i hc
                    subst hc
                    refine (eats_of_skipWs hs fine_lit).trans ?_
                    split at h
                    · cases h
                    · split at h
                      · rename_i hs'
                        cases h
                        exact eats_of_skipWs hs' fine_lit
                      · obtain ⟨⟨s, r'⟩, h1, h2⟩ := Option.map_eq_some_iff.mp h
                        cases h2
                        exact ihm _ _ _ _ h1
                  · split at h
                    · have := eats_skipWs cs
                      rw [hs] at this
                      exact this.trans (eats_parseNumber h)
                    · cases h
    · intro d cs v r h
      unfold parseElems at h
      split at h
      · cases h
      · rename_i hv
        refine (ihv _ _ _ _ hv).trans ?_
        split at h
        · rename_i hs
          obtain ⟨⟨s, r'⟩, h1, h2⟩ := Option.map_eq_some_iff.mp h
          cases h2
          exact (eats_of_skipWs hs fine_lit).trans (ihe _ _ _ _ h1)
        · rename_i hs
          cases h
          exact eats_of_skipWs hs fine_lit
        · cases h
    · intro d cs v r h
      unfold parseMembers at h
      split at h
      · rename_i hs
        refine (eats_of_skipWs hs fine_lit).trans ?_
        split at h
        · cases h
        · rename_i hk
          refine (eats_parseStr _ _ _ _ (Nat.le_refl _) hk).trans ?_
          split at h
          · rename_i hs
            refine (eats_of_skipWs hs fine_lit).trans ?_
            split at h
            · cases h
            · rename_i hv
              refine (ihv _ _ _ _ hv).trans ?_
              split at h
              · rename_i hs
                obtain ⟨⟨s, r'⟩, h1, h2⟩ := Option.map_eq_some_iff.mp h
                cases h2
                exact (eats_of_skipWs hs fine_lit).trans (ihm _ _ _ _ h1)
              · rename_i hs
                cases h
                exact eats_of_skipWs hs fine_lit
              · cases h
          · cases h
      · cases h

theorem fine_of_parseText {cs : List Char} {v : Json} (h : parseText cs = some v) : ∀ c ∈ cs, Fine c := by
  unfold parseText at h
  split at h
  · rename_i hv
    split at h
    · rename_i hr
      obtain ⟨p, hp, hf⟩ := (((eats_parse _).1 _ _ _ _ hv)).trans (eats_skipWs _)
      rw [List.isEmpty_iff.mp hr, List.append_nil] at hp
      subst hp
      exact hf
    · cases h
  · cases h

/-- The bytes of a character: itself below 128, else all at least 128. -/
theorem utf8EncodeChar_bytes (c : Char) : ∀ b ∈ String.utf8EncodeChar c, b.toNat = c.toNat ∨ 128 ≤ b.toNat := by
  intro b hb
  have hc := char_lt c
  unfold Char.toNat at *
  simp only [String.utf8EncodeChar] at hb
  split at hb
  · simp only [List.mem_singleton] at hb
    left
    subst hb
    have : c.toNat = c.val.toNat := rfl
    simp
    omega
  · right
    split at hb
    · simp only [List.mem_cons, List.not_mem_nil, or_false] at hb
      rcases hb with rfl | rfl <;> simp <;> omega
    · split at hb
      · simp only [List.mem_cons, List.not_mem_nil, or_false] at hb
        rcases hb with rfl | rfl | rfl <;> simp <;> omega
      · simp only [List.mem_cons, List.not_mem_nil, or_false] at hb
        rcases hb with rfl | rfl | rfl | rfl <;> simp <;> omega

/-- Every byte of a JSON text is printable, non-ASCII, or one of three white space bytes. -/
theorem parse_bytes {bs : Bytes} {v : Json} (h : parse bs = some v) :
    ∀ b ∈ bs, 32 ≤ b.toNat ∨ b.toNat = 9 ∨ b.toNat = 10 ∨ b.toNat = 13 := by
  unfold parse at h
  split at h
  · rename_i s hs
    have hf := fine_of_parseText h
    rw [← utf8_of_utf8Decode hs]
    intro b hb
    simp only [utf8, List.mem_flatMap] at hb
    obtain ⟨c, hc, hb⟩ := hb
    have := hf c hc
    unfold Fine at this
    rcases utf8EncodeChar_bytes c b hb with he | he
    · omega
    · omega
  · cases h

end Qos.Json
