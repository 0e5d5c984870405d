import Verif.Lemmas.Parser
/-!
# C40: command lines are parsed strictly

All theorems quantify over every list of declarations (`ts`) and every argument vector. `Acceptable`, `words`, `declared`,
`Given` and `values` are in `Spec/Parser.lean`.

Concrete cases: the examples of `Props/ParserEnclave.lean`.
-/
namespace Qos.Parser

variable {ts : List Token} {inputs : List String} {m : TokenMap}

theorem parse_do (hh : "--help" ∉ inputs) (hv : "--version" ∉ inputs) : parse m inputs = doParse m inputs := by
  unfold parse
  rw [if_neg (by simpa using hh), if_neg (by simpa using hv)]

theorem doParse_ok {m0 : TokenMap} : doParse m0 inputs = .ok m ↔ fill m0 inputs = .ok m ∧ checkConstraints inputs m = .ok () := by
  unfold doParse
  cases fill m0 inputs with
  | error e => simp
  | ok m' =>
    simp only [Except.ok.injEq]
    constructor
    · intro h
      split at h
      · cases h
      · rename_i hc
        cases h
        exact ⟨rfl, hc⟩
    · rintro ⟨rfl, hc⟩
      rw [hc]

theorem once_nil : Once ts [] := fun _ _ _ _ => by simp

theorem read_items (hh : "--help" ∉ inputs) (hv : "--version" ∉ inputs) (h : parse (register ts) inputs = .ok m) :
    ∃ items, inputs = words items ∧ Acceptable ts items ∧ StateOk ts items m := by
  rw [parse_do hh hv, doParse_ok] at h
  obtain ⟨items, rfl, hf⟩ := fill_sound h.1
  obtain ⟨h1, h2, h3⟩ := fills_state hf [] (start_state ts) once_nil
  simp only [List.nil_append] at h1 h2
  obtain ⟨c1, c2, c3⟩ := (constraints_iff h1 h3).1 h.2
  exact ⟨items, rfl, ⟨h3, h2, c1, c2, c3⟩, h1⟩

/-- C40: without `--help` and `--version`, exactly the acceptable command lines are accepted. -/
theorem accepts_iff (hh : "--help" ∉ inputs) (hv : "--version" ∉ inputs) :
    (∃ m, parse (register ts) inputs = .ok m) ↔ ∃ items, inputs = words items ∧ Acceptable ts items := by
  constructor
  · rintro ⟨m, h⟩
    obtain ⟨items, h1, h2, _⟩ := read_items hh hv h
    exact ⟨items, h1, h2⟩
  · rintro ⟨items, rfl, ha⟩
    obtain ⟨m, hm⟩ := state_fills items [] (register ts) (start_state ts) (by rw [List.nil_append]; exact ha.once) ha.fits
    have hs := (fills_state hm [] (start_state ts) once_nil).1
    simp only [List.nil_append] at hs
    refine ⟨m, ?_⟩
    rw [parse_do hh hv, doParse_ok]
    exact ⟨fill_complete hm, (constraints_iff hs ha.fits).2 ⟨ha.required, ha.requires, ha.forbids⟩⟩

theorem words_head (i : Item) (items : List Item) : ∃ r, words (i :: items) = ("--" ++ i.name) :: r := by
  rw [words_cons]
  cases i <;> exact ⟨_, rfl⟩

/-- C40: a command line can be read in only one way. -/
theorem reading_unique {a b : List Item} (ha : ∀ i ∈ a, i.Fits ts) (hb : ∀ i ∈ b, i.Fits ts) (h : words a = words b) :
    a = b := by
  induction a generalizing b with
  | nil =>
    cases b with
    | nil => rfl
    | cons j b =>
      obtain ⟨r, hr⟩ := words_head j b
      rw [hr] at h; cases h
  | cons i a ih =>
    cases b with
    | nil =>
      obtain ⟨r, hr⟩ := words_head i a
      rw [hr] at h; cases h
    | cons j b =>
      have hi := ha i (by simp)
      have hj := hb j (by simp)
      have ta : ∀ x ∈ a, x.Fits ts := fun x hx => ha x (List.mem_cons_of_mem _ hx)
      have tb : ∀ x ∈ b, x.Fits ts := fun x hx => hb x (List.mem_cons_of_mem _ hx)
      -- what follows an item that carries no value of its own never looks like a value
      have noval : ∀ {items : List Item} {v : String} {r : List String}, words items = v :: r → ¬ ['-', '-'] <+: v.toList → False := by
        intro items v r hw hv
        rcases words_starts items with h0 | ⟨w, r', h0, ho⟩
        · rw [h0] at hw; cases hw
        · rw [h0] at hw
          cases hw
          exact hv ((isOption_iff _).1 ho)
      rw [words_cons, words_cons] at h
      cases i with
      | flag n =>
        obtain ⟨t, h1, h2⟩ := hi
        cases j with
        | flag n' =>
          simp only [Item.words, List.cons_append, List.nil_append, List.cons.injEq] at h
          rw [optionOf_inj h.1, ih ta tb h.2]
        | value n' v' =>
          obtain ⟨t', k1, k2, _⟩ := hj
          simp only [Item.words, List.cons_append, List.nil_append, List.cons.injEq] at h
          rw [optionOf_inj h.1, k1] at h1
          cases h1
          rw [h2] at k2; cases k2
        | bare n' =>
          obtain ⟨t', k1, k2, _⟩ := hj
          simp only [Item.words, List.cons_append, List.nil_append, List.cons.injEq] at h
          rw [optionOf_inj h.1, k1] at h1
          cases h1
          rw [h2] at k2; cases k2
      | value n v =>
        obtain ⟨t, h1, h2, hv⟩ := hi
        cases j with
        | flag n' =>
          obtain ⟨t', k1, k2⟩ := hj
          simp only [Item.words, List.cons_append, List.nil_append, List.cons.injEq] at h
          rw [optionOf_inj h.1, k1] at h1
          cases h1
          rw [h2] at k2; cases k2
        | value n' v' =>
          simp only [Item.words, List.cons_append, List.nil_append, List.cons.injEq] at h
          rw [optionOf_inj h.1, h.2.1, ih ta tb h.2.2]
        | bare n' =>
          simp only [Item.words, List.cons_append, List.nil_append, List.cons.injEq] at h
          exact (noval h.2.symm hv).elim
      | bare n =>
        obtain ⟨t, h1, h2, _⟩ := hi
        cases j with
        | flag n' =>
          obtain ⟨t', k1, k2⟩ := hj
          simp only [Item.words, List.cons_append, List.nil_append, List.cons.injEq] at h
          rw [optionOf_inj h.1, k1] at h1
          cases h1
          rw [h2] at k2; cases k2
        | value n' v' =>
          obtain ⟨_, _, _, hv'⟩ := hj
          simp only [Item.words, List.cons_append, List.nil_append, List.cons.injEq] at h
          exact (noval h.2 hv').elim
        | bare n' =>
          simp only [Item.words, List.cons_append, List.nil_append, List.cons.injEq] at h
          rw [optionOf_inj h.1, ih ta tb h.2]

/-! ### Values -/

theorem typeOf_state {items : List Item} (h : StateOk ts items m) (n : String) : typeOf m n = (declared ts n).bind fun t =>
    match valueOf t items with
    | some v => some v
    | none => t.default.map .single := by
  unfold typeOf
  rw [h.2]
  cases declared ts n with
  | none => rfl
  | some t => rfl

theorem given_values {items : List Item} {n : String} {t : Token} (ha : Acceptable ts items) (hd : declared ts n = some t)
    (hv : t.takesValue = true) : (values t items).length = (items.filter fun i => i.name = t.name).length := by
  unfold values
  have : ∀ i ∈ items.filter (fun i => i.name = t.name), (i.value? t).isSome = true := by
    intro i hi
    simp only [List.mem_filter, decide_eq_true_eq] at hi
    have hf := ha.fits i hi.1
    have hn : i.name = n := hi.2.trans (declared_name hd)
    cases i with
    | flag k =>
      obtain ⟨t', h1, h2⟩ := hf
      simp only [Item.name] at hn
      subst hn
      rw [hd] at h1; cases h1
      rw [hv] at h2; cases h2
    | value k v => rfl
    | bare k =>
      obtain ⟨t', h1, _, h2⟩ := hf
      simp only [Item.name] at hn
      subst hn
      rw [hd] at h1; cases h1
      simpa [Item.value?, Option.isSome_iff_ne_none] using h2
  generalize items.filter (fun i => i.name = t.name) = l at this
  induction l with
  | nil => rfl
  | cons i l ih =>
    obtain ⟨v, hv⟩ := Option.isSome_iff_exists.1 (this i (by simp))
    rw [List.filterMap_cons, hv]
    simp only [List.length_cons]
    rw [ih fun j hj => this j (List.mem_cons_of_mem _ hj)]

/-- C40: what is read back, after any accepted command line without `--help` and `--version`: single values are the one given
or the declared default, multiple values all those given, in order, and flags are set exactly if given; nothing can be read
under an undeclared name. -/
theorem values_given_or_default (hh : "--help" ∉ inputs) (hv : "--version" ∉ inputs)
    (h : parse (register ts) inputs = .ok m) : ∃ items, inputs = words items ∧ Acceptable ts items ∧
    (∀ n, declared ts n = none → single m n = none ∧ multiple m n = none ∧ flag m n = none) ∧
    ∀ n t, declared ts n = some t →
      (∀ v, single m n = some v ↔
        (Given items n ∧ t.takesValue = true ∧ t.allowMultiple = false ∧ values t items = [v]) ∨
        (¬ Given items n ∧ t.default = some v)) ∧
      (∀ l, multiple m n = some l ↔ Given items n ∧ t.takesValue = true ∧ t.allowMultiple = true ∧ l = values t items) ∧
      (flag m n = some true ↔ Given items n ∧ t.takesValue = false) ∧
      (flag m n = none ↔ ¬ Given items n ∧ t.default = none) := by
  obtain ⟨items, h1, ha, hs⟩ := read_items hh hv h
  refine ⟨items, h1, ha, ?_, ?_⟩
  · intro n hn
    have : typeOf m n = none := by rw [typeOf_state hs, hn]; rfl
    simp [single, multiple, flag, this]
  · intro n t hd
    have ht : typeOf m n = match valueOf t items with
        | some v => some v
        | none => t.default.map .single := by rw [typeOf_state hs, hd]; rfl
    by_cases hg : Given items n
    · have hg' : items.filter (fun i => i.name = t.name) ≠ [] := by
        have := given_valueOf (t := t) (items := items) |>.2 (by rw [declared_name hd]; exact hg)
        rwa [ne_eq, valueOf_none] at this
      have hval : valueOf t items = some (if t.takesValue then
          if t.allowMultiple then .multiple (values t items) else .single ((values t items).getLastD "") else .flag) := by
        unfold valueOf
        rw [if_neg hg']
      rw [hval] at ht
      simp only at ht
      cases htv : t.takesValue with
      | false =>
        rw [htv] at ht
        simp [single, multiple, flag, ht, hg]
      | true =>
        rw [htv] at ht
        cases ham : t.allowMultiple with
        | true =>
          rw [ham] at ht
          simp [single, multiple, flag, ht, hg, eq_comm]
        | false =>
          rw [ham] at ht
          have hlen := given_values ha hd htv
          have hone := ha.once n t hd ham
          rw [← declared_name hd] at hone
          have hpos : 0 < (items.filter (fun i => i.name = t.name)).length := List.length_pos_iff.2 hg'
          obtain ⟨v, hv⟩ : ∃ v, values t items = [v] := List.length_eq_one_iff.1 (by omega)
          rw [hv] at ht ⊢
          simp [single, multiple, flag, ht, hg]
    · have hval : valueOf t items = none := by
        by_contra hc
        exact hg (by rw [← declared_name hd]; exact given_valueOf.1 hc)
      rw [hval] at ht
      simp only at ht
      cases hdef : t.default with
      | none => rw [hdef] at ht; simp [single, multiple, flag, ht, hg]
      | some d => rw [hdef] at ht; simp [single, multiple, flag, ht, hg]

/-! ### Help and version -/

theorem declared_builtin (ts : List Token) : (∃ t, declared ts "help" = some t) ∧ ∃ t, declared ts "version" = some t := by
  have key : ∀ n : String, (n = "help" ∨ n = "version") → ∃ t, declared ts n = some t := by
    intro n hn
    unfold declared
    cases hl : (({ name := "help" } :: { name := "version" } :: ts : List Token).filter fun t => t.name = n).getLast? with
    | some t => exact ⟨t, rfl⟩
    | none =>
      exfalso
      rw [List.getLast?_eq_none_iff, List.filter_eq_nil_iff] at hl
      rcases hn with rfl | rfl
      · exact hl { name := "help" } (by simp) (by simp)
      · exact hl { name := "version" } (by simp) (by simp)
  exact ⟨key _ (.inl rfl), key _ (.inr rfl)⟩

theorem flag_put {n : String} {e : Entry} (h : get n m = some e) : flag (put n .flag m) n = some true := by
  unfold flag typeOf
  rw [get_put, if_pos rfl, h]
  rfl

/-- C40: help is asked for exactly if `--help` is among the arguments, version exactly if `--version` is and `--help` is not;
and both are accepted whatever else is there. -/
theorem help_version (ts : List Token) (inputs : List String) :
    ("--help" ∈ inputs → ∃ m, parse (register ts) inputs = .ok m ∧ help m = true ∧ version m = false) ∧
    ("--help" ∉ inputs → "--version" ∈ inputs →
      ∃ m, parse (register ts) inputs = .ok m ∧ help m = false ∧ version m = true) ∧
    ("--help" ∉ inputs → "--version" ∉ inputs → ∀ m, parse (register ts) inputs = .ok m →
      help m = false ∧ version m = false) := by
  obtain ⟨⟨th, hth⟩, tv, htv⟩ := declared_builtin ts
  have gh : get "help" (register ts) = some ⟨th, none⟩ := by rw [(register_spec ts).2, hth]; rfl
  have gv : get "version" (register ts) = some ⟨tv, none⟩ := by rw [(register_spec ts).2, htv]; rfl
  have unset : ∀ {m : TokenMap} {n : String} {t : Token}, get n m = some ⟨t, none⟩ → (flag m n).getD false = false := by
    intro m n t h
    unfold flag typeOf
    rw [h]
    simp only
    cases t.default <;> rfl
  refine ⟨?_, ?_, ?_⟩
  · intro h
    refine ⟨_, by unfold parse; rw [if_pos (by simpa using h)], ?_, ?_⟩
    · unfold help; rw [flag_put gh]; rfl
    · unfold version
      refine unset (t := tv) ?_
      rw [get_put, if_neg (by decide)]
      exact gv
  · intro h1 h2
    refine ⟨_, by unfold parse; rw [if_neg (by simpa using h1), if_pos (by simpa using h2)], ?_, ?_⟩
    · unfold help
      refine unset (t := th) ?_
      rw [get_put, if_neg (by decide)]
      exact gh
    · unfold version; rw [flag_put gv]; rfl
  · intro h1 h2 m hm
    obtain ⟨items, h3, ha, hs⟩ := read_items h1 h2 hm
    have ng : ∀ n, "--" ++ n ∉ inputs → ¬ Given items n := by
      intro n hn hg
      have := (given_iff ha.fits n).2 hg
      rw [← h3] at this
      exact hn (by simpa using this)
    have nv : ∀ {n : String} {t : Token}, declared ts n = some t → ¬ Given items n → get n m = some ⟨t, none⟩ := by
      intro n t hd hg
      rw [hs.2, hd]
      have : valueOf t items = none := by
        by_contra hc
        exact hg (by rw [← declared_name hd]; exact given_valueOf.1 hc)
      simp [this]
    exact ⟨unset (nv hth (ng "help" h1)), unset (nv htv (ng "version" h2))⟩

/-! ### Rejections -/

/-- What a rejection says about the command line. -/
def Error.Reason (ts : List Token) (inputs : List String) : Error → Prop
  | .unexpectedInput s => s ∈ inputs ∧ ∀ n, s = "--" ++ n → declared ts n = none
  | .duplicateInput n => 2 ≤ inputs.count ("--" ++ n) ∧ ∃ t, declared ts n = some t ∧ t.allowMultiple = false
  | .missingValue n => "--" ++ n ∈ inputs ∧ ∃ t, declared ts n = some t ∧ t.takesValue = true ∧ t.default = none
  | .missingInput n => "--" ++ n ∉ inputs ∧ ((∃ t, declared ts n = some t ∧ t.required = true) ∨
      ∃ n' t, declared ts n' = some t ∧ "--" ++ n' ∈ inputs ∧ t.requires = some n)
  | .mutuallyExclusiveInput a b => "--" ++ a ∈ inputs ∧ "--" ++ b ∈ inputs ∧ ∃ t, declared ts a = some t ∧ b ∈ t.forbids

theorem given_words {items : List Item} {n : String} (h : Given items n) : "--" ++ n ∈ words items := by
  obtain ⟨i, hi, rfl⟩ := h
  unfold words
  rw [List.mem_flatMap]
  refine ⟨i, hi, ?_⟩
  cases i <;> simp [Item.words, Item.name]

theorem words_append (a b : List Item) : words (a ++ b) = words a ++ words b := by simp [words]

theorem takeValue_error {t : Token} {rest : List String} {er : Error} (h : takeValue t rest = .error er) :
    er = .missingValue t.name ∧ t.default = none := by
  unfold takeValue at h
  split at h
  · split at h
    · cases h
    · split at h
      · cases h
      · rename_i hd; cases h; exact ⟨rfl, hd⟩
  · split at h
    · cases h
    · rename_i hd; cases h; exact ⟨rfl, hd⟩

theorem checkInput_error {input : String} {er : Error} (h : checkInput m input = .error er) :
    (er = .unexpectedInput input ∧ (isOption input = true → get (nameOf input) m = none)) ∨
    (er = .duplicateInput (nameOf input) ∧ isOption input = true ∧
      ∃ e, get (nameOf input) m = some e ∧ e.token.allowMultiple = false ∧ e.user ≠ none) := by
  unfold checkInput at h
  cases hi : isOption input with
  | false =>
    rw [hi] at h
    simp only [Bool.not_false, if_true] at h
    cases h
    exact .inl ⟨rfl, by simp⟩
  | true =>
    rw [hi] at h
    simp only [Bool.not_true, Bool.false_eq_true, if_false] at h
    cases hg : get (nameOf input) m with
    | none =>
      rw [hg] at h
      cases h
      exact .inl ⟨rfl, fun _ => rfl⟩
    | some e =>
      rw [hg] at h
      simp only at h
      split at h
      · rename_i hc
        cases h
        simp only [Bool.and_eq_true, Bool.not_eq_true'] at hc
        exact .inr ⟨rfl, rfl, e, rfl, hc.1, Option.isSome_iff_ne_none.1 hc.2⟩
      · cases h

theorem fill_error {er : Error} (h : fill m inputs = .error er) : ∀ prev, StateOk ts prev m →
    er.Reason ts (words prev ++ inputs) := by
  fun_induction fill m inputs with
  | case1 m => cases h
  | case2 m input rest e hc =>
    cases h
    intro prev hs
    rcases checkInput_error hc with ⟨rfl, hn⟩ | ⟨rfl, ho, e', hg, ha, hu⟩
    · refine ⟨by simp, ?_⟩
      rintro n rfl
      have := hn (isOption_optionOf n)
      rw [nameOf_optionOf, hs.2] at this
      simpa using this
    · obtain ⟨t, hd, rfl⟩ := get_state hs hg
      refine ⟨?_, t, hd, ha⟩
      have hg := given_words (given_valueOf.1 hu)
      rw [declared_name hd] at hg
      rw [optionOf_nameOf ho] at *
      rw [List.count_append, List.count_cons_self]
      have := List.count_pos_iff.2 hg
      omega
  | case3 m input rest e hc hv er' hx =>
    cases h
    intro prev hs
    obtain ⟨k1, k2, k3⟩ := checkInput_ok.1 hc
    obtain ⟨t, hd, rfl⟩ := get_state hs k2
    obtain ⟨rfl, hdef⟩ := takeValue_error hx
    refine ⟨?_, t, ?_, hv, hdef⟩
    · simp only
      rw [declared_name hd, optionOf_nameOf k1]
      simp
    · simp only
      rw [declared_name hd]; exact hd
  | case4 m input rest e hc hv v rest' ht er' hx =>
    intro prev hs
    exfalso
    obtain ⟨k1, k2, k3⟩ := checkInput_ok.1 hc
    obtain ⟨t, hd, rfl⟩ := get_state hs k2
    obtain ⟨val, h1, _⟩ := store_value (prev := prev) (i := .value t.name v) rfl hv rfl
    rw [h1] at hx
    cases hx
  | case5 m input rest e hc hv v rest' ht val hs0 ih =>
    intro prev hs
    obtain ⟨k1, k2, k3⟩ := checkInput_ok.1 hc
    obtain ⟨t, hd, rfl⟩ := get_state hs k2
    have next : ∀ i : Item, i.name = nameOf input → i.value? t = some v → input :: rest = i.words ++ rest' →
        er.Reason ts (words prev ++ (input :: rest)) := by
      intro i hn hiv hw
      obtain ⟨val', h1, h2⟩ := store_value (prev := prev) (i := i) (hn.trans (declared_name hd).symm) hv hiv
      rw [hs0] at h1
      cases h1
      have := ih h (prev ++ [i]) (by
        have := hs.put (i := i) (t := t) (val := val) (by rw [hn]; exact hd) h2
        rwa [hn] at this)
      rw [hw, ← List.append_assoc]
      rwa [words_append, words_cons, show words ([] : List Item) = [] from rfl, List.append_nil] at this
    unfold takeValue at ht
    split at ht
    · split at ht
      · cases ht
        exact next (.value (nameOf input) v) rfl rfl (by rw [Item.words, optionOf_nameOf k1]; rfl)
      · split at ht
        · rename_i d hdef
          cases ht
          exact next (.bare (nameOf input)) rfl hdef (by rw [Item.words, optionOf_nameOf k1]; rfl)
        · cases ht
    · split at ht
      · rename_i d hdef
        cases ht
        exact next (.bare (nameOf input)) rfl hdef (by rw [Item.words, optionOf_nameOf k1]; rfl)
      · cases ht
  | case6 m input rest e hc hv ih =>
    intro prev hs
    obtain ⟨k1, k2, k3⟩ := checkInput_ok.1 hc
    obtain ⟨t, hd, rfl⟩ := get_state hs k2
    have := ih h (prev ++ [.flag (nameOf input)]) (hs.put (i := .flag (nameOf input)) hd
      (valueOf_flag (declared_name hd).symm (by simpa using hv)))
    rw [words_append, words_cons, Item.words, optionOf_nameOf k1] at this
    rw [show input :: rest = [input] ++ rest from rfl, ← List.append_assoc]
    simpa [words] using this

theorem checkConstraints_error {er : Error} (h : checkConstraints inputs m = .error er) :
    ∃ e ∈ m, checkToken inputs e = .error er := by
  induction m with
  | nil => cases h
  | cons a m ih =>
    unfold checkConstraints at h
    split at h
    · rename_i hx
      cases h
      exact ⟨a, by simp, hx⟩
    · obtain ⟨e, h1, h2⟩ := ih h
      exact ⟨e, List.mem_cons_of_mem _ h1, h2⟩

/-- C40: a rejected command line has the fault that the error names. -/
theorem rejection_reason (er : Error) (h : parse (register ts) inputs = .error er) : er.Reason ts inputs := by
  unfold parse at h
  split at h
  · cases h
  · split at h
    · cases h
    · unfold doParse at h
      split at h
      · rename_i e hf
        cases h
        simpa [words] using fill_error hf [] (start_state ts)
      · rename_i m' hf
        split at h
        · rename_i e hc
          cases h
          obtain ⟨items, rfl, hfill⟩ := fill_sound hf
          obtain ⟨hs, _, hfit⟩ := fills_state hfill [] (start_state ts) once_nil
          simp only [List.nil_append] at hs
          obtain ⟨e, he, hx⟩ := checkConstraints_error hc
          obtain ⟨t, hd, rfl⟩ := get_state hs ((mem_iff_get hs.1 e).1 he)
          have hd : declared ts t.name = some t := hd
          have no : ∀ n, ¬ Given items n → "--" ++ n ∉ words items := by
            intro n hn hm
            exact hn ((given_iff hfit n).1 (by simpa using hm))
          unfold checkToken optionOf at hx
          split at hx
          · rename_i hu
            split at hx
            · rename_i hr
              cases hx
              refine ⟨no _ ?_, .inl ⟨t, hd, hr⟩⟩
              intro hg
              exact given_valueOf.2 hg hu
            · cases hx
          · rename_i v hu
            have hg : Given items t.name := given_valueOf.1 (by simp only at hu; rw [hu]; simp)
            split at hx
            · rename_i o ho
              cases hx
              obtain ⟨h1, h2⟩ := Option.filter_eq_some_iff.1 ho
              exact ⟨by simpa using h2, .inr ⟨t.name, t, hd, given_words hg, h1⟩⟩
            · split at hx
              · rename_i o ho
                cases hx
                have h1 := List.find?_some ho
                exact ⟨given_words hg, by simpa using h1, t, hd, List.mem_of_find?_eq_some ho⟩
              · cases hx
        · cases h

end Qos.Parser
