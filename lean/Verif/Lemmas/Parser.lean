import Verif.Spec.Parser
import Mathlib.Data.String.Basic
import Mathlib.Data.List.Induction
import Mathlib.Tactic.ByContra
/-!
# Lemmas: command lines
-/
namespace Qos.Parser

/-! ## Words -/

theorem isOption_iff (s : String) : isOption s = true ↔ ['-', '-'] <+: s.toList := List.isPrefixOf_iff_prefix

theorem isOption_optionOf (n : String) : isOption ("--" ++ n) = true := by
  rw [isOption_iff, String.toList_append]
  exact List.prefix_append _ _

theorem nameOf_optionOf (n : String) : nameOf ("--" ++ n) = n := by
  unfold nameOf
  rw [String.toList_append]
  show String.ofList n.toList = n
  exact String.ofList_toList

theorem optionOf_nameOf {s : String} (h : isOption s = true) : "--" ++ nameOf s = s := by
  rw [isOption_iff] at h
  obtain ⟨r, hr⟩ := h
  have : s.toList.drop 2 = r := by rw [← hr]; rfl
  unfold nameOf
  rw [this]
  apply String.toList_inj.1
  rw [String.toList_append, ← hr]
  show ['-', '-'] ++ _ = _
  rw [String.toList_ofList]

theorem optionOf_inj {a b : String} (h : "--" ++ a = "--" ++ b) : a = b := by
  have := congrArg nameOf h
  rwa [nameOf_optionOf, nameOf_optionOf] at this

/-! ## The map -/

/-- In the order of the names, each once. -/
def Sorted (m : TokenMap) : Prop := m.Pairwise fun a b => a.token.name < b.token.name

theorem mem_insert {t : Token} {m : TokenMap} {e : Entry} (h : e ∈ insert t m) : e = ⟨t, none⟩ ∨ e ∈ m := by
  induction m with
  | nil => simp [insert] at h; exact .inl h
  | cons a m ih =>
    unfold insert at h
    split at h
    · rcases List.mem_cons.1 h with h | h
      · exact .inl h
      · exact .inr h
    · split at h
      · rcases List.mem_cons.1 h with h | h
        · exact .inl h
        · exact .inr (List.mem_cons_of_mem _ h)
      · rcases List.mem_cons.1 h with h | h
        · exact .inr (h ▸ List.mem_cons_self)
        · rcases ih h with h | h
          · exact .inl h
          · exact .inr (List.mem_cons_of_mem _ h)

theorem sorted_insert {t : Token} {m : TokenMap} (h : Sorted m) : Sorted (insert t m) := by
  induction m with
  | nil => simp [insert, Sorted]
  | cons a m ih =>
    obtain ⟨h1, h2⟩ := List.pairwise_cons.1 h
    unfold insert
    split
    · rename_i hlt
      refine List.pairwise_cons.2 ⟨?_, h⟩
      intro e he
      rcases List.mem_cons.1 he with rfl | he
      · exact hlt
      · exact lt_trans hlt (h1 e he)
    · rename_i hge
      split
      · rename_i heq
        refine List.pairwise_cons.2 ⟨?_, h2⟩
        intro e he
        simp only
        rw [heq]
        exact h1 e he
      · rename_i hne
        refine List.pairwise_cons.2 ⟨?_, ih h2⟩
        intro e he
        rcases mem_insert he with rfl | he
        · exact lt_of_le_of_ne (not_lt.1 hge) (Ne.symm hne)
        · exact h1 e he

theorem get_none_of {m : TokenMap} {n : String} (h : ∀ e ∈ m, e.token.name ≠ n) : get n m = none := by
  induction m with
  | nil => rfl
  | cons a m ih =>
    unfold get
    rw [if_neg (h a (by simp))]
    exact ih fun e he => h e (by simp [he])

theorem get_insert {t : Token} {m : TokenMap} (h : Sorted m) (n : String) :
    get n (insert t m) = if t.name = n then some ⟨t, none⟩ else get n m := by
  induction m with
  | nil => simp [insert, get]
  | cons a m ih =>
    obtain ⟨h1, h2⟩ := List.pairwise_cons.1 h
    unfold insert
    split
    · rename_i hlt
      simp only [get]
    · split
      · rename_i heq
        simp only [get]
        by_cases hn : t.name = n
        · rw [if_pos hn, if_pos hn]
        · rw [if_neg hn, if_neg hn, if_neg (heq ▸ hn)]
      · rename_i hne
        simp only [get]
        rw [ih h2]
        by_cases hn : a.token.name = n
        · rw [if_pos hn, if_pos hn, if_neg]
          rintro rfl
          exact hne hn.symm
        · rw [if_neg hn, if_neg hn]

theorem get_put {m : TokenMap} (n : String) (v : Value) (k : String) :
    get k (put n v m) = if n = k then (get k m).map fun e => { e with user := some v } else get k m := by
  induction m with
  | nil => simp [put, get]
  | cons a m ih =>
    unfold put
    by_cases ha : a.token.name = n
    · rw [if_pos ha]
      simp only [get]
      by_cases hk : n = k
      · subst hk
        rw [if_pos ha, if_pos rfl, if_pos ha]
        rfl
      · rw [if_neg hk, if_neg (ha ▸ hk), if_neg (ha ▸ hk)]
    · rw [if_neg ha]
      simp only [get]
      rw [ih]
      by_cases hk : n = k
      · subst hk
        rw [if_neg ha, if_neg ha]
      · rw [if_neg hk, if_neg hk]

theorem put_names {m : TokenMap} (n : String) (v : Value) : (put n v m).map (·.token) = m.map (·.token) := by
  induction m with
  | nil => rfl
  | cons a m ih =>
    unfold put
    split
    · rfl
    · simp [ih]

theorem sorted_iff (m : TokenMap) : Sorted m ↔ (m.map (·.token)).Pairwise fun a b => a.name < b.name := by
  unfold Sorted
  rw [List.pairwise_map]

theorem sorted_put {m : TokenMap} (n : String) (v : Value) (h : Sorted m) : Sorted (put n v m) := by
  rw [sorted_iff] at *
  rw [put_names]
  exact h

theorem mem_iff_get {m : TokenMap} (h : Sorted m) (e : Entry) : e ∈ m ↔ get e.token.name m = some e := by
  induction m with
  | nil => simp [get]
  | cons a m ih =>
    obtain ⟨h1, h2⟩ := List.pairwise_cons.1 h
    unfold get
    by_cases ha : a.token.name = e.token.name
    · rw [if_pos ha]
      constructor
      · intro he
        rcases List.mem_cons.1 he with rfl | he
        · rfl
        · exact absurd (ha ▸ h1 e he) (lt_irrefl _)
      · intro he
        cases he
        exact List.mem_cons_self
    · rw [if_neg ha, ← ih h2]
      constructor
      · intro he
        rcases List.mem_cons.1 he with rfl | he
        · exact absurd rfl ha
        · exact he
      · exact fun he => List.mem_cons_of_mem _ he

theorem register_spec (ts : List Token) :
    Sorted (register ts) ∧ ∀ n, get n (register ts) = (declared ts n).map fun t => ⟨t, none⟩ := by
  have hv : Sorted (insert { name := "version" } (insert { name := "help" } [])) :=
    sorted_insert (sorted_insert List.Pairwise.nil)
  induction ts using List.reverseRecOn with
  | nil =>
    refine ⟨hv, fun n => ?_⟩
    have hr : register [] = insert { name := "version" } (insert { name := "help" } []) := rfl
    rw [hr]
    rw [get_insert (sorted_insert List.Pairwise.nil), get_insert List.Pairwise.nil]
    unfold declared
    by_cases h1 : "version" = n
    · subst h1; decide
    · by_cases h2 : "help" = n
      · subst h2; decide
      · simp [h1, h2, get]
  | append_singleton ts t ih =>
    obtain ⟨i1, i2⟩ := ih
    have hr : register (ts ++ [t]) = insert t (register ts) := by simp [register, List.foldl_append]
    rw [hr]
    refine ⟨sorted_insert i1, fun n => ?_⟩
    rw [get_insert i1, i2]
    have hd : declared (ts ++ [t]) n = if t.name = n then some t else declared ts n := by
      unfold declared
      rw [← List.cons_append, ← List.cons_append, List.filter_append]
      by_cases hn : t.name = n
      · rw [if_pos hn, List.filter_cons_of_pos (a := t) (by simpa using hn)]
        exact List.getLast?_concat
      · rw [if_neg hn, List.filter_cons_of_neg (a := t) (by simpa using hn), List.filter_nil, List.append_nil]
    rw [hd]
    by_cases hn : t.name = n
    · rw [if_pos hn, if_pos hn]; rfl
    · rw [if_neg hn, if_neg hn]

theorem declared_name {ts : List Token} {n : String} {t : Token} (h : declared ts n = some t) : t.name = n := by
  have := List.mem_of_getLast? h
  simpa using (List.mem_filter.1 this).2

/-! ## Filling -/

/-- A token may be given (again). -/
def Entry.Open (e : Entry) : Prop := e.token.allowMultiple = true ∨ e.user = none

/-- The loop, item by item. -/
inductive Fills : TokenMap → List Item → TokenMap → Prop
  | nil (m : TokenMap) : Fills m [] m
  | flag {m m' : TokenMap} {n : String} {e : Entry} {items : List Item} : get n m = some e → e.token.takesValue = false →
      e.Open → Fills (put n .flag m) items m' → Fills m (.flag n :: items) m'
  | value {m m' : TokenMap} {n v : String} {e : Entry} {val : Value} {items : List Item} : get n m = some e →
      e.token.takesValue = true → e.Open → isOption v = false → store e v = .ok val → Fills (put n val m) items m' →
      Fills m (.value n v :: items) m'
  | bare {m m' : TokenMap} {n d : String} {e : Entry} {val : Value} {items : List Item} : get n m = some e →
      e.token.takesValue = true → e.Open → e.token.default = some d → store e d = .ok val → Fills (put n val m) items m' →
      Fills m (.bare n :: items) m'

theorem checkInput_ok {m : TokenMap} {input : String} {e : Entry} :
    checkInput m input = .ok e ↔ isOption input = true ∧ get (nameOf input) m = some e ∧ e.Open := by
  unfold checkInput Entry.Open
  cases hi : isOption input with
  | false => simp
  | true =>
    simp only [Bool.not_true, Bool.false_eq_true, if_false]
    cases hg : get (nameOf input) m with
    | none => simp
    | some e' =>
      simp only [Option.some.injEq, true_and]
      constructor
      · intro h
        split at h
        · cases h
        · rename_i hc
          injection h with h
          subst h
          refine ⟨rfl, ?_⟩
          cases ha : e'.token.allowMultiple with
          | true => exact .inl rfl
          | false =>
            right
            rw [ha] at hc
            simpa using hc
      · rintro ⟨rfl, h⟩
        rw [if_neg]
        rcases h with h | h <;> simp [h]

theorem words_cons (i : Item) (items : List Item) : words (i :: items) = i.words ++ words items := by simp [words]

theorem words_starts (items : List Item) : words items = [] ∨ ∃ w rest, words items = w :: rest ∧ isOption w = true := by
  cases items with
  | nil => exact .inl rfl
  | cons i items =>
    right
    rw [words_cons]
    cases i with
    | flag n => exact ⟨_, _, rfl, isOption_optionOf n⟩
    | value n v => exact ⟨_, _, rfl, isOption_optionOf n⟩
    | bare n => exact ⟨_, _, rfl, isOption_optionOf n⟩

theorem fill_sound {m m' : TokenMap} {inputs : List String} (h : fill m inputs = .ok m') :
    ∃ items, inputs = words items ∧ Fills m items m' := by
  fun_induction fill m inputs with
  | case1 m => cases h; exact ⟨[], rfl, .nil _⟩
  | case2 m input rest e hc => cases h
  | case3 m input rest e hc hv er hx => cases h
  | case4 m input rest e hc hv v rest' ht er hx => cases h
  | case5 m input rest e hc hv v rest' ht val hs ih =>
    obtain ⟨items, h1, h2⟩ := ih h
    obtain ⟨k1, k2, k3⟩ := checkInput_ok.1 hc
    unfold takeValue at ht
    split at ht
    · rename_i w ws
      split at ht
      · rename_i hw
        cases ht
        refine ⟨.value (nameOf input) v :: items, ?_, .value k2 hv k3 (by simpa using hw) hs h2⟩
        rw [words_cons, ← h1, Item.words, optionOf_nameOf k1]
        rfl
      · split at ht
        · rename_i d hd
          cases ht
          refine ⟨.bare (nameOf input) :: items, ?_, .bare k2 hv k3 hd hs h2⟩
          rw [words_cons, ← h1, Item.words, optionOf_nameOf k1]
          rfl
        · cases ht
    · split at ht
      · rename_i d hd
        cases ht
        refine ⟨.bare (nameOf input) :: items, ?_, .bare k2 hv k3 hd hs h2⟩
        rw [words_cons, ← h1, Item.words, optionOf_nameOf k1]
        rfl
      · cases ht
  | case6 m input rest e hc hv ih =>
    obtain ⟨items, h1, h2⟩ := ih h
    obtain ⟨k1, k2, k3⟩ := checkInput_ok.1 hc
    refine ⟨.flag (nameOf input) :: items, ?_, .flag k2 (by simpa using hv) k3 h2⟩
    rw [words_cons, ← h1, Item.words, optionOf_nameOf k1]
    rfl

theorem fill_cons (m : TokenMap) (input : String) (rest : List String) {e : Entry} (hc : checkInput m input = .ok e) :
    (e.token.takesValue = false → fill m (input :: rest) = fill (put (nameOf input) .flag m) rest) ∧
    (∀ v rest' val, e.token.takesValue = true → takeValue e.token rest = .ok (v, rest') → store e v = .ok val →
      fill m (input :: rest) = fill (put (nameOf input) val m) rest') := by
  constructor
  · intro h
    rw [fill, hc]
    simp [h]
  · intro v rest' val h1 h2 h3
    rw [fill, hc]
    simp only [h1, if_true]
    split
    · rename_i er hx; rw [h2] at hx; cases hx
    · rename_i v' r' hx
      rw [h2] at hx
      cases hx
      rw [h3]

theorem fill_complete {m m' : TokenMap} {items : List Item} (h : Fills m items m') : fill m (words items) = .ok m' := by
  induction h with
  | nil m => simp [words, fill]
  | @flag m m' n e items h1 h2 h3 _ ih =>
    rw [words_cons]
    have hc : checkInput m ("--" ++ n) = .ok e := checkInput_ok.2 ⟨isOption_optionOf n, by rw [nameOf_optionOf]; exact h1, h3⟩
    show fill m (("--" ++ n) :: words items) = _
    rw [(fill_cons m _ _ hc).1 h2, nameOf_optionOf]
    exact ih
  | @value m m' n v e val items h1 h2 h3 h4 h5 _ ih =>
    rw [words_cons]
    have hc : checkInput m ("--" ++ n) = .ok e := checkInput_ok.2 ⟨isOption_optionOf n, by rw [nameOf_optionOf]; exact h1, h3⟩
    show fill m (("--" ++ n) :: v :: words items) = _
    rw [(fill_cons m _ _ hc).2 v (words items) val h2 (by simp [takeValue, h4]) h5, nameOf_optionOf]
    exact ih
  | @bare m m' n d e val items h1 h2 h3 h4 h5 _ ih =>
    rw [words_cons]
    have hc : checkInput m ("--" ++ n) = .ok e := checkInput_ok.2 ⟨isOption_optionOf n, by rw [nameOf_optionOf]; exact h1, h3⟩
    show fill m (("--" ++ n) :: words items) = _
    have ht : takeValue e.token (words items) = .ok (d, words items) := by
      rcases words_starts items with hw | ⟨w, rest, hw, ho⟩
      · rw [hw]; simp [takeValue, h4]
      · rw [hw]; simp [takeValue, h4, ho]
    rw [(fill_cons m _ _ hc).2 d (words items) val h2 ht h5, nameOf_optionOf]
    exact ih

/-! ## The values -/

/-- The value of a token after some items. -/
def valueOf (t : Token) (items : List Item) : Option Value :=
  if items.filter (fun i => i.name = t.name) = [] then none
  else some (if t.takesValue then
    if t.allowMultiple then .multiple (values t items) else .single ((values t items).getLastD "") else .flag)

theorem valueOf_other {t : Token} {prev : List Item} {i : Item} (h : i.name ≠ t.name) :
    valueOf t (prev ++ [i]) = valueOf t prev := by
  have hf : (prev ++ [i]).filter (fun i => i.name = t.name) = prev.filter (fun i => i.name = t.name) := by
    rw [List.filter_append, List.filter_cons_of_neg (by simpa using h)]
    simp
  unfold valueOf values
  rw [hf]

theorem valueOf_flag {t : Token} {prev : List Item} {i : Item} (h : i.name = t.name) (ht : t.takesValue = false) :
    valueOf t (prev ++ [i]) = some .flag := by
  unfold valueOf
  rw [if_neg (by rw [List.filter_append, List.filter_cons_of_pos (by simpa using h)]; simp), ht]
  rfl

theorem values_snoc {t : Token} {prev : List Item} {i : Item} {v : String} (h : i.name = t.name)
    (hv : i.value? t = some v) : values t (prev ++ [i]) = values t prev ++ [v] := by
  unfold values
  rw [List.filter_append, List.filter_cons_of_pos (by simpa using h), List.filterMap_append]
  simp [hv]

theorem valueOf_none {t : Token} {prev : List Item} :
    valueOf t prev = none ↔ prev.filter (fun i => i.name = t.name) = [] := by
  unfold valueOf
  split <;> simp_all

theorem store_value {t : Token} {prev : List Item} {i : Item} {v : String} (h : i.name = t.name)
    (ht : t.takesValue = true) (hv : i.value? t = some v) :
    ∃ val, store ⟨t, valueOf t prev⟩ v = .ok val ∧ valueOf t (prev ++ [i]) = some val := by
  have hne : (prev ++ [i]).filter (fun i => i.name = t.name) ≠ [] := by
    rw [List.filter_append, List.filter_cons_of_pos (by simpa using h)]; simp
  have h2 : valueOf t (prev ++ [i]) = some (if t.allowMultiple then .multiple (values t prev ++ [v]) else .single v) := by
    unfold valueOf
    rw [if_neg hne, if_pos ht, values_snoc h hv]
    simp
  rw [h2]
  unfold store
  cases ha : t.allowMultiple with
  | false => simp
  | true =>
    simp only [if_true]
    unfold valueOf
    by_cases hn : prev.filter (fun i => i.name = t.name) = []
    · rw [if_pos hn]
      have : values t prev = [] := by unfold values; rw [hn]; rfl
      rw [this]
      exact ⟨_, rfl, rfl⟩
    · rw [if_neg hn, if_pos ht, ha]
      exact ⟨_, rfl, rfl⟩

/-- The map after some items. -/
def StateOk (ts : List Token) (prev : List Item) (m : TokenMap) : Prop :=
  Sorted m ∧ ∀ n, get n m = (declared ts n).map fun t => ⟨t, valueOf t prev⟩

theorem StateOk.put {ts : List Token} {prev : List Item} {m : TokenMap} {i : Item} {t : Token} {val : Value}
    (h : StateOk ts prev m) (ht : declared ts i.name = some t) (hv : valueOf t (prev ++ [i]) = some val) :
    StateOk ts (prev ++ [i]) (put i.name val m) := by
  refine ⟨sorted_put _ _ h.1, fun n => ?_⟩
  rw [get_put, h.2]
  by_cases hn : i.name = n
  · subst hn
    rw [if_pos rfl, ht]
    simp [hv]
  · rw [if_neg hn]
    cases hd : declared ts n with
    | none => rfl
    | some t' =>
      have : valueOf t' (prev ++ [i]) = valueOf t' prev := valueOf_other (by rw [declared_name hd]; exact hn)
      simp [this]

/-- Tokens given more than once are declared so. -/
def Once (ts : List Token) (items : List Item) : Prop :=
  ∀ n t, declared ts n = some t → t.allowMultiple = false → (items.filter fun i => i.name = n).length ≤ 1

theorem Once.snoc {ts : List Token} {prev : List Item} {i : Item} {t : Token} (h : Once ts prev)
    (ht : declared ts i.name = some t) (ho : (⟨t, valueOf t prev⟩ : Entry).Open) : Once ts (prev ++ [i]) := by
  intro n t' hd ha
  rw [List.filter_append]
  by_cases hn : i.name = n
  · subst hn
    rw [ht] at hd
    cases hd
    rcases ho with ho | ho
    · simp only at ho; rw [ha] at ho; cases ho
    · have := valueOf_none.1 ho
      rw [declared_name ht] at this
      rw [this, List.filter_cons_of_pos (by simp)]
      simp
  · rw [List.filter_cons_of_neg (by simpa using hn)]
    simpa using h n t' hd ha

theorem Once.prefix {ts : List Token} {a b : List Item} (h : Once ts (a ++ b)) : Once ts a := by
  intro n t hd ha
  have := h n t hd ha
  rw [List.filter_append, List.length_append] at this
  omega

theorem Once.open {ts : List Token} {prev : List Item} {i : Item} {t : Token} (h : Once ts (prev ++ [i]))
    (ht : declared ts i.name = some t) : (⟨t, valueOf t prev⟩ : Entry).Open := by
  cases ha : t.allowMultiple with
  | true => exact .inl ha
  | false =>
    right
    have := h i.name t ht ha
    rw [List.filter_append, List.filter_cons_of_pos (by simp)] at this
    simp only [List.filter_nil, List.length_append, List.length_cons, List.length_nil] at this
    refine valueOf_none.2 ?_
    rw [declared_name ht]
    exact List.length_eq_zero_iff.1 (by omega)

theorem get_state {ts : List Token} {prev : List Item} {m : TokenMap} {n : String} {e : Entry} (h : StateOk ts prev m)
    (he : get n m = some e) : ∃ t, declared ts n = some t ∧ e = ⟨t, valueOf t prev⟩ := by
  rw [h.2] at he
  obtain ⟨t, h1, h2⟩ := Option.map_eq_some_iff.1 he
  exact ⟨t, h1, h2.symm⟩

theorem fills_state {ts : List Token} {m m' : TokenMap} {items : List Item} (h : Fills m items m') :
    ∀ prev, StateOk ts prev m → Once ts prev →
      StateOk ts (prev ++ items) m' ∧ Once ts (prev ++ items) ∧ ∀ i ∈ items, i.Fits ts := by
  induction h with
  | nil m => intro prev h1 h2; simpa using ⟨h1, h2⟩
  | @flag m m' n e items h1 h2 h3 _ ih =>
    intro prev hs ho
    obtain ⟨t, hd, rfl⟩ := get_state hs h1
    have hd' : declared ts (Item.flag n).name = some t := hd
    have := ih (prev ++ [.flag n]) (hs.put hd' (valueOf_flag (declared_name hd).symm h2)) (ho.snoc hd' h3)
    rw [List.append_assoc] at this
    refine ⟨this.1, this.2.1, ?_⟩
    intro i hi
    rcases List.mem_cons.1 hi with rfl | hi
    · exact ⟨t, hd, h2⟩
    · exact this.2.2 i hi
  | @value m m' n v e val items h1 h2 h3 h4 h5 _ ih =>
    intro prev hs ho
    obtain ⟨t, hd, rfl⟩ := get_state hs h1
    have hd' : declared ts (Item.value n v).name = some t := hd
    obtain ⟨val', k1, k2⟩ := store_value (prev := prev) (i := .value n v) (declared_name hd).symm h2 rfl
    rw [h5] at k1
    cases k1
    have := ih (prev ++ [.value n v]) (hs.put hd' k2) (ho.snoc hd' h3)
    rw [List.append_assoc] at this
    refine ⟨this.1, this.2.1, ?_⟩
    intro i hi
    rcases List.mem_cons.1 hi with rfl | hi
    · refine ⟨t, hd, h2, ?_⟩
      rw [← isOption_iff, h4]
      simp
    · exact this.2.2 i hi
  | @bare m m' n d e val items h1 h2 h3 h4 h5 _ ih =>
    intro prev hs ho
    obtain ⟨t, hd, rfl⟩ := get_state hs h1
    have hd' : declared ts (Item.bare n).name = some t := hd
    obtain ⟨val', k1, k2⟩ := store_value (prev := prev) (i := .bare n) (declared_name hd).symm h2 h4
    rw [h5] at k1
    cases k1
    have := ih (prev ++ [.bare n]) (hs.put hd' k2) (ho.snoc hd' h3)
    rw [List.append_assoc] at this
    refine ⟨this.1, this.2.1, ?_⟩
    intro i hi
    rcases List.mem_cons.1 hi with rfl | hi
    · exact ⟨t, hd, h2, by simp only at h4; rw [h4]; simp⟩
    · exact this.2.2 i hi

theorem state_fills {ts : List Token} (items : List Item) : ∀ (prev : List Item) (m : TokenMap), StateOk ts prev m →
    Once ts (prev ++ items) → (∀ i ∈ items, i.Fits ts) → ∃ m', Fills m items m' := by
  induction items with
  | nil => intro prev m _ _ _; exact ⟨m, .nil m⟩
  | cons i items ih =>
    intro prev m hs ho hf
    have hpre : Once ts (prev ++ [i]) := Once.prefix (b := items) (by rw [List.append_assoc]; exact ho)
    have hrest : Once ts ((prev ++ [i]) ++ items) := by rw [List.append_assoc]; exact ho
    have htl : ∀ j ∈ items, j.Fits ts := fun j hj => hf j (List.mem_cons_of_mem _ hj)
    have hi := hf i (by simp)
    cases i with
    | flag n =>
      obtain ⟨t, hd, ht⟩ := hi
      have hd' : declared ts (Item.flag n).name = some t := hd
      obtain ⟨m', hm⟩ := ih _ _ (hs.put hd' (valueOf_flag (declared_name hd).symm ht)) hrest htl
      exact ⟨m', .flag (by rw [hs.2, hd]; rfl) ht (hpre.open hd') hm⟩
    | value n v =>
      obtain ⟨t, hd, ht, hv⟩ := hi
      have hd' : declared ts (Item.value n v).name = some t := hd
      obtain ⟨val, k1, k2⟩ := store_value (prev := prev) (i := .value n v) (declared_name hd).symm ht rfl
      obtain ⟨m', hm⟩ := ih _ _ (hs.put hd' k2) hrest htl
      refine ⟨m', .value (by rw [hs.2, hd]; rfl) ht (hpre.open hd') ?_ k1 hm⟩
      rw [← isOption_iff] at hv
      simpa using hv
    | bare n =>
      obtain ⟨t, hd, ht, hv⟩ := hi
      have hd' : declared ts (Item.bare n).name = some t := hd
      obtain ⟨d, hdef⟩ := Option.ne_none_iff_exists'.1 hv
      obtain ⟨val, k1, k2⟩ := store_value (prev := prev) (i := .bare n) (declared_name hd).symm ht hdef
      obtain ⟨m', hm⟩ := ih _ _ (hs.put hd' k2) hrest htl
      exact ⟨m', .bare (by rw [hs.2, hd]; rfl) ht (hpre.open hd') hdef k1 hm⟩

theorem start_state (ts : List Token) : StateOk ts [] (register ts) := by
  obtain ⟨h1, h2⟩ := register_spec ts
  refine ⟨h1, fun n => ?_⟩
  rw [h2]
  cases declared ts n with
  | none => rfl
  | some t => simp [valueOf]

/-! ## Constraints -/

/-- The options among the words are the names given. -/
theorem given_iff {ts : List Token} {items : List Item} (hf : ∀ i ∈ items, i.Fits ts) (n : String) :
    (words items).contains ("--" ++ n) = true ↔ Given items n := by
  rw [List.contains_iff_mem]
  unfold words Given
  rw [List.mem_flatMap]
  constructor
  · rintro ⟨i, hi, hw⟩
    refine ⟨i, hi, ?_⟩
    cases i with
    | flag m => simp only [Item.words, List.mem_singleton] at hw; exact (optionOf_inj hw).symm
    | bare m => simp only [Item.words, List.mem_singleton] at hw; exact (optionOf_inj hw).symm
    | value m v =>
      simp only [Item.words, List.mem_cons, List.not_mem_nil, or_false] at hw
      rcases hw with hw | hw
      · exact (optionOf_inj hw).symm
      · obtain ⟨_, _, _, hv⟩ := hf _ hi
        rw [← hw, ← isOption_iff, isOption_optionOf] at hv
        exact absurd rfl hv
  · rintro ⟨i, hi, rfl⟩
    refine ⟨i, hi, ?_⟩
    cases i <;> simp [Item.words, Item.name]

theorem checkConstraints_ok {inputs : List String} {m : TokenMap} :
    checkConstraints inputs m = .ok () ↔ ∀ e ∈ m, checkToken inputs e = .ok () := by
  induction m with
  | nil => simp [checkConstraints]
  | cons a m ih =>
    unfold checkConstraints
    cases ha : checkToken inputs a with
    | error e => simp [ha]
    | ok u => simp [ha, ih]

theorem checkToken_ok {inputs : List String} {e : Entry} : checkToken inputs e = .ok () ↔
    (e.token.required = true → e.user ≠ none) ∧
    (e.user ≠ none → (∀ o, e.token.requires = some o → inputs.contains ("--" ++ o) = true) ∧
      ∀ o ∈ e.token.forbids, inputs.contains ("--" ++ o) = false) := by
  unfold checkToken optionOf
  cases hu : e.user with
  | none => cases e.token.required <;> simp
  | some v =>
    simp only [ne_eq, reduceCtorEq, not_false_eq_true, implies_true, true_and, forall_const]
    split
    · rename_i o ho
      obtain ⟨h1, h2⟩ := Option.filter_eq_some_iff.1 ho
      constructor
      · intro h; cases h
      · rintro ⟨h, _⟩
        rw [h o h1] at h2
        cases h2
    · rename_i hn
      have hreq : ∀ o, e.token.requires = some o → inputs.contains ("--" ++ o) = true := by
        intro o ho
        rw [ho] at hn
        simp [Option.filter] at hn
        simpa using hn
      split
      · rename_i o ho
        constructor
        · intro h; cases h
        · rintro ⟨_, h⟩
          have h1 := List.find?_some ho
          have h2 := h o (List.mem_of_find?_eq_some ho)
          rw [h2] at h1
          cases h1
      · rename_i hn2
        refine ⟨fun _ => ⟨hreq, ?_⟩, fun _ => rfl⟩
        intro o ho
        have := List.find?_eq_none.1 hn2 o ho
        simpa using this

theorem given_valueOf {t : Token} {items : List Item} : valueOf t items ≠ none ↔ Given items t.name := by
  rw [ne_eq, valueOf_none]
  unfold Given
  rw [List.filter_eq_nil_iff]
  simp

theorem constraints_iff {ts : List Token} {items : List Item} {m : TokenMap} (hs : StateOk ts items m)
    (hf : ∀ i ∈ items, i.Fits ts) : checkConstraints (words items) m = .ok () ↔
    (∀ n t, declared ts n = some t → t.required = true → Given items n) ∧
    (∀ n t o, declared ts n = some t → Given items n → t.requires = some o → Given items o) ∧
    (∀ n t o, declared ts n = some t → Given items n → o ∈ t.forbids → ¬ Given items o) := by
  have hmem : (∀ e ∈ m, checkToken (words items) e = .ok ()) ↔
      ∀ n t, declared ts n = some t → checkToken (words items) ⟨t, valueOf t items⟩ = .ok () := by
    constructor
    · intro h n t hd
      refine h _ ((mem_iff_get hs.1 _).2 ?_)
      rw [hs.2, declared_name hd, hd]
      rfl
    · intro h e he
      obtain ⟨t, hd, rfl⟩ := get_state hs ((mem_iff_get hs.1 e).1 he)
      exact h _ t hd
  have no : ∀ o, (words items).contains ("--" ++ o) = false ↔ ¬ Given items o := by
    intro o
    rw [← given_iff hf o]
    simp
  rw [checkConstraints_ok, hmem]
  constructor
  · intro h
    refine ⟨?_, ?_, ?_⟩
    · intro n t hd hr
      have := (checkToken_ok.1 (h n t hd)).1 hr
      rw [← declared_name hd]
      exact given_valueOf.1 this
    · intro n t o hd hg hr
      have := (checkToken_ok.1 (h n t hd)).2 (given_valueOf.2 (by rw [declared_name hd]; exact hg))
      exact (given_iff hf o).1 (this.1 o hr)
    · intro n t o hd hg ho
      have := (checkToken_ok.1 (h n t hd)).2 (given_valueOf.2 (by rw [declared_name hd]; exact hg))
      exact (no o).1 (this.2 o ho)
  · rintro ⟨h1, h2, h3⟩ n t hd
    rw [checkToken_ok]
    constructor
    · intro hr
      refine given_valueOf.2 ?_
      rw [declared_name hd]
      exact h1 n t hd hr
    · intro hg
      have hg := given_valueOf.1 hg
      rw [declared_name hd] at hg
      exact ⟨fun o ho => (given_iff hf o).2 (h2 n t o hd hg ho), fun o ho => (no o).2 (h3 n t o hd hg ho)⟩

end Qos.Parser
