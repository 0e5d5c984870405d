import Verif.Spec.ClientCli
import Verif.Props.HostCli
import Verif.Lemmas.ClientFiles
/-!
# Lemmas for C58
-/
namespace Qos.ClientCli
open Parser HostCli

/-! ## Commands and their options -/

theorem command_iff {s : String} {c : Command} : command s = some c ↔ s = c.name := by
  unfold command
  constructor
  · intro h
    rw [Option.map_eq_some_iff] at h
    obtain ⟨x, hx, rfl⟩ := h
    have h1 := List.find?_some hx
    have h2 := List.mem_of_find?_eq_some hx
    have h3 : ∀ y ∈ commandNames, y.1 = y.2.name := by decide +kernel
    rw [← h3 x h2]
    exact (of_decide_eq_true h1).symm
  · rintro rfl
    cases c <;> decide +kernel

/-- The declarations, as a table: switches, values, needed, repeatable, with default, excluding. -/
def Described (c : Command) (t : Token) : Prop :=
  (t.takesValue = false ↔ t.name ∈ switches c) ∧ (t.takesValue = true ↔ t.name ∈ needs c ++ may c) ∧
  (t.required = true ↔ t.name ∈ needs c) ∧ (t.allowMultiple = true ↔ t.name = "share") ∧
  (t.default ≠ none ↔ t.name ∈ ["pivot-args", "debug-mode"]) ∧ (t.default ≠ none → t.name ∈ may c) ∧
  t.requires = none ∧
  (∀ o ∈ t.forbids, (t.name = "yubikey" ∧ o = "secret-path") ∨ (t.name = "secret-path" ∧ o = "yubikey")) ∧
  (t.name = "yubikey" → "secret-path" ∈ t.forbids)

instance (c : Command) (t : Token) : Decidable (Described c t) := by unfold Described; infer_instance

theorem table (c : Command) : (∀ t ∈ tokens c, declared (tokens c) t.name = some t ∧ Described c t ∧ t.name ≠ "help" ∧
      t.name ≠ "version") ∧
    ∀ n ∈ switches c ++ (needs c ++ may c), ∃ t ∈ tokens c, t.name = n := by
  cases c <;> decide +kernel

theorem declared_mem {ts : List Token} {n : String} {t : Token} (h : declared ts n = some t) :
    t ∈ ts ∨ n = "help" ∨ n = "version" := by
  unfold declared at h
  have h1 := List.mem_of_getLast? h
  simp only [List.mem_filter, List.mem_cons, decide_eq_true_eq] at h1
  obtain ⟨h2 | h2 | h2, h3⟩ := h1
  · subst h2; exact .inr (.inl h3.symm)
  · subst h2; exact .inr (.inr h3.symm)
  · exact .inl h2

theorem declared_iff {c : Command} {n : String} {t : Token} (hh : n ≠ "help") (hv : n ≠ "version") :
    declared (tokens c) n = some t ↔ t ∈ tokens c ∧ t.name = n := by
  constructor
  · intro h
    rcases declared_mem h with h1 | h1 | h1
    · exact ⟨h1, declared_name h⟩
    · exact absurd h1 hh
    · exact absurd h1 hv
  · rintro ⟨h, rfl⟩
    exact ((table c).1 t h).1

theorem described {c : Command} {n : String} {t : Token} (hh : n ≠ "help") (hv : n ≠ "version")
    (h : declared (tokens c) n = some t) : t.name = n ∧ Described c t := by
  obtain ⟨h1, h2⟩ := (declared_iff hh hv).mp h
  exact ⟨h2, ((table c).1 t h1).2.1⟩

theorem exists_declared {c : Command} {n : String} (h : n ∈ switches c ++ (needs c ++ may c)) :
    ∃ t, declared (tokens c) n = some t ∧ t.name = n ∧ Described c t := by
  obtain ⟨t, h1, rfl⟩ := (table c).2 n h
  exact ⟨t, ((table c).1 t h1).1, rfl, ((table c).1 t h1).2.1⟩

/-- No `--help` and no `--version` among the items. -/
theorem item_name {items : List Item} {i : Item} (hi : i ∈ items) {n : String} (h : "--" ++ n ∉ words items) : i.name ≠ n := by
  rintro rfl
  refine h ?_
  unfold words
  rw [List.mem_flatMap]
  exact ⟨i, hi, by cases i <;> simp [Item.words, Item.name]⟩

theorem acceptable_iff {c : Command} {items : List Item} (hh : "--help" ∉ words items) (hv : "--version" ∉ words items) :
    Acceptable (tokens c) items ↔ Follows c items := by
  have nh : ∀ i ∈ items, i.name ≠ "help" := fun i hi => item_name hi hh
  have nv : ∀ i ∈ items, i.name ≠ "version" := fun i hi => item_name hi hv
  constructor
  · intro ha
    refine ⟨?_, ?_, ?_, ?_⟩
    · intro i hi
      have hf := ha.fits i hi
      have h1 := nh i hi
      have h2 := nv i hi
      cases i with
      | flag n =>
        obtain ⟨t, hd, ht⟩ := hf
        obtain ⟨rfl, hx⟩ := described h1 h2 hd
        exact hx.1.mp ht
      | value n v =>
        obtain ⟨t, hd, ht, hp⟩ := hf
        obtain ⟨rfl, hx⟩ := described h1 h2 hd
        exact ⟨hx.2.1.mp ht, hp⟩
      | bare n =>
        obtain ⟨t, hd, ht, hp⟩ := hf
        obtain ⟨rfl, hx⟩ := described h1 h2 hd
        exact ⟨hx.2.2.2.2.2.1 hp, hx.2.2.2.2.1.mp hp⟩
    · intro n hn
      by_cases hm : ∃ i ∈ items, i.name = n
      · obtain ⟨i, hi, rfl⟩ := hm
        have hf := ha.fits i hi
        have : ∃ t, declared (tokens c) i.name = some t := by
          cases i with
          | flag n => obtain ⟨t, hd, _⟩ := hf; exact ⟨t, hd⟩
          | value n v => obtain ⟨t, hd, _⟩ := hf; exact ⟨t, hd⟩
          | bare n => obtain ⟨t, hd, _⟩ := hf; exact ⟨t, hd⟩
        obtain ⟨t, hd⟩ := this
        obtain ⟨e, hx⟩ := described (nh i hi) (nv i hi) hd
        refine ha.once _ t hd ?_
        cases hb : t.allowMultiple with
        | false => rfl
        | true => exact absurd (e ▸ hx.2.2.2.1.mp hb) hn
      · have : (items.filter fun i => i.name = n) = [] := by
          rw [List.filter_eq_nil_iff]
          intro i hi
          simp only [decide_eq_true_eq]
          exact fun e => hm ⟨i, hi, e⟩
        rw [this]
        exact Nat.zero_le _
    · intro n hn
      obtain ⟨t, hd, e, hx⟩ := exists_declared (c := c) (n := n) (by simp [hn])
      exact ha.required n t hd (hx.2.2.1.mpr (e ▸ hn))
    · rintro ⟨h1, h2⟩
      obtain ⟨i, hi, e⟩ := h1
      have hf := ha.fits i hi
      have : ∃ t, declared (tokens c) i.name = some t := by
        cases i with
        | flag n => obtain ⟨t, hd, _⟩ := hf; exact ⟨t, hd⟩
        | value n v => obtain ⟨t, hd, _⟩ := hf; exact ⟨t, hd⟩
        | bare n => obtain ⟨t, hd, _⟩ := hf; exact ⟨t, hd⟩
      obtain ⟨t, hd⟩ := this
      obtain ⟨e', hx⟩ := described (nh i hi) (nv i hi) hd
      refine ha.forbids _ t "secret-path" hd ⟨i, hi, rfl⟩ (hx.2.2.2.2.2.2.2.2 (e'.trans e)) h2
  · intro hf
    have nhelp : ∀ n, Given items n → n ≠ "help" ∧ n ≠ "version" := by
      rintro n ⟨i, hi, rfl⟩
      exact ⟨nh i hi, nv i hi⟩
    refine ⟨?_, ?_, ?_, ?_, ?_⟩
    · intro i hi
      have hb := hf.belongs i hi
      cases i with
      | flag n =>
        obtain ⟨t, hd, rfl, hx⟩ := exists_declared (c := c) (n := n) (List.mem_append.mpr (.inl hb))
        exact ⟨t, hd, hx.1.mpr hb⟩
      | value n v =>
        obtain ⟨t, hd, rfl, hx⟩ := exists_declared (c := c) (n := n) (List.mem_append.mpr (.inr hb.1))
        exact ⟨t, hd, hx.2.1.mpr hb.1, hb.2⟩
      | bare n =>
        obtain ⟨t, hd, rfl, hx⟩ := exists_declared (c := c) (n := n) (by simp [hb.1])
        exact ⟨t, hd, hx.2.1.mpr (by simp [hb.1]), hx.2.2.2.2.1.mpr hb.2⟩
    · intro n t hd hm
      by_cases hs : n = "share"
      · exfalso
        obtain ⟨e, hx⟩ := described (by rw [hs]; decide) (by rw [hs]; decide) hd
        have := hx.2.2.2.1.mpr (e.trans hs)
        rw [hm] at this
        cases this
      · exact hf.once n hs
    · intro n t hd hr
      rcases declared_mem hd with h1 | h1 | h1
      · have hx := ((table c).1 t h1).2.1
        have hn := declared_name hd
        exact hf.needed n (hn ▸ hx.2.2.1.mp hr)
      · exfalso
        subst h1
        have h2 : declared (tokens c) "help" = some { name := "help" } := by cases c <;> decide +kernel
        rw [h2] at hd
        cases hd
        cases hr
      · exfalso
        subst h1
        have h2 : declared (tokens c) "version" = some { name := "version" } := by cases c <;> decide +kernel
        rw [h2] at hd
        cases hd
        cases hr
    · intro n t o hd hg hr
      obtain ⟨h1, h2⟩ := nhelp n hg
      obtain ⟨-, hx⟩ := described h1 h2 hd
      rw [hx.2.2.2.2.2.2.1] at hr
      cases hr
    · intro n t o hd hg ho hgo
      obtain ⟨h1, h2⟩ := nhelp n hg
      obtain ⟨e, hx⟩ := described h1 h2 hd
      rcases hx.2.2.2.2.2.2.2.1 o ho with ⟨h3, h4⟩ | ⟨h3, h4⟩
      · exact hf.oneKey ⟨(e ▸ h3 : n = "yubikey") ▸ hg, h4 ▸ hgo⟩
      · exact hf.oneKey ⟨h4 ▸ hgo, (e ▸ h3 : n = "secret-path") ▸ hg⟩

/-! ## What is read -/

/-- What a parsed command line of a command gives for each name. -/
structure Got (c : Command) (items : List Item) (m : TokenMap) : Prop where
  reads : Reads (tokens c) items m
  absent : ∀ n, declared (tokens c) n = none → single m n = none ∧ flag m n = none
  many : ∀ l, "share" ∈ needs c → (multiple m "share" = some l ↔ l = saidAll items "share")
  follows : Follows c items

theorem values_share {c : Command} {items : List Item} (hf : Follows c items) {t : Token} (hn : t.name = "share") :
    values t items = saidAll items "share" := by
  unfold values saidAll
  rw [hn, List.filterMap_filter]
  have hb := hf.belongs
  clear hf
  induction items with
  | nil => rfl
  | cons i l ih =>
    rw [List.filterMap_cons, List.filterMap_cons, ih fun j hj => hb j (List.mem_cons_of_mem _ hj)]
    cases i with
    | flag n =>
      have : (if decide ((Item.flag n).name = "share") = true then Item.value? t (.flag n) else none) = none := by
        split <;> rfl
      rw [this]
      rfl
    | value n v =>
      by_cases h : n = "share"
      · subst h; rfl
      · have h1 : (if decide ((Item.value n v).name = "share") = true then Item.value? t (.value n v) else none) = none := by
          rw [if_neg (by rw [decide_eq_true_eq]; exact h)]
        have h2 : saidBy "share" (.value n v) = none := by
          show (if n = "share" then some v else none) = none
          rw [if_neg h]
        rw [h1, h2]
    | bare n =>
      have h := (hb _ (List.mem_cons_self ..)).2
      have h1 : (if decide ((Item.bare n).name = "share") = true then Item.value? t (.bare n) else none) = none := by
        rw [if_neg]
        intro hb
        have : n = "share" := of_decide_eq_true hb
        subst this
        revert h
        decide
      rw [h1]
      rfl

theorem got_parse {c : Command} {args : List String} {m : TokenMap} (hh : "--help" ∉ args) (hv : "--version" ∉ args)
    (h : parse (register (tokens c)) args = .ok m) : ∃ items, args = words items ∧ Got c items m := by
  obtain ⟨items, h1, ha, hn, hval⟩ := values_given_or_default hh hv h
  obtain ⟨items', h1', ha', hr⟩ := reads_parse hh hv h
  have e : items' = items := reading_unique ha'.fits ha.fits (h1'.symm.trans h1)
  subst e
  have hf : Follows c items' := (acceptable_iff (h1 ▸ hh) (h1 ▸ hv)).mp ha
  refine ⟨items', h1, hr, fun n h => ⟨(hn n h).1, (hn n h).2.2⟩, fun l hs => ?_, hf⟩
  obtain ⟨t, hd, e, hx⟩ := exists_declared (c := c) (n := "share") (by simp [hs])
  rw [(hval _ t hd).2.1 l, values_share hf e]
  have h2 : Given items' "share" := hf.needed _ hs
  have h3 : t.takesValue = true := hx.2.1.mpr (by rw [e]; simp [hs])
  have h4 : t.allowMultiple = true := hx.2.2.2.1.mpr e
  simp [h2, h3, h4]

variable {c : Command} {items : List Item} {m : TokenMap}

/-- A value without default. -/
theorem Got.said (h : Got c items m) (n : String)
    (hn : (decide (n ∈ needs c ++ may c) && decide (n ∉ ["pivot-args", "debug-mode", "share"])) = true) (v : String) :
    single m n = some v ↔ Says items n v := by
  simp only [Bool.and_eq_true, decide_eq_true_eq] at hn
  obtain ⟨t, hd, rfl, hx⟩ := exists_declared (c := c) (n := n) (List.mem_append.mpr (.inr hn.1))
  have h1 : t.takesValue = true := hx.2.1.mpr hn.1
  have h2 : t.allowMultiple = false := by
    cases hb : t.allowMultiple with
    | false => rfl
    | true => exact absurd (by rw [hx.2.2.2.1.mp hb]; decide) hn.2
  have h3 : t.default = none := by
    by_contra hb
    exact hn.2 (by have := hx.2.2.2.2.1.mp hb; simp only [List.mem_cons] at this ⊢; tauto)
  exact h.reads.some_iff hd h1 h2 h3 v

theorem Got.silent (h : Got c items m) (n : String)
    (hn : (decide (n ∈ needs c ++ may c) && decide (n ∉ ["pivot-args", "debug-mode", "share"])) = true) :
    single m n = none ↔ Silent items n := by
  rw [Option.eq_none_iff_forall_ne_some]
  exact forall_congr' fun v => not_congr (h.said n hn v)

theorem Got.maybe (h : Got c items m) (n : String)
    (hn : (decide (n ∈ needs c ++ may c) && decide (n ∉ ["pivot-args", "debug-mode", "share"])) = true) (o : Option String) :
    single m n = o ↔ SaysMaybe items n o := by
  constructor
  · rintro rfl v
    exact h.said n hn v
  · intro hs
    exact Option.ext fun v => (h.said n hn v).trans (hs v).symm

/-- An undeclared value. -/
theorem Got.undeclared (h : Got c items m) (n : String)
    (hn : (decide (declared (tokens c) n = none) && decide (n ∉ needs c ++ may c)) = true) :
    single m n = none ∧ Silent items n := by
  simp only [Bool.and_eq_true, decide_eq_true_eq] at hn
  refine ⟨(h.absent n hn.1).1, fun v hv => ?_⟩
  exact hn.2 (h.follows.belongs _ hv).1

theorem Got.maybe_undeclared (h : Got c items m) (n : String)
    (hn : (decide (declared (tokens c) n = none) && decide (n ∉ needs c ++ may c)) = true) (o : Option String) :
    single m n = o ↔ SaysMaybe items n o := by
  obtain ⟨h1, h2⟩ := h.undeclared n hn
  rw [h1]
  constructor
  · rintro rfl v
    exact ⟨(fun h => nomatch h), (fun h => absurd h (h2 v))⟩
  · intro hs
    cases o with
    | none => rfl
    | some v => exact absurd ((hs v).mp rfl) (h2 v)

/-- A flag. -/
theorem Got.switch (h : Got c items m) (n : String) (hn : decide (n ∈ switches c) = true) (b : Bool) :
    isSet m n = b ↔ SaysFlag items n b := by
  simp only [decide_eq_true_eq] at hn
  obtain ⟨t, hd, rfl, hx⟩ := exists_declared (c := c) (n := n) (List.mem_append.mpr (.inl hn))
  have := flag_getD (h.reads.2 _ t hd (hx.1.mpr hn))
  unfold SaysFlag
  rw [← this, ← Bool.eq_iff_iff]
  exact eq_comm

/-- A value with default. -/
theorem Got.defaulted (h : Got c items m) (n d : String)
    (hn : declared (tokens c) n = some (withDefault n d)) (v : String) :
    single m n = some v ↔ SaysOr items n d v := h.reads.or_iff hn rfl rfl rfl v

theorem Got.getD (h : Got c items m) (n d : String)
    (hn : (decide (n ∈ needs c ++ may c) && decide (n ∉ ["pivot-args", "debug-mode", "share"])) = true) (v : String) :
    (single m n).getD d = v ↔ SaysOr items n d v := by
  unfold SaysOr
  rw [← h.said n hn, ← h.silent n hn]
  cases single m n with
  | none => simp [eq_comm]
  | some w => simp

/-! ## The values -/

theorem restart_iff {s : String} {p : RestartPolicy} : restartPolicy s = some p ↔ Restart s p := by
  have e : String.ofList (s.toList.map Char.toLower) = s.toLower := by
    apply String.toList_inj.mp
    simp [String.toLower]
  unfold restartPolicy
  rw [e]
  by_cases h1 : s.toLower = "never"
  · rw [if_pos h1]
    cases p with
    | never => simp [Restart, h1]
    | always => simp [Restart, h1]
  · rw [if_neg h1]
    by_cases h2 : s.toLower = "always"
    · rw [if_pos h2]
      cases p with
      | never => simp [Restart, h1]
      | always => simp [Restart, h2]
    · rw [if_neg h2]
      cases p with
      | never => simp [Restart, h1]
      | always => simp [Restart, h2]

theorem split_intercalate {l : List (List Char)} (hne : l ≠ []) (h : ∀ a ∈ l, ',' ∉ a) :
    Client.splitAtChar ',' (List.intercalate [','] l) = l := by
  induction l with
  | nil => exact absurd rfl hne
  | cons a l ih =>
    cases l with
    | nil => simpa using Client.splitAtChar_self (h a (by simp))
    | cons b l =>
      rw [List.intercalate_cons_cons, List.append_assoc]
      show Client.splitAtChar ',' (a ++ ',' :: List.intercalate [','] (b :: l)) = _
      rw [Client.splitAtChar_append _ _ (h a (by simp)), ih (by simp) fun x hx => h x (by simp [hx])]

theorem intercalate_split (cs : List Char) : List.intercalate [','] (Client.splitAtChar ',' cs) = cs ∧
    ∀ a ∈ Client.splitAtChar ',' cs, ',' ∉ a := by
  induction cs with
  | nil => simp [Client.splitAtChar]
  | cons x cs ih =>
    unfold Client.splitAtChar
    have hne := Client.splitAtChar_ne_nil ',' cs
    cases hs : Client.splitAtChar ',' cs with
    | nil => exact absurd hs hne
    | cons a l =>
      rw [hs] at ih
      by_cases hx : x = ','
      · subst hx
        simp only [if_true, ite_true]
        refine ⟨?_, ?_⟩
        · rw [List.intercalate_cons_cons]
          simpa using ih.1
        · intro b hb
          rcases List.mem_cons.mp hb with rfl | hb
          · simp
          · exact ih.2 b hb
      · simp only [hx, if_false, ite_false]
        refine ⟨?_, ?_⟩
        · cases l with
          | nil => simpa using ih.1
          | cons b l =>
            rw [List.intercalate_cons_cons] at ih ⊢
            simpa using ih.1
        · intro b hb
          rcases List.mem_cons.mp hb with rfl | hb
          · intro hm
            rcases List.mem_cons.mp hm with h | h
            · exact hx h.symm
            · exact ih.2 a (by simp) h
          · exact ih.2 b (by simp [hb])

theorem bracketed_iff {cs inner : List Char} : bracketed cs = some inner ↔ cs = ['['] ++ inner ++ [']'] := by
  constructor
  · intro h
    unfold bracketed at h
    split at h
    · rename_i rest
      by_cases hl : rest.getLast? = some ']'
      · rw [if_pos hl] at h
        cases h
        have := List.dropLast_append_getLast? ']' hl
        rw [List.append_assoc, this]
        rfl
      · rw [if_neg hl] at h
        cases h
    · cases h
  · rintro rfl
    show (if (inner ++ [']']).getLast? = some ']' then some (inner ++ [']']).dropLast else none) = _
    simp

theorem listed_iff {s : String} {l : List String} : pivotArgs s = some l ↔ Listed s l := by
  unfold pivotArgs Listed
  rw [Option.map_eq_some_iff]
  constructor
  · rintro ⟨inner, h1, rfl⟩
    rw [bracketed_iff] at h1
    unfold commaParts
    by_cases hi : inner = []
    · rw [if_pos hi]
      subst hi
      exact ⟨by simp, by simp, by simpa using h1⟩
    · rw [if_neg hi]
      obtain ⟨h2, h3⟩ := intercalate_split inner
      have e : (Client.splitStr ',' (String.ofList inner)).map String.toList = Client.splitAtChar ',' inner := by
        unfold Client.splitStr
        rw [List.map_map]
        simp [Function.comp_def]
      refine ⟨?_, ?_, ?_⟩
      · intro a ha
        exact h3 _ (e ▸ List.mem_map_of_mem ha)
      · intro hb
        rw [hb] at e
        rw [← e] at h2
        exact hi (by simpa using h2.symm)
      · rw [e, h2]
        exact h1
  · rintro ⟨h1, h2, h3⟩
    refine ⟨_, bracketed_iff.mpr h3, ?_⟩
    unfold commaParts
    cases l with
    | nil => simp
    | cons a l =>
      have hne : List.intercalate [','] ((a :: l).map String.toList) ≠ [] := by
        intro hb
        cases l with
        | nil =>
          simp only [List.map_cons, List.map_nil, List.intercalate_singleton] at hb
          exact h2 (by rw [show a = "" from String.toList_inj.mp (by simpa using hb)])
        | cons b l =>
          rw [List.map_cons, List.map_cons, List.intercalate_cons_cons] at hb
          simp at hb
      rw [if_neg hne]
      unfold Client.splitStr
      rw [String.toList_ofList, split_intercalate (by simp)]
      · rw [List.map_map]
        simp [Function.comp_def]
      · intro x hx
        obtain ⟨y, hy, rfl⟩ := List.mem_map.mp hx
        exact h1 y hy

theorem bridgeText_iff {s : String} {l : List BridgeConfig} : parseBridges s = some l ↔ BridgeText s l := by
  unfold parseBridges BridgeText
  rw [Option.bind_eq_some_iff]
  have e : ∀ l : List BridgeConfig, portsDiffer l = true ↔ l.Pairwise fun a b => match a, b with
      | .server p _, .server q _ | .server p _, .client q _ | .client p _, .server q _ | .client p _, .client q _ => p ≠ q := by
    intro l
    unfold portsDiffer
    rw [decide_eq_true_eq]
    unfold List.Nodup
    rw [List.pairwise_map]
    apply iff_of_eq
    congr
    funext a b
    cases a <;> cases b <;> rfl
  constructor
  · rintro ⟨l', h1, h2⟩
    by_cases hp : portsDiffer l' = true
    · rw [if_pos hp] at h2
      cases h2
      exact ⟨h1, (e l).mp hp⟩
    · rw [if_neg hp] at h2
      cases h2
  · rintro ⟨h1, h2⟩
    exact ⟨l, h1, by rw [if_pos ((e l).mpr h2)]⟩

theorem displayType_iff {s : String} {t : Client.DisplayType} : displayType s = some t ↔
    s = (match t with | .manifest => "manifest" | .manifestEnvelope => "manifest-envelope" | .genesisOutput => "genesis-output") := by
  unfold displayType
  by_cases h1 : s = "manifest"
  · subst h1; cases t <;> decide
  · rw [if_neg h1]
    by_cases h2 : s = "manifest-envelope"
    · subst h2; cases t <;> decide
    · rw [if_neg h2]
      by_cases h3 : s = "genesis-output"
      · subst h3; cases t <;> decide
      · rw [if_neg h3]
        cases t <;> simp [h1, h2, h3]

theorem mapM_forall2 {α β : Type} {f : α → Option β} {l : List α} {r : List β} :
    l.mapM f = some r ↔ List.Forall₂ (fun a b => f a = some b) l r := by
  induction l generalizing r with
  | nil =>
    simp only [List.mapM_nil, List.forall₂_nil_left_iff]
    exact ⟨fun h => (Option.some.inj h).symm, fun h => h ▸ rfl⟩
  | cons a l ih =>
    rw [List.mapM_cons]
    constructor
    · intro h
      obtain ⟨b, h1, h2⟩ := Option.bind_eq_some_iff.mp h
      obtain ⟨bs, h3, h4⟩ := Option.bind_eq_some_iff.mp h2
      cases h4
      exact .cons h1 (ih.mp h3)
    · intro h
      cases h with
      | cons h1 h2 =>
        rw [h1, ih.mpr h2]
        rfl

theorem Got.url (h : Got c items m) (uri url : String)
    (hb : (decide ("host-ip" ∈ needs c) && decide ("host-port" ∈ needs c) && decide ("endpoint-base-path" ∈ may c)) = true) :
    urlOf m uri = some url ↔ SaysUrl items uri url := by
  simp only [Bool.and_eq_true, decide_eq_true_eq] at hb
  have h1 := h.said "host-ip" (by simp [hb.1.1])
  have h2 := h.said "host-port" (by simp [hb.1.2])
  have h3 := h.getD "endpoint-base-path" "qos" (by simp [hb.2])
  unfold urlOf SaysUrl baseOf
  simp only [Option.bind_eq_some_iff, h1, h2, Option.some.injEq, ← h3]
  constructor
  · rintro ⟨ip, a, port, b, rfl⟩
    exact ⟨ip, port, _, a, b, rfl, rfl⟩
  · rintro ⟨ip, port, _, a, b, rfl, rfl⟩
    exact ⟨ip, a, port, b, rfl⟩

theorem Got.signer (h : Got c items m) (s : Signer)
    (hb : (decide ("yubikey" ∈ switches c) && decide ("secret-path" ∈ may c) &&
      (decide ("current-pin-path" ∈ may c) ||
        decide (declared (tokens c) "current-pin-path" = none) && decide ("current-pin-path" ∉ needs c ++ may c))) = true) :
    ClientCli.signer m = some s ↔ SaysSigner items s := by
  simp only [Bool.and_eq_true, decide_eq_true_eq, Bool.or_eq_true] at hb
  have h1 := h.switch "yubikey" (by simp [hb.1.1])
  have h2 := h.said "secret-path" (by simp [hb.1.2])
  have h2' := h.silent "secret-path" (by simp [hb.1.2])
  have h3 : ∀ o, single m "current-pin-path" = o ↔ SaysMaybe items "current-pin-path" o := by
    intro o
    rcases hb.2 with hp | ⟨hp, hq⟩
    · exact h.maybe _ (by simp [hp]) o
    · exact h.maybe_undeclared _ (by simp [hp] at hq ⊢; exact hq) o
  have ht : isSet m "yubikey" = true ↔ .flag "yubikey" ∈ items := by
    rw [h1 true]; simp [SaysFlag]
  have hf : isSet m "yubikey" = false ↔ .flag "yubikey" ∉ items := by
    rw [h1 false]; simp [SaysFlag]
  unfold ClientCli.signer
  cases s with
  | file path =>
    simp only [SaysSigner]
    rw [← h2, ← hf]
    cases isSet m "yubikey" <;> cases single m "secret-path" <;> simp
  | yubikey pin =>
    simp only [SaysSigner]
    rw [← ht, ← h2', ← h3]
    cases isSet m "yubikey" <;> cases single m "secret-path" <;> simp

theorem Got.bridges (h : Got c items m) (hb : decide ("bridge-config" ∈ may c) = true) (l : List BridgeConfig) :
    ClientCli.bridges m = some l ↔ SaysBridges items l := by
  simp only [decide_eq_true_eq] at hb
  have h1 := h.said "bridge-config" (by simp [hb])
  have h2 := h.silent "bridge-config" (by simp [hb])
  unfold ClientCli.bridges SaysBridges
  simp only [← h2, ← h1, ← bridgeText_iff]
  cases single m "bridge-config" with
  | none => simp [eq_comm]
  | some s => simp

theorem Got.resolvers (h : Got c items m) (hb : decide ("dns-resolvers" ∈ may c) = true)
    (o : Option (List IpAddr)) : ClientCli.resolvers m = some o ↔ SaysResolvers items o := by
  simp only [decide_eq_true_eq] at hb
  have h1 := h.said "dns-resolvers" (by simp [hb])
  have h2 := h.silent "dns-resolvers" (by simp [hb])
  unfold ClientCli.resolvers
  cases o with
  | none =>
    unfold SaysResolvers
    rw [← h2]
    cases single m "dns-resolvers" with
    | none => simp
    | some s => simp
  | some rs =>
    unfold SaysResolvers parseResolvers
    simp only [← h1, ← listed_iff, ← Ip.parse_iff, ← mapM_forall2]
    cases single m "dns-resolvers" with
    | none => simp
    | some s => simp [Option.bind_eq_some_iff]

theorem Got.number (h : Got c items m) (n : String) (bound k : Nat)
    (hn : (decide (n ∈ needs c ++ may c) && decide (n ∉ ["pivot-args", "debug-mode", "share"])) = true) :
    (∃ s, single m n = some s ∧ parseUnsigned bound s.toList = some k) ↔ SaysNumber items n bound k := by
  unfold SaysNumber
  simp only [h.said n hn, parseUnsigned_iff]
  constructor
  · rintro ⟨s, a, b, d⟩; exact ⟨d, s, a, b⟩
  · rintro ⟨d, s, a, b⟩; exact ⟨s, a, b, d⟩

theorem Got.time (h : Got c items m) (hb : decide ("validation-time-override" ∈ may c) = true) (o : Option Nat) :
    timeOverride m = some o ↔ SaysTime items o := by
  simp only [decide_eq_true_eq] at hb
  have h2 := h.silent "validation-time-override" (by simp [hb])
  unfold timeOverride
  cases o with
  | none =>
    unfold SaysTime
    rw [← h2]
    cases single m "validation-time-override" with
    | none => simp
    | some s => simp
  | some n =>
    simp only [SaysTime]
    rw [← h.number "validation-time-override" _ _ (by simp [hb])]
    cases single m "validation-time-override" with
    | none => simp
    | some s => simp

theorem Got.type (h : Got c items m) (hb : decide ("display-type" ∈ needs c) = true) (t : Client.DisplayType) :
    (∃ s, single m "display-type" = some s ∧ displayType s = some t) ↔ SaysType items t := by
  simp only [decide_eq_true_eq] at hb
  simp only [h.said "display-type" (by simp [hb]), displayType_iff]
  cases t <;> simp [SaysType]

theorem Got.restart (h : Got c items m) (hb : decide ("restart-policy" ∈ needs c) = true) (p : RestartPolicy) :
    (∃ s, single m "restart-policy" = some s ∧ restartPolicy s = some p) ↔ ∃ s, Says items "restart-policy" s ∧ Restart s p := by
  simp only [decide_eq_true_eq] at hb
  simp only [h.said "restart-policy" (by simp [hb]), restart_iff]

theorem Got.args (h : Got c items m) (hb : decide (declared (tokens c) "pivot-args" = some (withDefault "pivot-args" "[]")) = true)
    (l : List String) :
    (∃ s, single m "pivot-args" = some s ∧ pivotArgs s = some l) ↔ ∃ s, SaysOr items "pivot-args" "[]" s ∧ Listed s l := by
  simp only [h.defaulted "pivot-args" "[]" (of_decide_eq_true hb), listed_iff]

theorem Got.debug (h : Got c items m)
    (hb : decide (declared (tokens c) "debug-mode" = some (withDefault "debug-mode" "false")) = true) (b : Bool) :
    parseBool ((single m "debug-mode").getD "false") = some b ↔ SaysOr items "debug-mode" "false" (if b then "true" else "false") := by
  rw [← h.reads.default (of_decide_eq_true hb) rfl rfl rfl, parseBool_iff]
  cases b <;> simp

theorem Got.version (h : Got c items m) (hb : decide ("use-manifest-version" ∈ may c) = true) (v2 : Bool) :
    useV2 m = some v2 ↔ ∃ s, SaysOr items "use-manifest-version" "1" s ∧ Number s (if v2 then 2 else 1) := by
  simp only [decide_eq_true_eq] at hb
  simp only [← h.getD "use-manifest-version" "1" (by simp [hb])]
  unfold useV2
  simp only [Option.bind_eq_some_iff, parseUnsigned_iff, exists_eq_left']
  constructor
  · rintro ⟨n, ⟨h1, h2⟩, h3⟩
    by_cases e1 : n = 1
    · rw [if_pos e1] at h3
      cases h3
      subst e1
      simpa using h1
    · rw [if_neg e1] at h3
      by_cases e2 : n = 2
      · rw [if_pos e2] at h3
        cases h3
        subst e2
        simpa using h1
      · rw [if_neg e2] at h3
        cases h3
  · intro h1
    refine ⟨_, ⟨h1, by cases v2 <;> decide⟩, by cases v2 <;> rfl⟩

end Qos.ClientCli
