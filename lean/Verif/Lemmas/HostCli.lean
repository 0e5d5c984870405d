import Verif.Spec.HostCli
import Verif.Lemmas.Reaper
import Verif.Lemmas.JsonCanon
import Verif.Props.ParserEnclave
import Mathlib.Tactic.IntervalCases
/-!
# Lemmas for C56
-/
namespace Qos.HostCli
open Parser

/-! ## Numbers -/

theorem parseUnsigned_iff {bound n : Nat} {s : String} : parseUnsigned bound s.toList = some n ↔ Number s n ∧ n < bound := by
  unfold parseUnsigned Number
  have plus : ∀ n, ¬ Digits ('+' :: stripPlus s.toList) n := by
    intro n h
    have := digits_sound h
    simp only [digitsNat, show digitNat '+' = none from by decide] at this
    cases this
  have key : (Digits s.toList n ∨ ∃ cs, s.toList = '+' :: cs ∧ Digits cs n) ↔ Digits (stripPlus s.toList) n := by
    unfold stripPlus at plus ⊢
    split at plus
    · rename_i r hr
      rw [hr]
      constructor
      · rintro (h | ⟨cs, h1, h2⟩)
        · exact absurd h (plus n)
        · cases h1; exact h2
      · exact fun h => .inr ⟨r, rfl, h⟩
    · rename_i hr
      constructor
      · rintro (h | ⟨cs, h1, h2⟩)
        · exact h
        · exact absurd h1 (hr cs)
      · exact .inl
  rw [key, digits_iff]
  cases hs : stripPlus s.toList with
  | nil => simp
  | cons c cs =>
    simp only [List.isEmpty_cons, Bool.false_eq_true, if_false, ne_eq, reduceCtorEq, not_false_eq_true, true_and]
    cases digitsNat 0 (c :: cs) with
    | none => simp
    | some k =>
      simp only [Option.some.injEq]
      by_cases hk : k < bound
      · rw [if_pos hk]
        constructor
        · rintro h; cases h; exact ⟨rfl, hk⟩
        · rintro ⟨h, _⟩; rw [h]
      · rw [if_neg hk]
        constructor
        · rintro h; cases h
        · rintro ⟨rfl, h⟩; exact absurd h hk

theorem parsePort_iff {s : String} {p : UInt16} : parsePort s = some p ↔ Number s p.toNat := by
  unfold parsePort
  rw [Option.map_eq_some_iff]
  constructor
  · rintro ⟨n, h1, rfl⟩
    obtain ⟨h2, h3⟩ := parseUnsigned_iff.mp h1
    rwa [UInt16.toNat_ofNat_of_lt' h3]
  · intro h
    exact ⟨p.toNat, parseUnsigned_iff.mpr ⟨h, p.toNat_lt⟩, by simp⟩

theorem parseCid_iff {s : String} {p : UInt32} : parseCid s = some p ↔ Number s p.toNat := by
  unfold parseCid
  rw [Option.map_eq_some_iff]
  constructor
  · rintro ⟨n, h1, rfl⟩
    obtain ⟨h2, h3⟩ := parseUnsigned_iff.mp h1
    rwa [UInt32.toNat_ofNat_of_lt' h3]
  · intro h
    exact ⟨p.toNat, parseUnsigned_iff.mpr ⟨h, p.toNat_lt⟩, by simp⟩

theorem newVsock_iff {cs ps : String} {flags : Option UInt8} {a : Pool.Address} : newVsock cs ps flags = some a ↔
    ∃ cid port f, a = .vsock cid port f ∧ Number cs cid.toNat ∧ Number ps port.toNat ∧ flags = some f := by
  unfold newVsock
  constructor
  · intro h
    split at h
    · rename_i c p f h1 h2
      obtain ⟨n1, l1⟩ := parseUnsigned_iff.mp h1
      obtain ⟨n2, l2⟩ := parseUnsigned_iff.mp h2
      cases h
      exact ⟨_, _, _, rfl, by rwa [UInt32.toNat_ofNat_of_lt' l1], by rwa [UInt32.toNat_ofNat_of_lt' l2], rfl⟩
    · cases h
  · rintro ⟨cid, port, f, rfl, h1, h2, rfl⟩
    rw [parseUnsigned_iff.mpr ⟨h1, cid.toNat_lt⟩, parseUnsigned_iff.mpr ⟨h2, port.toNat_lt⟩]
    simp

theorem utf8_size (s : String) : (s.toList.flatMap String.utf8EncodeChar).length = s.utf8ByteSize := by
  show _ = s.toByteArray.size
  rw [← String.utf8Encode_toList]
  unfold List.utf8Encode
  simp

theorem newUnix_iff {u : String} {a : Pool.Address} : newUnix u = some a ↔ u.utf8ByteSize ≤ 107 ∧ a = .unix u.toList := by
  unfold newUnix Pool.unixAddr
  rw [utf8_size]
  by_cases h : u.utf8ByteSize < 108
  · rw [if_pos h]
    simp only [Option.some.injEq]
    exact ⟨fun e => ⟨by omega, e.symm⟩, fun e => e.2.symm⟩
  · rw [if_neg h]
    simp only [reduceCtorEq, false_iff]
    omega

/-! ## Options -/

/-- What a parsed command line gives for each name. -/
def Reads (ts : List Token) (items : List Item) (m : TokenMap) : Prop :=
  (∀ n t, declared ts n = some t → t.takesValue = true → t.allowMultiple = false → ∀ v,
    single m n = some v ↔ Says items n v ∨ (t.default = some v ∧ Silent items n)) ∧
  ∀ n t, declared ts n = some t → t.takesValue = false → (flag m n = some true ↔ .flag n ∈ items)

theorem filter_one {n : String} {items : List Item} {i j : Item}
    (h : (items.filter fun x => x.name = n).length ≤ 1) (hi : i ∈ items) (hj : j ∈ items) (ei : i.name = n) (ej : j.name = n) : i = j := by
  have mi : i ∈ items.filter fun x => x.name = n := List.mem_filter.mpr ⟨hi, by simpa using ei⟩
  have mj : j ∈ items.filter fun x => x.name = n := List.mem_filter.mpr ⟨hj, by simpa using ej⟩
  generalize items.filter (fun x => x.name = n) = l at *
  match l, h with
  | [], _ => simp at mi
  | [x], _ => rw [List.mem_singleton.mp mi, List.mem_singleton.mp mj]
  | x :: y :: l, h => simp at h

theorem reads_parse {ts : List Token} {args : List String} {m : TokenMap} (hh : "--help" ∉ args) (hv : "--version" ∉ args)
    (h : parse (register ts) args = .ok m) : ∃ items, args = words items ∧ Acceptable ts items ∧ Reads ts items m := by
  obtain ⟨items, h1, ha, _, hval⟩ := values_given_or_default hh hv h
  refine ⟨items, h1, ha, ?_, ?_⟩
  · intro n t hd ht hm v
    rw [(hval n t hd).1 v]
    have hone := ha.once n t hd hm
    have hname := declared_name hd
    constructor
    · rintro (⟨hg, _, _, hvs⟩ | ⟨hg, hdef⟩)
      · have hmem : v ∈ values t items := by rw [hvs]; exact List.mem_singleton.mpr rfl
        unfold values at hmem
        rw [List.mem_filterMap] at hmem
        obtain ⟨i, hi, hiv⟩ := hmem
        simp only [List.mem_filter, decide_eq_true_eq] at hi
        cases i with
        | flag k => cases hiv
        | value k w =>
          simp only [Item.value?, Option.some.injEq] at hiv
          subst hiv
          have : k = n := hi.2.trans hname
          subst this
          exact .inl hi.1
        | bare k =>
          simp only [Item.value?] at hiv
          refine .inr ⟨hiv, fun w hw => ?_⟩
          exact nomatch filter_one hone hi.1 hw (hi.2.trans hname) rfl
      · exact .inr ⟨hdef, fun w hw => hg ⟨_, hw, rfl⟩⟩
    · rintro (hs | ⟨hdef, hs⟩)
      · have hg : Given items n := ⟨_, hs, rfl⟩
        refine .inl ⟨hg, ht, hm, ?_⟩
        have hlen := given_values ha hd ht
        have hmem : v ∈ values t items := by
          unfold values
          rw [List.mem_filterMap]
          exact ⟨_, List.mem_filter.mpr ⟨hs, by simp [Item.name, hname]⟩, rfl⟩
        rw [← hname] at hone
        match hvs : values t items, hmem, hlen with
        | [], hmem, _ => simp at hmem
        | [x], hmem, _ => rw [List.mem_singleton.mp hmem]
        | x :: y :: l, _, hlen => simp at hlen; omega
      · by_cases hg : Given items n
        · refine .inl ⟨hg, ht, hm, ?_⟩
          obtain ⟨i, hi, hn⟩ := hg
          have hbare : i = .bare n := by
            cases i with
            | flag k =>
              obtain ⟨t', hd', hf⟩ := ha.fits _ hi
              have : k = n := hn
              subst this
              rw [hd] at hd'
              cases hd'
              rw [ht] at hf
              cases hf
            | value k w =>
              have : k = n := hn
              subst this
              exact absurd hi (hs w)
            | bare k =>
              have : k = n := hn
              rw [this]
          subst hbare
          have hlen := given_values ha hd ht
          have hmem : v ∈ values t items := by
            unfold values
            rw [List.mem_filterMap]
            exact ⟨_, List.mem_filter.mpr ⟨hi, by simp [Item.name, hname]⟩, hdef⟩
          rw [← hname] at hone
          match hvs : values t items, hmem, hlen with
          | [], hmem, _ => simp at hmem
          | [x], hmem, _ => rw [List.mem_singleton.mp hmem]
          | x :: y :: l, _, hlen => simp at hlen; omega
        · exact .inr ⟨hg, hdef⟩
  · intro n t hd ht
    rw [(hval n t hd).2.2.1]
    constructor
    · rintro ⟨⟨i, hi, hn⟩, _⟩
      cases i with
      | flag k => cases hn; exact hi
      | value k w =>
        obtain ⟨t', hd', hf, _⟩ := ha.fits _ hi
        cases hn
        rw [show declared ts k = some t from hd] at hd'
        cases hd'
        rw [ht] at hf
        cases hf
      | bare k =>
        obtain ⟨t', hd', hf, _⟩ := ha.fits _ hi
        cases hn
        rw [show declared ts k = some t from hd] at hd'
        cases hd'
        rw [ht] at hf
        cases hf
    · exact fun h => ⟨⟨_, h, rfl⟩, ht⟩

/-- A program runs with a configuration exactly if its arguments are an acceptable command line that asks for it. -/
theorem runs_iff {C : Type} {ts : List Token} {config : TokenMap → Option C} {prog : String} {args : List String} {c : C}
    {P : List Item → Prop} (hp : ¬ ['-', '-'] <+: prog.toList)
    (hP : ∀ items m, Acceptable ts items → Reads ts items m → (config m = some c ↔ P items)) :
    start ts config (prog :: args) = .runs c ↔
      "--help" ∉ args ∧ "--version" ∉ args ∧ ∃ items, args = words items ∧ Acceptable ts items ∧ P items := by
  unfold start
  rw [options_program ts prog hp]
  obtain ⟨hv1, hv2, hv3⟩ := help_version ts args
  by_cases hh : "--help" ∈ args
  · obtain ⟨m, h1, h2, h3⟩ := hv1 hh
    rw [h1]
    simp only [h3, h2, Bool.false_eq_true, if_false, if_true, reduceCtorEq, false_iff]
    exact fun h => h.1 hh
  by_cases hv : "--version" ∈ args
  · obtain ⟨m, h1, h2, h3⟩ := hv2 hh hv
    rw [h1]
    simp only [h3, if_true, reduceCtorEq, false_iff]
    exact fun h => h.2.1 hv
  constructor
  · intro h
    refine ⟨hh, hv, ?_⟩
    cases hm : parse (register ts) args with
    | error e => rw [hm] at h; cases h
    | ok m =>
      rw [hm] at h
      obtain ⟨h1, h2⟩ := hv3 hh hv m hm
      simp only [h1, h2, Bool.false_eq_true, if_false] at h
      obtain ⟨items, e, ha, hr⟩ := reads_parse hh hv hm
      refine ⟨items, e, ha, (hP items m ha hr).mp ?_⟩
      cases hc : config m with
      | none => rw [hc] at h; cases h
      | some c' => rw [hc] at h; cases h; rfl
  · rintro ⟨-, -, items, e, ha, hp'⟩
    obtain ⟨m, hm⟩ := (accepts_iff hh hv).mpr ⟨items, e, ha⟩
    obtain ⟨items', e', ha', hr⟩ := reads_parse hh hv hm
    have : items' = items := reading_unique ha'.fits ha.fits (e'.symm.trans e)
    subst this
    obtain ⟨h1, h2⟩ := hv3 hh hv m hm
    rw [hm]
    simp only [h1, h2, Bool.false_eq_true, if_false, (hP items' m ha hr).mpr hp']

end Qos.HostCli
