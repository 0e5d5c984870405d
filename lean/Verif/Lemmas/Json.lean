import Verif.Spec.Json
import Verif.Lemmas.Text
import Mathlib.Data.Prod.Lex
import Mathlib.Data.List.Lex
namespace Qos.Json

/-! ### Equality -/

mutual
theorem beq_iff : ∀ a b : Json, beq a b = true ↔ a = b
  | .null, b => by cases b <;> simp [beq]
  | .bool x, b => by cases b <;> simp [beq]
  | .int x, b => by cases b <;> simp [beq]
  | .float x, b => by cases b <;> simp [beq]
  | .str x, b => by cases b <;> simp [beq]
  | .arr x, b => by cases b <;> simp [beq]; exact beqArr_iff _ _
  | .obj x, b => by cases b <;> simp [beq]; exact beqObj_iff _ _
theorem beqArr_iff : ∀ a b : List Json, beqArr a b = true ↔ a = b
  | [], b => by cases b <;> simp [beqArr]
  | x :: xs, b => by
    cases b with
    | nil => simp [beqArr]
    | cons y ys => simp [beqArr, beq_iff x y, beqArr_iff xs ys]
theorem beqObj_iff : ∀ a b : List (String × Json), beqObj a b = true ↔ a = b
  | [], b => by cases b <;> simp [beqObj]
  | (k, x) :: xs, b => by
    cases b with
    | nil => simp [beqObj]
    | cons y ys => obtain ⟨l, y⟩ := y; simp [beqObj, beq_iff x y, beqObj_iff xs ys]
end

instance : DecidableEq Json := fun a b => decidable_of_iff _ (beq_iff a b)

/-! ### Normal form -/

mutual
/-- The value whose plain text is the canonical text. -/
def norm : Json → Json
  | .null => .null
  | .bool b => .bool b
  | .int i => .str (String.ofList (intText i))
  | .float t => .float t
  | .str s => .str s
  | .arr vs => .arr (normArr vs)
  | .obj kvs => .obj (sortEntries (normObj kvs))
/-- Elementwise. -/
def normArr : List Json → List Json
  | [] => []
  | v :: vs => norm v :: normArr vs
/-- Null members dropped. -/
def normObj : List (String × Json) → List (String × Json)
  | [] => []
  | (k, v) :: kvs => if v.isNull then normObj kvs else (k, norm v) :: normObj kvs
end

mutual
/-- Contains no non-integer number. -/
def NoFloat : Json → Prop
  | .float _ => False
  | .arr vs => NoFloatArr vs
  | .obj kvs => NoFloatObj kvs
  | _ => True
/-- All elements. -/
def NoFloatArr : List Json → Prop
  | [] => True
  | v :: vs => NoFloat v ∧ NoFloatArr vs
/-- All members. -/
def NoFloatObj : List (String × Json) → Prop
  | [] => True
  | (_, v) :: kvs => NoFloat v ∧ NoFloatObj kvs
end

theorem writeArr_eq_map (vs : List Json) : writeArr vs = vs.map write := by
  induction vs with
  | nil => rfl
  | cons v vs ih => simp [writeArr, ih]

theorem writeObj_eq_map (kvs : List (String × Json)) :
    writeObj kvs = kvs.map fun kv => writeString kv.1 ++ ':' :: write kv.2 := by
  induction kvs with
  | nil => rfl
  | cons v vs ih => simp [writeObj, ih]

theorem normArr_eq_map (vs : List Json) : normArr vs = vs.map norm := by
  induction vs with
  | nil => rfl
  | cons v vs ih => simp [normArr, ih]

theorem sortEntries_map {α β : Type} (f : α → β) (l : List (String × α)) :
    sortEntries (l.map fun kv => (kv.1, f kv.2)) = (sortEntries l).map fun kv => (kv.1, f kv.2) := by
  unfold sortEntries
  exact (List.map_insertionSort (r := fun a b : String × α => keyLe a.1 b.1)
    (s := fun a b : String × β => keyLe a.1 b.1) (fun kv : String × α => (kv.1, f kv.2)) l
    (fun _ _ _ _ => Iff.rfl)).symm

mutual
theorem canon_some : ∀ (v : Json), NoFloat v → canon v = some (write (norm v))
  | .null, _ => rfl
  | .bool b, _ => by cases b <;> rfl
  | .int i, _ => rfl
  | .float _, h => by simp [NoFloat] at h
  | .str _, _ => rfl
  | .arr vs, h => by
    simp only [NoFloat] at h
    simp [canon, canonArr_some vs h, norm, write]
  | .obj kvs, h => by
    simp only [NoFloat] at h
    rw [canon, canonObj_some kvs h]
    simp only [norm, write, writeObj_eq_map, Option.some.injEq, List.cons.injEq, true_and]
    congr 2
    rw [sortEntries_map, List.map_map]
    rfl
theorem canonArr_some : ∀ (vs : List Json), NoFloatArr vs → canonArr vs = some (writeArr (normArr vs))
  | [], _ => rfl
  | v :: vs, h => by
    simp only [NoFloatArr] at h
    simp [canonArr, canon_some v h.1, canonArr_some vs h.2, normArr, writeArr]
theorem canonObj_some : ∀ (kvs : List (String × Json)), NoFloatObj kvs →
    canonObj kvs = some ((normObj kvs).map fun kv => (kv.1, write kv.2))
  | [], _ => rfl
  | (k, v) :: kvs, h => by
    simp only [NoFloatObj] at h
    simp only [canonObj, normObj]
    split
    · exact canonObj_some kvs h.2
    · simp [canon_some v h.1, canonObj_some kvs h.2]
end

mutual
theorem noFloat_of_canon : ∀ (v : Json) (t : List Char), canon v = some t → NoFloat v
  | .null, _, _ => trivial
  | .bool b, _, _ => trivial
  | .int i, _, _ => trivial
  | .float _, _, h => by simp [canon] at h
  | .str _, _, _ => trivial
  | .arr vs, t, h => by
    simp only [canon] at h
    split at h
    · rename_i ts hts; exact noFloatArr_of_canon vs ts hts
    · cases h
  | .obj kvs, t, h => by
    simp only [canon] at h
    split at h
    · rename_i ts hts; exact noFloatObj_of_canon kvs ts hts
    · cases h
theorem noFloatArr_of_canon : ∀ (vs : List Json) ts, canonArr vs = some ts → NoFloatArr vs
  | [], _, _ => trivial
  | v :: vs, ts, h => by
    simp only [canonArr] at h
    split at h
    · rename_i a b ha hb; exact ⟨noFloat_of_canon v _ ha, noFloatArr_of_canon vs _ hb⟩
    · cases h
theorem noFloatObj_of_canon : ∀ (kvs : List (String × Json)) ts, canonObj kvs = some ts → NoFloatObj kvs
  | [], _, _ => trivial
  | (k, v) :: kvs, ts, h => by
    simp only [canonObj] at h
    split at h
    · rename_i hn
      refine ⟨?_, noFloatObj_of_canon kvs _ h⟩
      cases v <;> simp_all [isNull, NoFloat]
    · split at h
      · rename_i a b ha hb; exact ⟨noFloat_of_canon v _ ha, noFloatObj_of_canon kvs _ hb⟩
      · cases h
end

/-! ### Parsing what was written -/

mutual
/-- Value that the writer/parser pair preserves: no floats, integers in the `i64`/`u64` range. -/
def Plain : Json → Prop
  | .float _ => False
  | .int i => -(2 ^ 63) ≤ i ∧ i < 2 ^ 64
  | .arr vs => PlainArr vs
  | .obj kvs => PlainObj kvs
  | _ => True
/-- All elements. -/
def PlainArr : List Json → Prop
  | [] => True
  | v :: vs => Plain v ∧ PlainArr vs
/-- All members. -/
def PlainObj : List (String × Json) → Prop
  | [] => True
  | (_, v) :: kvs => Plain v ∧ PlainObj kvs
end

mutual
/-- Fuel needed by the parser. -/
def size : Json → Nat
  | .arr vs => 1 + sizeArr vs
  | .obj kvs => 1 + sizeObj kvs
  | _ => 1
/-- Elements. -/
def sizeArr : List Json → Nat
  | [] => 0
  | v :: vs => 1 + size v + sizeArr vs
/-- Members. -/
def sizeObj : List (String × Json) → Nat
  | [] => 0
  | (_, v) :: kvs => 1 + size v + sizeObj kvs
end

theorem parseStr_escape (cs rest : List Char) :
    parseStr (cs.flatMap escapeChar ++ '"' :: rest) = some (cs, rest) := by
  induction cs with
  | nil => unfold parseStr; simp
  | cons c cs ih =>
    simp only [List.flatMap_cons, List.append_assoc]
    generalize cs.flatMap escapeChar ++ '"' :: rest = tail at *
    by_cases hq : c = '"'
    · subst hq; unfold parseStr; simp [escapeChar, simpleEscape, ih]
    by_cases hb : c = '\\'
    · subst hb; unfold parseStr; simp [escapeChar, simpleEscape, ih]
    by_cases h32 : c.toNat < 32
    · have hc : c = Char.ofNat c.toNat := by simp
      generalize hn : c.toNat = n at *
      subst hc
      interval_cases n
      all_goals
        simp only [escapeChar, hexChar, hq, hb, if_false, hn] at *
        unfold parseStr; simp (decide := true) [simpleEscape, ih, hex4, hexDigit]
    · have : escapeChar c = [c] := by
        unfold escapeChar
        simp only [hq, hb, if_false]
        have h8 : c.toNat ≠ 8 := by omega
        have h9 : c.toNat ≠ 9 := by omega
        have h10 : c.toNat ≠ 10 := by omega
        have h12 : c.toNat ≠ 12 := by omega
        have h13 : c.toNat ≠ 13 := by omega
        simp [h8, h9, h10, h12, h13, h32]
      rw [this]
      unfold parseStr; simp [hq, hb, h32, ih]

/-- The text after a value does not continue a number. -/
def Stop (rest : List Char) : Prop :=
  ∀ c, rest.head? = some c → digitNat c = none ∧ c ≠ '.' ∧ c ≠ 'e' ∧ c ≠ 'E'

theorem takeDigits_append (d rest : List Char) (hd : ∀ c ∈ d, (digitNat c).isSome)
    (hr : ∀ c, rest.head? = some c → digitNat c = none) : takeDigits (d ++ rest) = (d, rest) := by
  induction d with
  | nil =>
    cases rest with
    | nil => rfl
    | cons c r => simp [takeDigits, hr c rfl]
  | cons c d ih =>
    simp only [List.cons_append, takeDigits]
    rw [if_pos (hd c (by simp)), ih (fun c hc => hd c (by simp [hc]))]

theorem parseFrac_stop {rest : List Char} (h : Stop rest) : parseFrac rest = some ([], rest) := by
  unfold parseFrac
  split
  · exact absurd rfl (h _ rfl).2.1
  · rfl

theorem parseExp_stop {rest : List Char} (h : Stop rest) : parseExp rest = some ([], rest) := by
  unfold parseExp
  split
  · rename_i c cs
    have := h c rfl
    simp [this]
  · rfl

theorem parseNumber_nat (n : Nat) (hn : n < 2 ^ 64) (rest : List Char) (h : Stop rest) :
    parseNumber (natText n ++ rest) = some (.int n, rest) := by
  unfold parseNumber
  have hm : splitSign (natText n ++ rest) = (false, natText n ++ rest) := by
    unfold splitSign
    split
    · rename_i r heq
      exfalso
      have h1 := natText_ne_nil n
      cases ht : natText n with
      | nil => exact h1 ht
      | cons c t =>
        rw [ht] at heq
        simp only [List.cons_append, List.cons.injEq] at heq
        exact natText_head_ne_minus n t (by rw [ht, heq.1])
    · rfl
  simp only [hm, takeDigits_append _ _ (natText_digits n) (fun c hc => (h c hc).1)]
  have h1 := natText_ne_nil n
  have h2 := natText_no_leading_zero n
  simp only [List.isEmpty_iff, h1, if_false, h2, parseFrac_stop h, parseExp_stop h,
    digitsNat_natText, List.append_nil]
  have : n < 18446744073709551616 := hn
  simp [mkInt, this]

theorem parseNumber_neg (n : Nat) (hn : 0 < n) (hn' : n ≤ 2 ^ 63) (rest : List Char) (h : Stop rest) :
    parseNumber ('-' :: (natText n ++ rest)) = some (.int (-(n : Int)), rest) := by
  unfold parseNumber
  simp only [splitSign, takeDigits_append _ _ (natText_digits n) (fun c hc => (h c hc).1)]
  have h1 := natText_ne_nil n
  have h2 := natText_no_leading_zero n
  simp only [List.isEmpty_iff, h1, if_false, h2, parseFrac_stop h, parseExp_stop h,
    digitsNat_natText, List.append_nil]
  simp [mkInt]
  omega

theorem parseNumber_int (i : Int) (h1 : -(2 ^ 63) ≤ i) (h2 : i < 2 ^ 64) (rest : List Char)
    (h : Stop rest) : parseNumber (intText i ++ rest) = some (.int i, rest) := by
  cases i with
  | ofNat n =>
    have h3 : ((n : ℕ) : Int) < 2 ^ 64 := h2
    exact parseNumber_nat n (by omega) rest h
  | negSucc n =>
    have := parseNumber_neg (n + 1) (by omega) (by omega) rest h
    simpa [intText, Int.negSucc_eq] using this

theorem intText_head (i : Int) : ∃ c t, intText i = c :: t ∧ (c = '-' ∨ (digitNat c).isSome) := by
  cases i with
  | ofNat n =>
    cases ht : natText n with
    | nil => exact absurd ht (natText_ne_nil n)
    | cons c t => exact ⟨c, t, ht, Or.inr (natText_digits n c (by rw [ht]; simp))⟩
  | negSucc n => exact ⟨'-', _, rfl, Or.inl rfl⟩

/-- The first character of a written value. -/
theorem write_head (v : Json) (h : Plain v) : ∃ c t, write v = c :: t ∧ isWs c = false ∧ c ≠ ']' := by
  cases v with
  | null => exact ⟨_, _, rfl, by decide, by decide⟩
  | bool b => cases b <;> exact ⟨_, _, rfl, by decide, by decide⟩
  | int i =>
    obtain ⟨c, t, h1, h2⟩ := intText_head i
    refine ⟨c, t, by simp [write, h1], ?_, ?_⟩
    · rcases h2 with rfl | h2
      · decide
      · by_contra hc
        simp only [isWs, Bool.not_eq_false, Bool.or_eq_true, decide_eq_true_eq] at hc
        rcases hc with ((rfl | rfl) | rfl) | rfl <;> revert h2 <;> decide
    · rintro rfl
      rcases h2 with h2 | h2 <;> revert h2 <;> decide
  | float t => simp [Plain] at h
  | str s => exact ⟨_, _, rfl, by decide, by decide⟩
  | arr vs => exact ⟨_, _, rfl, by decide, by decide⟩
  | obj kvs => exact ⟨_, _, rfl, by decide, by decide⟩

theorem skipWs_cons {c : Char} {t : List Char} (h : isWs c = false) : skipWs (c :: t) = c :: t := by
  simp [skipWs, h]

theorem stop_cons {c : Char} {r : List Char} (h : c = ',' ∨ c = ']' ∨ c = '}') : Stop (c :: r) := by
  intro d hd
  simp only [List.head?_cons, Option.some.injEq] at hd
  subst hd
  rcases h with rfl | rfl | rfl <;> decide

theorem commaSep_cons_cons (a b : List Char) (l : List (List Char)) :
    commaSep (a :: b :: l) = a ++ ',' :: commaSep (b :: l) := rfl

theorem sizeArr_pos {v : Json} {vs : List Json} : 0 < sizeArr (v :: vs) := by
  unfold sizeArr; omega

mutual
theorem parseValue_write : ∀ (v : Json) (fuel depth : Nat) (rest : List Char), Plain v →
    size v ≤ fuel → height v < depth → Stop rest →
    parseValue fuel depth (write v ++ rest) = some (v, rest)
  | v, 0, _, _, _, hs, _, _ => by cases v <;> simp [size] at hs
  | .null, f + 1, _, rest, _, _, _, _ => by
    simp [parseValue, write, skipWs, isWs, expect, List.isPrefixOf]
  | .bool b, f + 1, _, rest, _, _, _, _ => by
    cases b <;> simp [parseValue, write, skipWs, isWs, expect, List.isPrefixOf]
  | .float _, _ + 1, _, _, hp, _, _, _ => by simp [Plain] at hp
  | .str s, f + 1, _, rest, _, _, _, _ => by
    simp [parseValue, write, writeString, skipWs, isWs, parseStr_escape]
  | .int i, f + 1, depth, rest, hp, _, _, hr => by
    have hw := write_head (.int i) hp
    obtain ⟨c, t, h1, h2⟩ := intText_head i
    simp only [write] at hw
    obtain ⟨c', t', hw1, hw2, _⟩ := hw
    have hcc : c = c' := by rw [h1] at hw1; simp at hw1; exact hw1.1
    subst hcc
    have hn := parseNumber_int i hp.1 hp.2 rest hr
    simp only [write]
    rw [h1] at hn ⊢
    simp only [List.cons_append] at hn ⊢
    rw [parseValue, skipWs_cons hw2]
    have hne : ∀ d : Char, digitNat d = none → d ≠ '-' → c ≠ d := by
      intro d hd hd' hcd
      rw [hcd] at h2
      rcases h2 with h2 | h2
      · exact hd' h2
      · rw [hd] at h2; cases h2
    simp only [hne 'n' (by decide) (by decide), hne 't' (by decide) (by decide),
      hne 'f' (by decide) (by decide), hne '"' (by decide) (by decide),
      hne '[' (by decide) (by decide), hne '{' (by decide) (by decide), if_false, if_pos h2]
    exact hn
  | .arr vs, f + 1, depth, rest, hp, hs, hh, hr => by
    simp only [write, List.cons_append, List.append_assoc, List.nil_append]
    rw [parseValue, skipWs_cons (by decide)]
    simp only [size, height] at hs hh
    simp only [Plain] at hp
    have hd : ¬ depth ≤ 1 := by omega
    simp (decide := true) only [if_true, if_false, hd]
    cases vs with
    | nil => simp [writeArr, commaSep, skipWs, isWs]
    | cons v vs =>
      have := parseElems_write v vs f (depth - 1) rest hp (by omega) (by omega)
      obtain ⟨c, t, h1, h2, h3⟩ := write_head v hp.1
      have hw : ∃ t', commaSep (writeArr (v :: vs)) ++ ']' :: rest = c :: t' := by
        cases vs with
        | nil => exact ⟨_, by simp [writeArr, commaSep, h1]; rfl⟩
        | cons w ws => exact ⟨_, by simp [writeArr, commaSep, h1]; rfl⟩
      obtain ⟨t', ht'⟩ := hw
      rw [ht'] at this ⊢
      rw [skipWs_cons h2]
      split
      · rename_i heq; simp only [List.cons.injEq] at heq; exact absurd heq.1 h3
      · rw [this]; rfl
  | .obj kvs, f + 1, depth, rest, hp, hs, hh, hr => by
    simp only [write, List.cons_append, List.append_assoc, List.nil_append]
    rw [parseValue, skipWs_cons (by decide)]
    simp only [size, height] at hs hh
    simp only [Plain] at hp
    have hd : ¬ depth ≤ 1 := by omega
    simp (decide := true) only [if_true, if_false, hd]
    cases kvs with
    | nil => simp [writeObj, commaSep, skipWs, isWs]
    | cons kv kvs =>
      obtain ⟨k, v⟩ := kv
      have := parseMembers_write k v kvs f (depth - 1) rest hp (by omega) (by omega)
      have hw : ∃ t', commaSep (writeObj ((k, v) :: kvs)) ++ '}' :: rest = '"' :: t' := by
        cases kvs with
        | nil => exact ⟨_, by simp [writeObj, commaSep, writeString]; rfl⟩
        | cons w ws => obtain ⟨_, _⟩ := w; exact ⟨_, by simp [writeObj, commaSep, writeString]; rfl⟩
      obtain ⟨t', ht'⟩ := hw
      rw [ht'] at this ⊢
      rw [skipWs_cons (by decide)]
      split
      · rename_i heq; simp at heq
      · rw [this]; rfl
theorem parseElems_write : ∀ (v : Json) (vs : List Json) (fuel depth : Nat) (rest : List Char),
    PlainArr (v :: vs) → sizeArr (v :: vs) ≤ fuel → heightArr (v :: vs) < depth →
    parseElems fuel depth (commaSep (writeArr (v :: vs)) ++ ']' :: rest) = some (v :: vs, rest)
  | v, vs, 0, _, _, _, hs, _ => by simp [sizeArr] at hs
  | v, [], f + 1, depth, rest, hp, hs, hh => by
    simp only [sizeArr, heightArr, PlainArr] at hs hh hp
    simp only [writeArr, commaSep]
    rw [parseElems, parseValue_write v f depth (']' :: rest) hp.1 (by omega) (by omega)
      (stop_cons (by simp))]
    simp [skipWs, isWs]
  | v, w :: vs, f + 1, depth, rest, hp, hs, hh => by
    have ih := parseElems_write w vs f depth rest hp.2
      (by simp only [sizeArr] at *; omega) (by simp only [heightArr] at *; omega)
    simp only [sizeArr, heightArr, PlainArr] at hs hh hp
    simp only [writeArr, commaSep_cons_cons, List.append_assoc, List.cons_append]
    rw [parseElems, parseValue_write v f depth _ hp.1 (by omega) (by omega)
      (stop_cons (by simp))]
    simp only [writeArr] at ih
    simp [skipWs, isWs, ih]
theorem parseMembers_write : ∀ (k : String) (v : Json) (kvs : List (String × Json)) (fuel depth : Nat)
    (rest : List Char), PlainObj ((k, v) :: kvs) → sizeObj ((k, v) :: kvs) ≤ fuel →
    heightObj ((k, v) :: kvs) < depth →
    parseMembers fuel depth (commaSep (writeObj ((k, v) :: kvs)) ++ '}' :: rest)
      = some ((k, v) :: kvs, rest)
  | k, v, kvs, 0, _, _, _, hs, _ => by simp [sizeObj] at hs
  | k, v, [], f + 1, depth, rest, hp, hs, hh => by
    simp only [sizeObj, heightObj, PlainObj] at hs hh hp
    simp only [writeObj, commaSep, writeString, List.cons_append, List.append_assoc,
      List.nil_append]
    rw [parseMembers, skipWs_cons (by decide)]
    simp only [parseStr_escape, skipWs_cons (show isWs ':' = false by decide)]
    rw [parseValue_write v f depth ('}' :: rest) hp.1 (by omega) (by omega)
      (stop_cons (by simp))]
    simp [skipWs, isWs]
  | k, v, (l, w) :: kvs, f + 1, depth, rest, hp, hs, hh => by
    have ih := parseMembers_write l w kvs f depth rest hp.2
      (by simp only [sizeObj] at *; omega) (by simp only [heightObj] at *; omega)
    simp only [sizeObj, heightObj, PlainObj] at hs hh hp
    simp only [writeObj, commaSep_cons_cons, List.append_assoc, List.cons_append]
    simp only [writeObj] at ih
    generalize commaSep ((writeString l ++ ':' :: write w) :: writeObj kvs) = tl at ih ⊢
    simp only [writeString, List.cons_append, List.append_assoc, List.nil_append]
    rw [parseMembers, skipWs_cons (by decide)]
    simp only [parseStr_escape, skipWs_cons (show isWs ':' = false by decide)]
    rw [parseValue_write v f depth _ hp.1 (by omega) (by omega) (stop_cons (by simp))]
    simp [skipWs, isWs, ih]
end

theorem length_commaSep_ge (l : List (List Char)) : (l.map List.length).sum + l.length ≤ (commaSep l).length + 1 := by
  induction l with
  | nil => simp [commaSep]
  | cons a l ih =>
    cases l with
    | nil => simp [commaSep]
    | cons b l =>
      rw [commaSep_cons_cons]
      simp only [List.map_cons, List.sum_cons, List.length_cons, List.length_append] at *
      omega

mutual
theorem size_le : ∀ v : Json, Plain v → size v ≤ 2 * (write v).length
  | .null, _ => by simp [size, write]
  | .bool b, _ => by cases b <;> simp [size, write]
  | .int i, hp => by
    obtain ⟨c, t, h, _⟩ := write_head (.int i) hp
    simp [h, size]; omega
  | .float _, hp => by simp [Plain] at hp
  | .str s, _ => by simp [size, write, writeString]; omega
  | .arr vs, hp => by
    have := sizeArr_le vs hp
    have h2 := length_commaSep_ge (writeArr vs)
    simp only [size, write, List.length_cons, List.length_append]
    have h3 : (writeArr vs).length = vs.length := by simp [writeArr_eq_map]
    simp only [List.length_nil]
    omega
  | .obj kvs, hp => by
    have := sizeObj_le kvs hp
    have h2 := length_commaSep_ge (writeObj kvs)
    simp only [size, write, List.length_cons, List.length_append]
    have h3 : (writeObj kvs).length = kvs.length := by simp [writeObj_eq_map]
    simp only [List.length_nil]
    omega
theorem sizeArr_le : ∀ vs : List Json, PlainArr vs → sizeArr vs ≤ 2 * ((writeArr vs).map List.length).sum + vs.length
  | [], _ => by simp [sizeArr]
  | v :: vs, hp => by
    have h1 := size_le v hp.1
    have h2 := sizeArr_le vs hp.2
    simp only [sizeArr, writeArr, List.map_cons, List.sum_cons, List.length_cons]
    omega
theorem sizeObj_le : ∀ kvs : List (String × Json), PlainObj kvs →
    sizeObj kvs ≤ 2 * ((writeObj kvs).map List.length).sum + kvs.length
  | [], _ => by simp [sizeObj]
  | (k, v) :: kvs, hp => by
    have h1 := size_le v hp.1
    have h2 := sizeObj_le kvs hp.2
    simp only [sizeObj, writeObj, List.map_cons, List.sum_cons, List.length_cons, List.length_append]
    omega
end

theorem stop_nil : Stop [] := by intro c h; cases h

theorem parseText_write (v : Json) (hp : Plain v) (hh : height v < 128) : parseText (write v) = some v := by
  unfold parseText
  have h := parseValue_write v (2 * (write v).length + 2) 128 [] hp
    (by have := size_le v hp; omega) hh stop_nil
  rw [List.append_nil] at h
  rw [h]
  simp [skipWs]

theorem parse_writeBytes (v : Json) (hp : Plain v) (hh : height v < 128) : parse (writeBytes v) = some v := by
  unfold parse writeBytes
  rw [utf8Decode_utf8Chars]
  simp [parseText_write v hp hh]

/-! Prefix-freeness without any bound on the nesting depth. -/

theorem write_prefix_free {v w : Json} {r s : List Char} (hv : Plain v) (hw : Plain w)
    (hr : Stop r) (hs : Stop s) (h : write v ++ r = write w ++ s) : v = w ∧ r = s := by
  have h1 := parseValue_write v (max (size v) (size w)) (max (height v) (height w) + 1) r hv
    (by omega) (by omega) hr
  have h2 := parseValue_write w (max (size v) (size w)) (max (height v) (height w) + 1) s hw
    (by omega) (by omega) hs
  rw [h, h2] at h1
  simp only [Option.some.injEq, Prod.mk.injEq] at h1
  exact ⟨h1.1.symm, h1.2.symm⟩

theorem write_injective {v w : Json} (hv : Plain v) (hw : Plain w) (h : write v = write w) : v = w :=
  (write_prefix_free hv hw stop_nil stop_nil (by simpa using h)).1

/-! ### Normal forms are plain -/

theorem plainObj_iff (l : List (String × Json)) : PlainObj l ↔ ∀ kv ∈ l, Plain kv.2 := by
  induction l with
  | nil => simp [PlainObj]
  | cons kv l ih => obtain ⟨k, v⟩ := kv; simp [PlainObj, ih]

theorem plainArr_iff (l : List Json) : PlainArr l ↔ ∀ v ∈ l, Plain v := by
  induction l with
  | nil => simp [PlainArr]
  | cons v l ih => simp [PlainArr, ih]

theorem mem_sortEntries {α : Type} {l : List (String × α)} {x : String × α} :
    x ∈ sortEntries l ↔ x ∈ l := (List.perm_insertionSort _ l).mem_iff

mutual
theorem plain_norm : ∀ v, NoFloat v → Plain (norm v)
  | .null, _ => trivial
  | .bool _, _ => trivial
  | .int _, _ => trivial
  | .float _, h => by simp [NoFloat] at h
  | .str _, _ => trivial
  | .arr vs, h => plainArr_norm vs h
  | .obj kvs, h => by
    have := plainObj_norm kvs h
    simp only [norm, Plain]
    rw [plainObj_iff] at *
    intro kv hkv
    exact this kv (mem_sortEntries.mp hkv)
theorem plainArr_norm : ∀ vs, NoFloatArr vs → PlainArr (normArr vs)
  | [], _ => trivial
  | v :: vs, h => ⟨plain_norm v h.1, plainArr_norm vs h.2⟩
theorem plainObj_norm : ∀ kvs, NoFloatObj kvs → PlainObj (normObj kvs)
  | [], _ => trivial
  | (k, v) :: kvs, h => by
    simp only [normObj]
    split
    · exact plainObj_norm kvs h.2
    · exact ⟨plain_norm v h.1, plainObj_norm kvs h.2⟩
end

end Qos.Json
