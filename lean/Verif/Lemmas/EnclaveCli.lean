import Verif.Spec.EnclaveCli
import Verif.Lemmas.HostCli
import Verif.Lemmas.JsonChars
import Verif.Props.ClientFiles
/-!
# Words and lines of the seed file
-/
namespace Qos.EnclaveCli
open HostCli (Number)
open Client (LinesOf LineBody rawLines lines_exact)

/-! ## Words -/

theorem split_blank : ∀ (a l : List Char), Blank a → splitWhitespace (a ++ l) = splitWhitespace l
  | [], l, _ => rfl
  | c :: a, l, h => by
    rw [List.cons_append, splitWhitespace, if_pos (h c (by simp))]
    exact split_blank a l fun x hx => h x (by simp [hx])

theorem split_none {l : List Char} : splitWhitespace l = [] ↔ Blank l := by
  constructor
  · intro h
    induction l with
    | nil => intro c hc; cases hc
    | cons c cs ih =>
      by_cases hc : P256.isWhitespace c = true
      · rw [splitWhitespace, if_pos hc] at h
        intro x hx
        rcases List.mem_cons.mp hx with rfl | hx
        · exact hc
        · exact ih h x hx
      · rw [splitWhitespace, if_neg hc] at h
        unfold joinWord at h
        split at h
        · split at h <;> cases h
        · cases h
  · intro h
    have := split_blank l [] h
    rw [List.append_nil] at this
    rw [this]
    rfl

/-- What may follow a word. -/
def Boundary (l : List Char) : Prop := ∀ c, l.head? = some c → P256.isWhitespace c = true

theorem split_word : ∀ (w r : List Char), w ≠ [] → (∀ c ∈ w, P256.isWhitespace c = false) → Boundary r →
    splitWhitespace (w ++ r) = w :: splitWhitespace r
  | [], _, h, _, _ => absurd rfl h
  | [c], r, _, h, hr => by
    rw [List.singleton_append, splitWhitespace, if_neg (by simp [h c])]
    cases r with
    | nil => rfl
    | cons d r =>
      have hd : P256.isWhitespace d = true := hr d rfl
      cases hs : splitWhitespace (d :: r) with
      | nil => rfl
      | cons w ws => simp only [joinWord, List.head?_cons, hd, if_true]
  | c :: c2 :: w, r, _, h, hr => by
    have ih := split_word (c2 :: w) r (by simp) (fun x hx => h x (by simp [hx])) hr
    rw [List.cons_append, splitWhitespace, if_neg (by simp [h c]), ih]
    have h2 : P256.isWhitespace c2 = false := h c2 (by simp)
    simp only [joinWord, List.cons_append, List.head?_cons, h2, Bool.false_eq_true, if_false]

theorem first_word (l : List Char) : Blank l ∨ ∃ a w r, l = a ++ w ++ r ∧ Blank a ∧ w ≠ [] ∧
    (∀ c ∈ w, P256.isWhitespace c = false) ∧ Boundary r := by
  induction l with
  | nil => exact .inl fun c hc => by cases hc
  | cons c cs ih =>
    by_cases hc : P256.isWhitespace c = true
    · rcases ih with h | ⟨a, w, r, h1, h2, h3⟩
      · exact .inl fun x hx => by
          rcases List.mem_cons.mp hx with rfl | hx
          · exact hc
          · exact h x hx
      · refine .inr ⟨c :: a, w, r, by rw [h1]; rfl, fun x hx => ?_, h3⟩
        rcases List.mem_cons.mp hx with rfl | hx
        · exact hc
        · exact h2 x hx
    · have hc' : P256.isWhitespace c = false := by simpa using hc
      refine .inr ⟨[], c :: cs.takeWhile (fun x => !P256.isWhitespace x), cs.dropWhile (fun x => !P256.isWhitespace x), ?_,
        (fun x hx => by cases hx), by simp, ?_, ?_⟩
      · simp [List.takeWhile_append_dropWhile]
      · intro x hx
        rcases List.mem_cons.mp hx with rfl | hx
        · exact hc'
        · simpa using List.mem_takeWhile_imp hx
      · intro x hx
        have := List.head?_dropWhile_not (fun x => !P256.isWhitespace x) cs
        rw [hx] at this
        simpa using this

theorem boundary_blank {b l : List Char} (hb : Blank b) (hne : b ≠ []) : Boundary (b ++ l) := by
  cases b with
  | nil => exact absurd rfl hne
  | cons x b =>
    intro c hc
    cases hc
    exact hb x (by simp)

theorem blank_boundary {b : List Char} (hb : Blank b) : Boundary b := by
  cases b with
  | nil => intro c hc; cases hc
  | cons x b => intro c hc; cases hc; exact hb x (by simp)

theorem split_two {l : List Char} {v w : List Char} : splitWhitespace l = [v, w] ↔
    TwoWordLine (String.ofList l) (String.ofList v) (String.ofList w) := by
  unfold TwoWordLine Word
  simp only [String.toList_ofList]
  have ne : ∀ x : List Char, String.ofList x ≠ "" ↔ x ≠ [] := fun x => by
    rw [Ne, Ne, ← String.toList_inj, String.toList_ofList]
    rfl
  rw [ne, ne]
  constructor
  · intro h
    rcases first_word l with hb | ⟨a, v', r, rfl, ha, hv, hvw, hr⟩
    · rw [split_none.mpr hb] at h
      cases h
    · rw [List.append_assoc, split_blank _ _ ha, split_word _ _ hv hvw hr] at h
      injection h with e h
      subst e
      rcases first_word r with hb | ⟨b, w', c, rfl, hb, hw, hww, hc⟩
      · rw [split_none.mpr hb] at h
        cases h
      · rw [List.append_assoc, split_blank _ _ hb, split_word _ _ hw hww hc] at h
        injection h with e h
        subst e
        refine ⟨⟨hv, hvw⟩, ⟨hw, hww⟩, a, b, c, ha, hb, split_none.mp h, ?_, by simp⟩
        rintro rfl
        cases w' with
        | nil => exact hw rfl
        | cons x w' =>
          have h1 := hr x rfl
          rw [hww x (by simp)] at h1
          cases h1
  · rintro ⟨⟨hv, hvw⟩, ⟨hw, hww⟩, a, b, c, ha, hb, hc, hne, rfl⟩
    rw [show a ++ v ++ b ++ w ++ c = a ++ (v ++ (b ++ (w ++ c))) by simp, split_blank _ _ ha,
      split_word _ _ hv hvw (boundary_blank hb hne), split_blank _ _ hb, split_word _ _ hw hww (blank_boundary hc),
      split_none.mpr hc]

theorem split_after : ∀ (l c : List Char), Blank c → splitWhitespace (l ++ c) = splitWhitespace l
  | [], c, h => by rw [List.nil_append, split_none.mpr h]; rfl
  | x :: l, c, h => by
    have ih := split_after l c h
    rw [List.cons_append, splitWhitespace, splitWhitespace, ih]
    cases l with
    | nil =>
      cases c with
      | nil => rfl
      | cons d c => rfl
    | cons y l => rfl

theorem trim_parts (s : String) : ∃ a c, Blank a ∧ Blank c ∧ s.toList = a ++ (P256.trim s).toList ++ c := by
  refine ⟨s.toList.takeWhile P256.isWhitespace, ((s.toList.dropWhile P256.isWhitespace).reverse.takeWhile P256.isWhitespace).reverse,
    fun x hx => List.mem_takeWhile_imp hx, fun x hx => List.mem_takeWhile_imp (List.mem_reverse.mp hx), ?_⟩
  unfold P256.trim
  rw [String.toList_ofList, List.append_assoc, ← List.reverse_append, List.takeWhile_append_dropWhile, List.reverse_reverse,
    List.takeWhile_append_dropWhile]

theorem split_trim (s : String) : splitWhitespace (P256.trim s).toList = splitWhitespace s.toList := by
  obtain ⟨a, c, ha, hc, h⟩ := trim_parts s
  rw [h, List.append_assoc, split_blank _ _ ha, split_after _ _ hc]

theorem trim_empty {s : String} : P256.trim s = "" ↔ Blank s.toList := by
  rw [← split_none, ← split_trim]
  constructor
  · intro h
    rw [h]
    rfl
  · intro h
    have hb := split_none.mp h
    unfold P256.trim at hb ⊢
    rw [String.toList_ofList] at hb
    rw [← String.toList_inj, String.toList_ofList]
    show _ = []
    rw [List.reverse_eq_nil_iff]
    have hn := List.head?_dropWhile_not P256.isWhitespace (s.toList.dropWhile P256.isWhitespace).reverse
    cases hd : (s.toList.dropWhile P256.isWhitespace).reverse.dropWhile P256.isWhitespace with
    | nil => rfl
    | cons x l =>
      rw [hd] at hn hb
      simp only [List.head?_cons] at hn
      have := hb x (by simp)
      simp [this] at hn

/-! ## Lines -/

/-- The bytes of some characters. -/
abbrev bytesOf (cs : List Char) : Bytes := cs.flatMap String.utf8EncodeChar

theorem raw_prefix : ∀ (bs r : Bytes), bs ≠ [] → 10 ∉ bs → 13 ∉ bs →
    rawLines (bs ++ r) = match rawLines r with | [] => [bs] | l :: ls => (bs ++ l) :: ls
  | [], _, h, _, _ => absurd rfl h
  | [b], r, _, h10, h13 => by
    rw [List.singleton_append, rawLines, if_neg (by rintro rfl; simp at h10), if_neg (by rintro ⟨rfl, _⟩; simp at h13)]
    rfl
  | b :: b2 :: bs, r, _, h10, h13 => by
    have ih := raw_prefix (b2 :: bs) r (by simp) (fun h => h10 (by simp [List.mem_cons.mp h])) (fun h => h13 (by simp [List.mem_cons.mp h]))
    rw [List.cons_append, rawLines, if_neg (by rintro rfl; simp at h10), if_neg (by rintro ⟨rfl, _⟩; simp at h13), ih]
    cases rawLines r <;> rfl

theorem encode_ne (c : Char) : String.utf8EncodeChar c ≠ [] := by
  intro h
  have := String.length_utf8EncodeChar c
  rw [h] at this
  have := c.utf8Size_pos
  simp at *

theorem encode_not {c : Char} {b : UInt8} (hb : b.toNat < 128) (h : c.toNat ≠ b.toNat) : b ∉ String.utf8EncodeChar c := by
  intro hm
  rcases Json.utf8EncodeChar_bytes c b hm with h1 | h1
  · exact h h1.symm
  · omega

theorem char_ne {c : Char} {d : Char} (h : c ≠ d) : c.toNat ≠ d.toNat := fun he => h (Char.toNat_inj.mp he)

theorem head_lf (cs : List Char) : (bytesOf cs).head? = some 10 ↔ cs.head? = some '\n' := by
  cases cs with
  | nil => simp
  | cons c cs =>
    by_cases hc : c = '\n'
    · subst hc
      exact ⟨fun _ => rfl, fun _ => rfl⟩
    · constructor
      · intro h
        exfalso
        have h1 : (String.utf8EncodeChar c).head? = some 10 := by
          cases he : String.utf8EncodeChar c with
          | nil => exact absurd he (encode_ne c)
          | cons b bs =>
            rw [bytesOf, List.flatMap_cons, he] at h
            exact h
        exact encode_not (b := 10) (by decide) (char_ne hc) (List.mem_of_head? h1)
      · intro h
        cases h
        exact absurd rfl hc

theorem raw_text : ∀ cs : List Char, rawLines (bytesOf cs) = (strLines cs).map bytesOf
  | [] => rfl
  | c :: cs => by
    have ih := raw_text cs
    rw [bytesOf, List.flatMap_cons]
    by_cases h1 : c = '\n'
    · subst h1
      rw [strLines, if_pos rfl]
      show rawLines (10 :: bytesOf cs) = _
      rw [rawLines, if_pos rfl, ih]
      rfl
    by_cases h2 : c = '\r'
    · subst h2
      rw [strLines, if_neg (by decide)]
      show rawLines (13 :: bytesOf cs) = _
      rw [rawLines, if_neg (by decide), ih]
      by_cases h3 : cs.head? = some '\n'
      · rw [if_pos ⟨rfl, (head_lf cs).mpr h3⟩, if_pos ⟨rfl, h3⟩]
      · rw [if_neg (fun h => h3 ((head_lf cs).mp h.2)), if_neg (fun h => h3 h.2)]
        cases strLines cs <;> rfl
    · rw [raw_prefix _ _ (encode_ne c) (encode_not (by decide) (char_ne h1)) (encode_not (by decide) (char_ne h2)),
        strLines, if_neg h1, if_neg (fun h => h2 h.1)]
      show (match rawLines (bytesOf cs) with | [] => _ | l :: ls => _) = _
      rw [ih]
      cases strLines cs with
      | nil => simp [bytesOf]
      | cons l ls => simp [bytesOf]

theorem bytesOf_inj {a b : List (List Char)} (h : a.map bytesOf = b.map bytesOf) : a = b := by
  exact List.map_injective_iff.mpr (fun _ _ h => utf8Chars_injective h) h

theorem text_of_lines {c : Bytes} {ls : List Bytes} (h : LinesOf c ls) (hs : ∀ l ∈ ls, ∃ t, l = bytesOf t) : ∃ t, c = bytesOf t := by
  induction h with
  | done => exact ⟨[], rfl⟩
  | last => exact hs _ (by simp)
  | @more l body rest ls h10 hb hr ih =>
    obtain ⟨t, rfl⟩ := ih fun l hl => hs l (by simp [hl])
    obtain ⟨b, rfl⟩ := hs body (by simp)
    rcases hb with rfl | ⟨rfl, _⟩
    · exact ⟨b ++ '\r' :: '\n' :: t, by simp [bytesOf]; rfl⟩
    · exact ⟨b ++ '\n' :: t, by simp [bytesOf]; rfl⟩

/-- Reading the text and taking its lines is reading the lines of the file. -/
theorem text_file {c : Bytes} {lines : List String} : TextFile c lines ↔
    ∃ text, utf8Decode c = some text ∧ strLines text.toList = lines.map String.toList := by
  unfold TextFile
  have hmap : lines.map utf8 = (lines.map String.toList).map bytesOf := by simp [utf8, bytesOf, Function.comp_def]
  constructor
  · intro h
    obtain ⟨t, rfl⟩ := text_of_lines h (by
      intro l hl
      obtain ⟨s, _, rfl⟩ := List.mem_map.mp hl
      exact ⟨s.toList, rfl⟩)
    refine ⟨String.ofList t, ?_, ?_⟩
    · have := utf8Decode_utf8 (String.ofList t)
      unfold utf8 at this
      rwa [String.toList_ofList] at this
    · have := (lines_exact _ _).mp h
      rw [raw_text, hmap] at this
      rw [String.toList_ofList]
      exact bytesOf_inj this
  · rintro ⟨text, h1, h2⟩
    rw [← utf8_of_utf8Decode h1, lines_exact, hmap, ← h2]
    exact raw_text text.toList

/-! ## Entries -/

theorem label_iff {label : List Char} {i : UInt16} : labelIndex label = some i ↔
    ∃ number, String.ofList label = "PCR" ++ number ∧ Number number i.toNat := by
  have key : ∀ number : String, String.ofList label = "PCR" ++ number ↔ label = 'P' :: 'C' :: 'R' :: number.toList := by
    intro n
    rw [← String.toList_inj, String.toList_ofList, String.toList_append]
    rfl
  constructor
  · intro h
    unfold labelIndex at h
    split at h
    · rename_i index
      refine ⟨String.ofList index, (key _).mpr (by rw [String.toList_ofList]), ?_⟩
      have : HostCli.parsePort (String.ofList index) = some i := by
        unfold HostCli.parsePort
        rwa [String.toList_ofList]
      exact HostCli.parsePort_iff.mp this
    · cases h
  · rintro ⟨n, h1, h2⟩
    rw [(key n).mp h1]
    exact HostCli.parsePort_iff.mpr h2

theorem withPcr_iff {s d : MockNsm.State} {i : UInt16} {v : Bytes} : MockNsm.withPcr s i v = some d ↔
    i < 32 ∧ v.length ∈ [32, 48, 64] ∧ d = { s with pcrs := fun j => if j = i then some v else s.pcrs j } := by
  unfold MockNsm.withPcr
  by_cases h1 : i < 32
  · rw [if_pos h1]
    by_cases h2 : v.length = 32 ∨ v.length = 48 ∨ v.length = 64
    · rw [if_pos h2]
      simp [h1, h2, eq_comm]
    · rw [if_neg h2]
      simp [h2]
  · rw [if_neg h1]
    simp [h1]

/-- A register set. -/
def set (s : MockNsm.State) (e : UInt16 × Bytes) : MockNsm.State :=
  { s with pcrs := fun j => if j = e.1 then some e.2 else s.pcrs j }

theorem seedLine_iff {s d : MockNsm.State} {line : String} : seedLine s line.toList = some d ↔
    (Blank line.toList ∧ d = s) ∨ ∃ i v, SeedLine line i v ∧ d = set s (i, v) := by
  unfold seedLine
  rw [String.ofList_toList]
  simp only
  by_cases hb : Blank line.toList
  · rw [if_pos (trim_empty.mpr hb)]
    constructor
    · intro h; cases h; exact .inl ⟨hb, rfl⟩
    · rintro (⟨-, rfl⟩ | ⟨i, v, ⟨hex, n, h1, -⟩, -⟩)
      · rfl
      · have h2 := (split_two (l := line.toList) (v := hex.toList) (w := ("PCR" ++ n).toList)).mpr
          (by rw [String.ofList_toList, String.ofList_toList, String.ofList_toList]; exact h1)
        rw [split_none.mpr hb] at h2
        cases h2
  · rw [if_neg (fun h => hb (trim_empty.mp h)), split_trim]
    have : ∀ x y : List Char, splitWhitespace line.toList = [x, y] ↔ TwoWordLine line (String.ofList x) (String.ofList y) := by
      intro x y
      rw [split_two, String.ofList_toList]
    constructor
    · intro h
      split at h
      · rename_i x y hxy
        rw [Option.bind_eq_some_iff] at h
        obtain ⟨i, hi, h⟩ := h
        obtain ⟨n, hn, hnum⟩ := label_iff.mp hi
        split at h
        · rename_i v hv
          obtain ⟨k1, k2, k3⟩ := withPcr_iff.mp h
          exact .inr ⟨i, v, ⟨String.ofList x, n, hn ▸ (this x y).mp hxy, hnum, k1, hv, k2⟩, k3⟩
        · cases h
      · cases h
    · rintro (⟨h, -⟩ | ⟨i, v, ⟨hex, n, h1, h2, h3, h4, h5⟩, rfl⟩)
      · exact absurd h hb
      · have hs := (this hex.toList ("PCR" ++ n).toList).mpr (by rw [String.ofList_toList, String.ofList_toList]; exact h1)
        rw [hs]
        simp only
        rw [label_iff.mpr ⟨n, by rw [String.ofList_toList], h2⟩]
        rw [String.ofList_toList]
        simp only [Option.bind_some, h4]
        exact withPcr_iff.mpr ⟨h3, h5, rfl⟩

theorem seedLines_iff {lines : List String} {s d : MockNsm.State} : (lines.map String.toList).foldlM seedLine s = some d ↔
    ∃ es, SeedLines lines es ∧ d = es.foldl set s := by
  induction lines generalizing s with
  | nil =>
    constructor
    · intro h; cases h; exact ⟨[], .done, rfl⟩
    · rintro ⟨es, h, rfl⟩; cases h; rfl
  | cons l ls ih =>
    rw [List.map_cons, List.foldlM_cons, Option.bind_eq_bind, Option.bind_eq_some_iff]
    constructor
    · rintro ⟨s', h1, h2⟩
      obtain ⟨es, h3, h4⟩ := ih.mp h2
      rcases seedLine_iff.mp h1 with ⟨hb, rfl⟩ | ⟨i, v, he, rfl⟩
      · exact ⟨es, .blank hb h3, h4⟩
      · exact ⟨(i, v) :: es, .entry he h3, h4⟩
    · rintro ⟨es, h, rfl⟩
      cases h with
      | blank hb hr => exact ⟨s, seedLine_iff.mpr (.inl ⟨hb, rfl⟩), ih.mpr ⟨es, hr, rfl⟩⟩
      | entry he hr => exact ⟨_, seedLine_iff.mpr (.inr ⟨_, _, he, rfl⟩), ih.mpr ⟨_, hr, rfl⟩⟩

theorem set_all (es : List (UInt16 × Bytes)) (s : MockNsm.State) : (es.foldl set s).maxPcrs = s.maxPcrs ∧
    (es.foldl set s).locked = s.locked ∧ ∀ i, (es.foldl set s).pcrs i =
      match (es.filter fun e => e.1 = i).getLast? with | some e => some e.2 | none => s.pcrs i := by
  induction es generalizing s with
  | nil => exact ⟨rfl, rfl, fun _ => rfl⟩
  | cons e es ih =>
    obtain ⟨h1, h2, h3⟩ := ih (set s e)
    refine ⟨h1, h2, fun i => ?_⟩
    rw [List.foldl_cons, h3 i]
    by_cases he : e.1 = i
    · rw [List.filter_cons_of_pos (by simpa using he), List.getLast?_cons]
      cases (es.filter fun e => e.1 = i).getLast? with
      | some x => rfl
      | none => simp [set, he]
    · rw [List.filter_cons_of_neg (by simpa using he)]
      cases (es.filter fun e => e.1 = i).getLast? with
      | some x => rfl
      | none => simp [set, Ne.symm he]

theorem seeded_iff {es : List (UInt16 × Bytes)} {d : MockNsm.State} : SeededDevice es d ↔ d = es.foldl set MockNsm.initial := by
  obtain ⟨h1, h2, h3⟩ := set_all es MockNsm.initial
  constructor
  · rintro ⟨k1, k2, k3⟩
    have e1 : d.pcrs = (es.foldl set MockNsm.initial).pcrs := funext fun i => by rw [k3, h3]; rfl
    have e2 : d.locked = (es.foldl set MockNsm.initial).locked := funext fun i => by rw [k2, h2]; rfl
    have e3 : d.maxPcrs = (es.foldl set MockNsm.initial).maxPcrs := by rw [k1, h1]; rfl
    cases d
    generalize es.foldl set MockNsm.initial = x at *
    cases x
    simp_all
  · rintro rfl
    exact ⟨h1, fun i => by rw [h2]; rfl, fun i => by rw [h3]; rfl⟩

end Qos.EnclaveCli
