import Verif.Lemmas.ClientFiles
import Mathlib.Data.List.Perm.Basic
/-!
# C43: key sets and build artefacts are read exactly
-/
namespace Qos.Client

/-! ## Order facts -/

theorem memberOrder_total (a b : QuorumMember) : memberLe a b ∨ memberLe b a := by
  rw [memberLe_iff, memberLe_iff]
  unfold MemberOrder
  by_cases h : utf8 a.aliasName = utf8 b.aliasName
  · have := utf8_injective h
    rcases List.le_total a.pubKey b.pubKey with h' | h'
    · exact Or.inl (Or.inr ⟨this, h'⟩)
    · exact Or.inr (Or.inr ⟨this.symm, h'⟩)
  · rcases List.le_total (utf8 a.aliasName) (utf8 b.aliasName) with h' | h'
    · exact Or.inl (Or.inl ((List.le_iff_lt_or_eq.mp h').resolve_right h))
    · exact Or.inr (Or.inl ((List.le_iff_lt_or_eq.mp h').resolve_right (fun e => h e.symm)))

theorem memberOrder_trans {a b c : QuorumMember} (h : memberLe a b) (h' : memberLe b c) : memberLe a c := by
  rw [memberLe_iff] at *
  unfold MemberOrder at *
  rcases h with h | ⟨h1, h2⟩
  · rcases h' with h' | ⟨h1', _⟩
    · exact Or.inl (List.lt_trans h h')
    · exact Or.inl (h1' ▸ h)
  · rcases h' with h' | ⟨h1', h2'⟩
    · exact Or.inl (h1 ▸ h')
    · exact Or.inr ⟨h1.trans h1', List.le_trans h2 h2'⟩

theorem memberOrder_antisymm {a b : QuorumMember} (h : memberLe a b) (h' : memberLe b a) : a = b := by
  rw [memberLe_iff] at *
  unfold MemberOrder at *
  have irr : ∀ x : Bytes, ¬ x < x := fun x => List.lt_irrefl x
  rcases h with h | ⟨h1, h2⟩
  · rcases h' with h' | ⟨h1', _⟩
    · exact absurd (List.lt_trans h h') (irr _)
    · exact absurd (h1' ▸ h) (irr _)
  · rcases h' with h' | ⟨_, h2'⟩
    · exact absurd (h1 ▸ h') (irr _)
    · cases a; cases b
      simp only at h1 h2 h2'
      subst h1
      rw [List.le_antisymm h2 h2']

instance : Std.Total memberLe := ⟨memberOrder_total⟩
instance : IsTrans QuorumMember memberLe := ⟨fun _ _ _ => memberOrder_trans⟩
instance : Std.Antisymm memberLe := ⟨fun _ _ => memberOrder_antisymm⟩

/-- The bytewise order as a relation. -/
abbrev keyLe (a b : Bytes) : Prop := bytesLe a b = true

instance : Std.Total keyLe := ⟨fun a b => by simpa only [keyLe, bytesLe_iff] using List.le_total a b⟩
instance : IsTrans Bytes keyLe := ⟨fun a b c => by simpa only [keyLe, bytesLe_iff] using List.le_trans⟩
instance : Std.Antisymm keyLe := ⟨fun a b => by simpa only [keyLe, bytesLe_iff] using List.le_antisymm⟩

/-! ## Files -/

theorem publicFromContents_iff (p : Prims) (c key : Bytes) :
    (∃ k, publicFromContents p c = .ok k ∧ k.toBytes = key) ↔ KeyText p c key := by
  unfold publicFromContents KeyText
  cases h : utf8Decode c with
  | none => simp
  | some s =>
    simp only [Option.some.injEq, exists_eq_left']
    cases hd : Hex.decode (utf8 (P256.trim s)) with
    | error e => simp
    | ok b =>
      simp only [Except.ok.injEq]
      constructor
      · rintro ⟨k, hk, rfl⟩
        have h1 := P256.public_reencode p b k hk
        obtain ⟨h2, h3, h4, _, _⟩ := (P256.public_fromBytes_iff p b k).mp hk
        rw [h1]
        exact ⟨rfl, h2, h3, h4⟩
      · rintro ⟨rfl, h1, h2, h3⟩
        exact ⟨⟨b.take 65, b.drop 65⟩, (P256.public_fromBytes_iff p b _).mpr ⟨h1, h2, h3, rfl, rfl⟩,
          List.take_append_drop 65 b⟩

theorem publicFromFile_iff (p : Prims) (d : Disk) (path : String) (key : Bytes) :
    (∃ k, publicFromFile p d path = some k ∧ k.toBytes = key) ↔ KeyIn p d path key := by
  unfold publicFromFile KeyIn
  cases h : d.file path with
  | none => simp
  | some c =>
    simp only [Option.some.injEq, exists_eq_left']
    rw [← publicFromContents_iff]
    cases publicFromContents p c <;> simp

theorem findFileNames_ok {d : Disk} {dir : String} {ns : List String} : findFileNames d dir = .ok ns ↔
    ∃ names, d.dir dir = some names ∧ ns = names.filter fun n => !(['.', '_'].isPrefixOf n.toList) := by
  unfold findFileNames
  cases d.dir dir <;> simp [eq_comm]

theorem readMember_ok {p : Prims} {d : Disk} {dir n : String} {m : QuorumMember} :
    readMember p d dir n = .ok m ↔ MemberFile p d dir n m := by
  unfold readMember MemberFile
  rw [ebind_ok, aliasOf_iff, ← KeyIn, ← publicFromFile_iff]
  simp only [orStop_ok, epure_ok]
  constructor
  · rintro ⟨k, hk, rfl⟩
    exact ⟨rfl, k, hk, rfl⟩
  · rintro ⟨ha, k, hk, hb⟩
    exact ⟨k, hk, by cases m; simp_all⟩

/-- C43: the members read from a directory are those its key files describe. -/
theorem readMembers_iff (p : Prims) (d : Disk) (dir : String) (ms : List QuorumMember) :
    readMembers p d dir = .ok ms ↔ Listed p d dir ms := by
  unfold readMembers Listed
  rw [ebind_ok]
  simp only [findFileNames_ok, mapM_ok, readMember_ok]
  have key : ∀ names : List String,
      (names.filter fun n => !(['.', '_'].isPrefixOf n.toList)).filter isKeyFile =
      names.filter fun n => @decide (IsKeyName n) (Classical.propDecidable _) := by
    intro names
    rw [List.filter_filter]
    apply List.filter_congr
    intro n _
    have := keyName_iff n
    cases h : (isKeyFile n && !(['.', '_'].isPrefixOf n.toList)) with
    | true => simp [this.mp h]
    | false =>
      have hn : ¬ IsKeyName n := fun hk => by rw [this.mpr hk] at h; cases h
      simp [hn]
  constructor
  · rintro ⟨_, ⟨names, hd, rfl⟩, h⟩
    rw [key] at h
    exact ⟨names, hd, h⟩
  · rintro ⟨names, hd, h⟩
    rw [← key] at h
    exact ⟨_, ⟨names, hd, rfl⟩, h⟩

theorem rawLines_last {l : Bytes} (hne : l ≠ []) (h : 10 ∉ l) : rawLines l = [l] := by
  induction l with
  | nil => exact absurd rfl hne
  | cons b bs ih =>
    rw [List.mem_cons, not_or] at h
    have h2 : ¬ (b = 13 ∧ bs.head? = some 10) := by
      rintro ⟨-, hh⟩
      cases bs with
      | nil => cases hh
      | cons c cs =>
        simp only [List.head?_cons, Option.some.injEq] at hh
        exact h.2 (by rw [hh]; exact List.mem_cons_self ..)
    rw [rawLines, if_neg (Ne.symm h.1), if_neg h2]
    cases bs with
    | nil => rfl
    | cons c cs => rw [ih (by simp) h.2]

theorem rawLines_more {l body : Bytes} (rest : Bytes) (h : 10 ∉ l) (hb : LineBody l body) :
    rawLines (l ++ 10 :: rest) = body :: rawLines rest := by
  induction l generalizing body with
  | nil =>
    rcases hb with e | ⟨e, -⟩
    · exact absurd (congrArg List.length e) (by simp)
    · subst e
      rw [List.nil_append, rawLines, if_pos rfl]
  | cons b bs ih =>
    rw [List.mem_cons, not_or] at h
    rw [List.cons_append, rawLines, if_neg (Ne.symm h.1)]
    cases bs with
    | nil =>
      have hr : rawLines ([] ++ 10 :: rest) = [] :: rawLines rest := ih (by simp) (.inr ⟨rfl, by simp⟩)
      by_cases h13 : b = 13
      · subst h13
        rw [if_pos ⟨rfl, rfl⟩, hr]
        rcases hb with e | ⟨-, e⟩
        · have : body = [] := by
            have := congrArg List.length e
            simp only [List.length_cons, List.length_nil, List.length_append] at this
            exact List.eq_nil_of_length_eq_zero (by omega)
          rw [this]
        · exact absurd rfl e
      · rw [if_neg (fun e => h13 e.1), hr]
        rcases hb with e | ⟨e, -⟩
        · cases body with
          | nil => simp at e; exact absurd e h13
          | cons x xs => exact absurd (congrArg List.length e) (by simp)
        · rw [← e]
    | cons c cs =>
      have hc : ¬ (b = 13 ∧ ((c :: cs) ++ 10 :: rest).head? = some 10) := by
        rintro ⟨-, hh⟩
        simp only [List.cons_append, List.head?_cons, Option.some.injEq] at hh
        exact h.2 (by rw [hh]; exact List.mem_cons_self ..)
      rw [if_neg hc]
      rcases hb with e | ⟨e, e2⟩
      · cases body with
        | nil => exact absurd (congrArg List.length e) (by simp)
        | cons x xs =>
          rw [List.cons_append, List.cons.injEq] at e
          rw [ih h.2 (.inl e.2), e.1]
      · rw [← e, ih h.2 (.inr ⟨rfl, by rw [List.getLast?_cons_cons] at e2; exact e2⟩)]

theorem lineBody_exists (l : Bytes) : ∃ body, LineBody l body := by
  by_cases h : l.getLast? = some 13
  · obtain ⟨ys, hy⟩ := List.getLast?_eq_some_iff.mp h
    exact ⟨ys, .inl hy⟩
  · exact ⟨l, .inr ⟨rfl, h⟩⟩

/-- C43: the lines of a file are the stretches between its line feeds, a carriage return before the line feed dropped and no
other one, and no empty line after the last line feed. -/
theorem lines_exact (c : Bytes) (ls : List Bytes) : LinesOf c ls ↔ rawLines c = ls := by
  constructor
  · intro h
    induction h with
    | done => rfl
    | last hne h => exact rawLines_last hne h
    | more h hb _ ih => rw [rawLines_more _ h hb, ih]
  · rintro rfl
    induction hn : c.length using Nat.strong_induction_on generalizing c with
    | _ n ih =>
      by_cases hmem : 10 ∈ c
      · obtain ⟨l, rest, rfl, hl⟩ := List.eq_append_cons_of_mem hmem
        obtain ⟨body, hb⟩ := lineBody_exists l
        rw [rawLines_more rest hl hb]
        exact .more hl hb (ih rest.length (by rw [← hn, List.length_append, List.length_cons]; omega) rest rfl)
      · cases c with
        | nil => exact .done
        | cons b bs => rw [rawLines_last (by simp) hmem]; exact .last (by simp) hmem

/-- A line may contain a carriage return, and lose the one that ends it. -/
example : LinesOf [97, 13, 98, 13, 13, 10, 99] [[97, 13, 98, 13], [99]] := (lines_exact _ _).mpr (by decide)

theorem readThreshold_ok {d : Disk} {path : String} {t : UInt32} :
    readThreshold d path = .ok t ↔ ∃ c, d.file path = some c ∧ NumberText c t := by
  unfold readThreshold NumberText
  simp only [ebind_ok, orStop_ok, epure_ok]
  constructor
  · rintro ⟨c, hc, l, hl, s, hs, n, hn, rfl⟩
    obtain ⟨rest, hr⟩ : ∃ rest, rawLines c = l :: rest := by
      cases h : rawLines c with
      | nil => rw [h] at hl; cases hl
      | cons a as => rw [h] at hl; simp only [List.head?_cons, Option.some.injEq] at hl; exact ⟨as, by rw [hl]⟩
    refine ⟨c, hc, l, rest, s, hr, hs, ?_⟩
    rw [hn]
    have := parseUnsigned_lt hn
    rw [UInt32.toNat_ofNat_of_lt' this]
  · rintro ⟨c, hc, l, rest, s, hr, hs, hn⟩
    exact ⟨c, hc, l, by rw [hr]; rfl, s, hs, _, hn, by simp⟩

/-- C43: the threshold read from a directory is the one its threshold file gives. -/
theorem findThreshold_iff (d : Disk) (dir : String) (t : UInt32) :
    findThreshold d dir = .ok t ↔ Threshold d dir t := by
  unfold findThreshold Threshold
  rw [ebind_ok]
  simp only [findFileNames_ok]
  have key : ∀ names : List String,
      ((names.filter fun n => !(['.', '_'].isPrefixOf n.toList)).filter fun n => splitStr '.' n = ["quorum_threshold"]) =
      List.replicate (names.count "quorum_threshold") "quorum_threshold" := by
    intro names
    rw [List.filter_filter, ← List.filter_beq]
    apply List.filter_congr
    intro n _
    by_cases h : n = "quorum_threshold"
    · subst h; decide
    · have : ¬ splitStr '.' n = ["quorum_threshold"] := fun e => h ((splitStr_one (by decide)).mp e)
      simp [h, this]
  constructor
  · rintro ⟨_, ⟨names, hd, rfl⟩, h⟩
    rw [key] at h
    obtain ⟨found, hf, h⟩ := ebind_ok.mp h
    have hlen := (mapM_ok _ _ _).mp hf
    match found, h with
    | [t'], h =>
      have := epure_ok.mp h
      subst this
      have hc := hlen.length_eq
      simp only [List.length_replicate, List.length_cons, List.length_nil] at hc
      rw [hc] at hlen
      cases hlen with
      | cons h1 _ =>
        obtain ⟨c, h2, h3⟩ := readThreshold_ok.mp h1
        exact ⟨names, c, hd, hc, h2, h3⟩
  · rintro ⟨names, c, hd, hc, h2, h3⟩
    refine ⟨_, ⟨names, hd, rfl⟩, ?_⟩
    rw [key, hc, ebind_ok]
    exact ⟨[t], (mapM_ok _ _ _).mpr (.cons (readThreshold_ok.mpr ⟨c, h2, h3⟩) .nil), rfl⟩

/-- C43: a member set is read from a directory exactly when the directory describes it: sorted by alias and key. -/
theorem set_exact (p : Prims) (d : Disk) (dir : String) (set : QuorumSet) :
    getSet p d dir = .ok set ↔ SetIn p d dir set := by
  unfold getSet
  simp only [ebind_ok, readMembers_iff, findThreshold_iff, epure_ok]
  constructor
  · rintro ⟨ms, hm, t, ht, rfl⟩
    refine ⟨⟨ms, hm, List.perm_insertionSort _ _⟩, ?_, ht⟩
    exact (List.pairwise_insertionSort memberLe ms).imp fun h => (memberLe_iff _ _).mp h
  · rintro ⟨⟨ms, hm, hp⟩, hs, ht⟩
    refine ⟨ms, hm, set.threshold, ht, ?_⟩
    have : set.members = ms.insertionSort memberLe :=
      List.Perm.eq_of_pairwise' (r := memberLe) (hs.imp fun h => (memberLe_iff _ _).mpr h)
        (List.pairwise_insertionSort memberLe ms) (hp.trans (List.perm_insertionSort memberLe ms).symm)
    rw [← this]

/-- C43: likewise for a patch set. -/
theorem patch_set_exact (p : Prims) (d : Disk) (dir : String) (set : PatchSet) :
    getPatchSet p d dir = .ok set ↔ PatchSetIn p d dir set := by
  unfold getPatchSet
  simp only [ebind_ok, readMembers_iff, findThreshold_iff, epure_ok]
  constructor
  · rintro ⟨ms, hm, t, ht, rfl⟩
    refine ⟨⟨ms, hm, List.perm_insertionSort _ _⟩, ?_, ht⟩
    exact (List.pairwise_insertionSort keyLe (ms.map (·.pubKey))).imp fun h => (bytesLe_iff _ _).mp h
  · rintro ⟨⟨ms, hm, hp⟩, hs, ht⟩
    refine ⟨ms, hm, set.threshold, ht, ?_⟩
    have : set.members = (ms.map (·.pubKey)).insertionSort keyLe :=
      List.Perm.eq_of_pairwise' (r := keyLe) (hs.imp fun h => (bytesLe_iff _ _).mpr h)
        (List.pairwise_insertionSort keyLe _) (hp.trans (List.perm_insertionSort keyLe _).symm)
    rw [← this]

/-- C43: the order in which the operating system lists a directory does not matter. -/
theorem set_order_independent (p : Prims) (d d' : Disk) (dir : String) (names names' : List String) (set : QuorumSet)
    (hf : d'.file = d.file) (hd : d.dir dir = some names) (hd' : d'.dir dir = some names') (hp : names.Perm names') :
    getSet p d dir = .ok set ↔ getSet p d' dir = .ok set := by
  have go : ∀ (d d' : Disk) (names names' : List String), d'.file = d.file → d.dir dir = some names →
      d'.dir dir = some names' → names.Perm names' → SetIn p d dir set → SetIn p d' dir set := by
    intro d d' names names' hf hd hd' hp h
    obtain ⟨⟨ms, ⟨ns, hn, hl⟩, hm⟩, hs, nt, c, h1, h2, h3, h4⟩ := h
    rw [hd] at hn h1
    cases hn
    cases h1
    have hmf : MemberFile p d' dir = MemberFile p d dir := by
      funext n m
      unfold MemberFile
      rw [hf]
    obtain ⟨ms', hl', hm'⟩ := List.perm_comp_forall₂ (hp.filter _).symm hl
    exact ⟨⟨ms', ⟨names', hd', by rw [hmf]; exact hl'⟩, hm.trans hm'.symm⟩, hs,
      names', c, hd', by rw [← hp.count_eq]; exact h2, by rw [hf]; exact h3, h4⟩
  rw [set_exact, set_exact]
  exact ⟨go d d' names names' hf hd hd' hp, go d' d names' names hf.symm hd' hd hp.symm⟩

/-! ## Build artefacts -/

theorem hexText_iff {s : String} {b : Bytes} : hexText s = some b ↔ Hex.decode (utf8 s) = .ok b := by
  unfold hexText
  cases Hex.decode (utf8 s) <;> simp

theorem lineEntry_iff {l : String} {e : String × String} : lineEntry l = .ok e ↔ TwoWords l e.1 e.2 := by
  have key : splitStr ' ' l = [e.1, e.2] ↔ TwoWords l e.1 e.2 := splitStr_two
  rw [← key]
  unfold lineEntry
  obtain ⟨v, w⟩ := e
  split
  · rename_i v' w' h
    rw [h]
    simp
  · rename_i h
    constructor
    · intro h'; cases h'
    · intro h'; exact absurd h' (h v w)

theorem forall2_left {α β : Type} {r : α → β → Prop} {l : List α} {k : List β} (h : List.Forall₂ r l k) :
    ∀ a ∈ l, ∃ b, r a b := by
  induction h with
  | nil => simp
  | cons h _ ih =>
    intro a ha
    rcases List.mem_cons.mp ha with rfl | ha
    · exact ⟨_, h⟩
    · exact ih a ha

/-- C43: the PCRs of a release are accepted exactly when the release file gives them. -/
theorem release_pcrs_exact (d : Disk) (dir : String) (q : QosPcrs) :
    extractQosPcrs d dir = .ok q ↔ ReleasePcrs d dir q.pcr0 q.pcr1 q.pcr2 := by
  unfold extractQosPcrs linesToEntries getEntry ReleasePcrs
  simp only [ebind_ok, orStop_ok, guardStop_ok, epure_ok, mapM_ok, lineEntry_iff, hexText_iff]
  constructor
  · rintro ⟨es, ⟨c, hc, ls, hls, hf⟩, b0, ⟨e0, h0, _, g0, x0⟩, b1, ⟨e1, h1, _, g1, x1⟩, b2, ⟨e2, h2, _, g2, x2⟩, rfl⟩
    cases hf with
    | nil => cases h0
    | cons a0 hf =>
      cases hf with
      | nil => cases h1
      | cons a1 hf =>
        cases hf with
        | nil => cases h2
        | cons a2 hf =>
          simp only [List.getElem?_cons_zero, List.getElem?_cons_succ, Option.some.injEq] at h0 h1 h2
          subst h0 h1 h2
          rw [of_decide_eq_true g0] at a0
          rw [of_decide_eq_true g1] at a1
          rw [of_decide_eq_true g2] at a2
          refine ⟨c, _, _, _, _, _, _, _, hc, hls, a0, a1, a2, ?_, x0, x1, x2⟩
          intro l hl
          obtain ⟨e, he⟩ := forall2_left hf l hl
          exact ⟨_, _, he⟩
  · rintro ⟨c, v0, v1, v2, l0, l1, l2, rest, hc, hls, a0, a1, a2, hr, x0, x1, x2⟩
    obtain ⟨es, hes⟩ : ∃ es : List (String × String), List.Forall₂ (fun l e => TwoWords l e.1 e.2) rest es := by
      clear hls
      induction rest with
      | nil => exact ⟨[], .nil⟩
      | cons l ls ih =>
        obtain ⟨es, h⟩ := ih fun l hl => hr l (by simp [hl])
        obtain ⟨v, w, h'⟩ := hr l (by simp)
        exact ⟨(v, w) :: es, .cons h' h⟩
    exact ⟨(v0, "PCR0") :: (v1, "PCR1") :: (v2, "PCR2") :: es, ⟨c, hc, _, hls, .cons a0 (.cons a1 (.cons a2 hes))⟩,
      q.pcr0, ⟨_, rfl, (), rfl, x0⟩, q.pcr1, ⟨_, rfl, (), rfl, x1⟩, q.pcr2, ⟨_, rfl, (), rfl, x2⟩, rfl⟩

/-- C43: the role name is the first line of its file. -/
theorem role_exact (d : Disk) (path role : String) : findPcr3 d path = .ok role ↔ RoleIn d path role := by
  unfold findPcr3 RoleIn
  simp only [ebind_ok, orStop_ok]
  constructor
  · rintro ⟨c, hc, ls, hls, h⟩
    cases ls with
    | nil => cases h
    | cons a as =>
      simp only [List.head?_cons, Option.some.injEq] at h
      exact ⟨c, as, hc, h ▸ hls⟩
  · rintro ⟨c, rest, hc, hls⟩
    exact ⟨c, hc, _, hls, rfl⟩

/-- C43: the pivot hash is the hexadecimal first line of its file. -/
theorem pivot_hash_exact (d : Disk) (path : String) (h : Bytes) :
    extractPivotHash d path = .ok h ↔ PivotHashIn d path h := by
  unfold extractPivotHash PivotHashIn
  simp only [ebind_ok, orStop_ok, hexText_iff]
  constructor
  · rintro ⟨c, hc, ls, hls, l, hl, hx⟩
    cases ls with
    | nil => cases hl
    | cons a as =>
      simp only [List.head?_cons, Option.some.injEq] at hl
      exact ⟨c, l, as, hc, hl ▸ hls, hx⟩
  · rintro ⟨c, l, rest, hc, hls, hx⟩
    exact ⟨c, hc, _, hls, l, rfl, hx⟩

/-- C43: the Nitro configuration is the one the release directory and the role file stand for. -/
theorem nitro_exact (p : Prims) (awsRoot : Bytes) (d : Disk) (dir path : String) (n : NitroConfig) :
    extractNitroConfig p awsRoot d dir path = .ok n ↔ NitroIn p awsRoot d dir path n := by
  unfold extractNitroConfig extractPcr3
  simp only [ebind_ok, epure_ok, role_exact, release_pcrs_exact]
  constructor
  · rintro ⟨h3, ⟨role, hr, rfl⟩, q, hq, rfl⟩
    exact ⟨hq, ⟨role, hr, rfl⟩, rfl, rfl⟩
  · rintro ⟨hq, ⟨role, hr, h3⟩, h4, h5⟩
    refine ⟨_, ⟨role, hr, rfl⟩, ⟨n.pcr0, n.pcr1, n.pcr2⟩, hq, ?_⟩
    cases n
    simp only at h3 h4 h5
    subst h3 h4 h5
    rfl

/-! ## Confirmations -/

theorem yes_no {l : String} (h : IsYes l) : ¬ IsNo l := by
  unfold IsYes IsNo at *
  generalize P256.trim l = t at *
  simp only [List.mem_cons, List.not_mem_nil, or_false] at h
  rcases h with rfl | rfl | rfl | rfl | rfl <;> decide

theorem promptLoop_yes (n : Nat) (input : List String) (h : (promptLoop n input).1 = true) :
    ∃ ws y, (promptLoop n input).2.1 = ws ++ [y] ∧ ws.length < n ∧ IsYes y ∧ ∀ w ∈ ws, ¬ IsYes w ∧ ¬ IsNo w := by
  induction n generalizing input with
  | zero => cases h
  | succ n ih =>
    unfold promptLoop at h ⊢
    simp only at h ⊢
    by_cases hy : ["yes", "Yes", "YES", "Y", "y"].contains (P256.trim (readLine input).1) = true
    · rw [if_pos hy]
      exact ⟨[], _, rfl, by simp, by simpa [IsYes] using hy, by simp⟩
    · rw [if_neg hy] at h ⊢
      by_cases hn : ["no", "No", "NO", "N", "n"].contains (P256.trim (readLine input).1) = true
      · rw [if_pos hn] at h
        cases h
      · rw [if_neg hn] at h ⊢
        obtain ⟨ws, y, h1, h2, h3, h4⟩ := ih _ h
        refine ⟨(readLine input).1 :: ws, y, by rw [h1]; rfl, by simp; omega, h3, ?_⟩
        intro w hw
        rcases List.mem_cons.mp hw with rfl | hw
        · exact ⟨by simpa [IsYes] using hy, by simpa [IsNo] using hn⟩
        · exact h4 w hw

theorem promptIsYes_yes {input : List String} (h : (promptIsYes input).1 = true) : Confirmed (promptIsYes input).2.1 := by
  obtain ⟨ws, y, h1, h2, h3, h4⟩ := promptLoop_yes 3 input h
  exact ⟨ws, y, h1, by omega, h3, h4⟩

/-- C43: a round of questions succeeds only if each was put and answered yes. -/
theorem interview_confirmed (qs : List Question) (input : List String) (h : (interview qs input).1 = true) :
    AllConfirmed qs (interview qs input).2 := by
  induction qs generalizing input with
  | nil => exact .nil
  | cons q qs ih =>
    unfold interview at h ⊢
    simp only at h ⊢
    by_cases hy : (promptIsYes input).1 = true
    · rw [if_pos hy] at h ⊢
      exact .cons ⟨_, rfl, promptIsYes_yes hy⟩ (ih _ h)
    · rw [if_neg hy] at h
      cases h

/-- C43: an operator who answers yes to everything is believed. -/
theorem interview_yes (qs : List Question) (input : List String) (hl : qs.length ≤ input.length)
    (hy : ∀ l ∈ input, IsYes l) : (interview qs input).1 = true := by
  induction qs generalizing input with
  | nil => rfl
  | cons q qs ih =>
    cases input with
    | nil => simp at hl
    | cons l ls =>
      have hyes : ["yes", "Yes", "YES", "Y", "y"].contains (P256.trim l) = true := by
        have := hy l (by simp)
        simpa [IsYes] using this
      have hp : promptIsYes (l :: ls) = (true, [l], ls) := by
        unfold promptIsYes promptLoop
        exact if_pos hyes
      unfold interview
      simp only [hp, if_true]
      exact ih ls (by simpa using hl) fun l hl => hy l (by simp [hl])

/-- C43: a no, or three unclear answers, end the command. -/
theorem interview_refused (q : Question) (qs : List Question) (l : String) (ls : List String) (hn : IsNo l) :
    (interview (q :: qs) (l :: ls)).1 = false := by
  have hyes : ¬ ["yes", "Yes", "YES", "Y", "y"].contains (P256.trim l) = true := by
    intro h
    exact yes_no (l := l) (by simpa [IsYes] using h) hn
  have hno : ["no", "No", "NO", "N", "n"].contains (P256.trim l) = true := by simpa [IsNo] using hn
  have hp : promptIsYes (l :: ls) = (false, [l], ls) := by
    unfold promptIsYes promptLoop
    exact (if_neg hyes).trans (if_pos hno)
  unfold interview
  simp [hp]

end Qos.Client
