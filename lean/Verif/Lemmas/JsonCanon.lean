import Verif.Lemmas.Json
namespace Qos.Json

theorem natText_eq (n : Nat) : natText n = Nat.toDigits 10 n := by
  have : ∀ f n, n < f → natTextAux f n = Nat.toDigits 10 n := by
    intro f
    induction f with
    | zero => intro n h; omega
    | succ f ih =>
      intro n h
      rw [natTextAux, Nat.toDigits_eq_if (by decide)]
      have hd : ∀ d, d < 10 → digitChar d = d.digitChar := by decide
      split
      · rw [hd _ (by omega)]
      · rw [ih _ (by omega), hd _ (by omega)]
  exact this _ _ (by omega)

theorem intText_eq (i : Int) : String.ofList (intText i) = toString i := by
  show _ = Int.repr i
  cases i with
  | ofNat n => simp [intText, natText_eq, Int.repr, Nat.repr_eq_ofList_toDigits]
  | negSucc n =>
    apply String.toList_inj.mp
    simp [intText, natText_eq, Int.repr, Nat.repr_eq_ofList_toDigits]

/-! ### Sorting -/

theorem keyLe_total (a b : String) : keyLe a b ∨ keyLe b a := List.le_total _ _
theorem keyLe_trans {a b c : String} (h : keyLe a b) (h' : keyLe b c) : keyLe a c := List.le_trans h h'
theorem keyLe_antisymm {a b : String} (h : keyLe a b) (h' : keyLe b a) : a = b :=
  utf16_injective (List.le_antisymm h h')

theorem keyLt_of {a b : String} (h : keyLe a b) (hn : a ≠ b) : utf16 a < utf16 b := by
  apply List.not_le.mp
  intro h'
  exact hn (keyLe_antisymm h h')

theorem sortEntries_pairwise {α : Type} (l : List (String × α)) :
    (sortEntries l).Pairwise fun a b => keyLe a.1 b.1 := by
  haveI : Std.Total (fun a b : String × α => keyLe a.1 b.1) := ⟨fun a b => keyLe_total _ _⟩
  haveI : IsTrans (String × α) (fun a b : String × α => keyLe a.1 b.1) := ⟨fun a b c => keyLe_trans⟩
  exact List.pairwise_insertionSort _ l

theorem sortEntries_perm {α : Type} (l : List (String × α)) : (sortEntries l).Perm l :=
  List.perm_insertionSort _ l

theorem sortEntries_strict {α : Type} (l : List (String × α)) (h : (l.map Prod.fst).Nodup) :
    (sortEntries l).Pairwise fun a b => utf16 a.1 < utf16 b.1 := by
  have h1 := sortEntries_pairwise l
  have h2 : ((sortEntries l).map Prod.fst).Nodup := ((sortEntries_perm l).map _).nodup_iff.mpr h
  have h3 : (sortEntries l).Pairwise fun a b => a.1 ≠ b.1 := by
    rw [List.Nodup, List.pairwise_map] at h2; exact h2
  exact (h1.and h3).imp fun h => keyLt_of h.1 h.2

/-! ### Lookup -/

theorem lookup_none_iff {k : String} {l : List (String × Json)} :
    lookup k l = none ↔ k ∉ l.map Prod.fst := by
  induction l with
  | nil => simp [lookup]
  | cons kv l ih =>
    obtain ⟨k', v⟩ := kv
    simp only [lookup, List.map_cons, List.mem_cons]
    split
    · rename_i h; simp [h]
    · rename_i h; rw [ih]; simp [h]

theorem lookup_mem {k : String} {v : Json} {l : List (String × Json)} (h : lookup k l = some v) :
    (k, v) ∈ l := by
  induction l with
  | nil => simp [lookup] at h
  | cons kv l ih =>
    obtain ⟨k', w⟩ := kv
    simp only [lookup] at h
    split at h
    · rename_i hk; cases h; simp [hk]
    · exact List.mem_cons_of_mem _ (ih h)

theorem lookup_of_mem {k : String} {v : Json} {l : List (String × Json)}
    (hn : (l.map Prod.fst).Nodup) (h : (k, v) ∈ l) : lookup k l = some v := by
  induction l with
  | nil => cases h
  | cons kv l ih =>
    obtain ⟨k', w⟩ := kv
    simp only [List.map_cons, List.nodup_cons] at hn
    simp only [lookup]
    rcases List.mem_cons.mp h with h | h'
    · cases h; simp
    · rw [if_neg, ih hn.2 h']
      rintro rfl
      exact hn.1 (List.mem_map.mpr ⟨(k, v), h', rfl⟩)

theorem lookup_perm {l m : List (String × Json)} (h : l.Perm m) (hn : (l.map Prod.fst).Nodup)
    (k : String) : lookup k l = lookup k m := by
  have hm : (m.map Prod.fst).Nodup := (h.map _).nodup_iff.mp hn
  cases hl : lookup k l with
  | some v => rw [lookup_of_mem hm (h.mem_iff.mp (lookup_mem hl))]
  | none =>
    symm
    rw [lookup_none_iff] at *
    intro hk
    exact hl ((h.map _).mem_iff.mpr hk)

theorem norm_eq_null {v : Json} : norm v = .null ↔ v = .null := by
  cases v <;> simp [norm]

theorem isNull_iff {v : Json} : v.isNull = true ↔ v = .null := by cases v <;> simp [isNull]

theorem normObj_keys_sublist (l : List (String × Json)) :
    ((normObj l).map Prod.fst).Sublist (l.map Prod.fst) := by
  induction l with
  | nil => simp [normObj]
  | cons kv l ih =>
    obtain ⟨k, v⟩ := kv
    simp only [normObj]
    split
    · exact ih.trans (List.sublist_cons_self _ _)
    · exact ih.cons₂ _

theorem lookup_normObj {l : List (String × Json)} (hn : (l.map Prod.fst).Nodup) (k : String) :
    lookup k (normObj l) = match lookup k l with
      | some .null => none
      | some w => some (norm w)
      | none => none := by
  induction l with
  | nil => rfl
  | cons kv l ih =>
    obtain ⟨k', v⟩ := kv
    simp only [List.map_cons, List.nodup_cons] at hn
    simp only [normObj, lookup]
    by_cases hk : k = k'
    · subst hk
      cases v with
      | null =>
        simp only [isNull, if_true]
        rw [lookup_none_iff]
        intro h
        exact hn.1 ((normObj_keys_sublist l).mem h)
      | _ => simp [isNull, lookup]
    · rw [if_neg hk]
      split
      · exact ih hn.2
      · simp only [lookup, if_neg hk]; exact ih hn.2

theorem lookup_norm {l : List (String × Json)} (hn : (l.map Prod.fst).Nodup) (k : String) :
    lookup k (sortEntries (normObj l)) = match lookup k l with
      | some .null => none
      | some w => some (norm w)
      | none => none := by
  rw [lookup_perm (sortEntries_perm _) _ k, lookup_normObj hn]
  exact ((sortEntries_perm _).map _).nodup_iff.mpr (hn.sublist (normObj_keys_sublist l))

theorem uniqueKeysObj_mem {l : List (String × Json)} (h : UniqueKeysObj l) {kv} (hm : kv ∈ l) :
    UniqueKeys kv.2 := by
  induction l with
  | nil => cases hm
  | cons x l ih =>
    obtain ⟨k, v⟩ := x
    simp only [UniqueKeysObj] at h
    rcases List.mem_cons.mp hm with rfl | hm
    · exact h.1
    · exact ih h.2 hm

theorem uniqueKeysArr_mem {l : List Json} (h : UniqueKeysArr l) {v} (hm : v ∈ l) : UniqueKeys v := by
  induction l with
  | nil => cases hm
  | cons x l ih =>
    simp only [UniqueKeysArr] at h
    rcases List.mem_cons.mp hm with rfl | hm
    · exact h.1
    · exact ih h.2 hm

theorem shape_norm (v : Json) : shape (norm v) = shape v := by
  cases v <;> simp [norm, shape, intText_eq, normArr_eq_map]

theorem observe_norm : ∀ (p : List Step) (v : Json), UniqueKeys v → observe (norm v) p = observe v p
  | [], v, _ => by simp [observe, shape_norm]
  | .key k :: p, v, hu => by
    cases v with
    | obj kvs =>
      simp only [UniqueKeys] at hu
      simp only [norm, observe, lookup_norm hu.1]
      cases hl : lookup k kvs with
      | none => simp
      | some w =>
        have := observe_norm p w (uniqueKeysObj_mem hu.2 (lookup_mem hl))
        cases w <;> simp_all [norm]
    | _ => simp [norm, observe]
  | .idx n :: p, v, hu => by
    cases v with
    | arr vs =>
      simp only [UniqueKeys] at hu
      simp only [norm, observe, normArr_eq_map, List.getElem?_map]
      cases hl : vs[n]? with
      | none => simp
      | some w =>
        simp only [Option.map_some]
        exact observe_norm p w (uniqueKeysArr_mem hu (List.mem_of_getElem? hl))
    | _ => simp [norm, observe]

/-! ### Canonical trees are determined by what can be observed -/

theorem canonicalObj_mem {l : List (String × Json)} (h : CanonicalObj l) {kv} (hm : kv ∈ l) :
    kv.2 ≠ .null ∧ Canonical kv.2 := by
  induction l with
  | nil => cases hm
  | cons x l ih =>
    obtain ⟨k, v⟩ := x
    simp only [CanonicalObj] at h
    rcases List.mem_cons.mp hm with rfl | hm
    · exact ⟨h.1, h.2.1⟩
    · exact ih h.2.2 hm

theorem canonicalObj_iff (l : List (String × Json)) :
    CanonicalObj l ↔ ∀ kv ∈ l, kv.2 ≠ .null ∧ Canonical kv.2 := by
  constructor
  · intro h kv hm; exact canonicalObj_mem h hm
  · induction l with
    | nil => intro _; trivial
    | cons kv l ih =>
      obtain ⟨k, v⟩ := kv
      intro h
      have := h (k, v) (by simp)
      exact ⟨this.1, this.2, ih fun kv hkv => h kv (by simp [hkv])⟩

mutual
theorem canonical_norm : ∀ v, UniqueKeys v → NoFloat v → Canonical (norm v)
  | .null, _, _ => trivial
  | .bool _, _, _ => trivial
  | .int _, _, _ => trivial
  | .float _, _, h => by simp [NoFloat] at h
  | .str _, _, _ => trivial
  | .arr vs, hu, h => canonicalArr_norm vs hu h
  | .obj kvs, hu, h => by
    simp only [UniqueKeys, NoFloat] at hu h
    have := canonicalObj_norm kvs hu.2 h
    simp only [norm, Canonical]
    refine ⟨sortEntries_strict _ (hu.1.sublist (normObj_keys_sublist kvs)), ?_⟩
    rw [canonicalObj_iff] at *
    intro kv hkv
    exact this kv (mem_sortEntries.mp hkv)
theorem canonicalArr_norm : ∀ vs, UniqueKeysArr vs → NoFloatArr vs → CanonicalArr (normArr vs)
  | [], _, _ => trivial
  | v :: vs, hu, h => ⟨canonical_norm v hu.1 h.1, canonicalArr_norm vs hu.2 h.2⟩
theorem canonicalObj_norm : ∀ kvs, UniqueKeysObj kvs → NoFloatObj kvs → CanonicalObj (normObj kvs)
  | [], _, _ => trivial
  | (k, v) :: kvs, hu, h => by
    simp only [normObj]
    split
    · exact canonicalObj_norm kvs hu.2 h.2
    · rename_i hn
      refine ⟨?_, canonical_norm v hu.1 h.1, canonicalObj_norm kvs hu.2 h.2⟩
      rw [ne_eq, norm_eq_null, ← isNull_iff]; exact hn
end

mutual
theorem noFloat_of_canonical : ∀ v, Canonical v → NoFloat v
  | .null, _ => trivial
  | .bool _, _ => trivial
  | .int _, _ => trivial
  | .float _, h => by simp [Canonical] at h
  | .str _, _ => trivial
  | .arr vs, h => noFloatArr_of_canonical vs h
  | .obj kvs, h => noFloatObj_of_canonical kvs h.2
theorem noFloatArr_of_canonical : ∀ vs, CanonicalArr vs → NoFloatArr vs
  | [], _ => trivial
  | v :: vs, h => ⟨noFloat_of_canonical v h.1, noFloatArr_of_canonical vs h.2⟩
theorem noFloatObj_of_canonical : ∀ kvs, CanonicalObj kvs → NoFloatObj kvs
  | [], _ => trivial
  | (_, v) :: kvs, h => ⟨noFloat_of_canonical v h.2.1, noFloatObj_of_canonical kvs h.2.2⟩
end

theorem pairwise_keys_nodup {l : List (String × Json)}
    (h : l.Pairwise fun a b => utf16 a.1 < utf16 b.1) : (l.map Prod.fst).Nodup := by
  rw [List.Nodup, List.pairwise_map]
  refine h.imp ?_
  intro a b hab heq
  rw [heq] at hab
  exact List.lt_irrefl _ hab

mutual
theorem uniqueKeys_of_canonical : ∀ v, Canonical v → UniqueKeys v
  | .null, _ => trivial
  | .bool _, _ => trivial
  | .int _, _ => trivial
  | .float _, _ => trivial
  | .str _, _ => trivial
  | .arr vs, h => uniqueKeysArr_of_canonical vs h
  | .obj kvs, h => ⟨pairwise_keys_nodup h.1, uniqueKeysObj_of_canonical kvs h.2⟩
theorem uniqueKeysArr_of_canonical : ∀ vs, CanonicalArr vs → UniqueKeysArr vs
  | [], _ => trivial
  | v :: vs, h => ⟨uniqueKeys_of_canonical v h.1, uniqueKeysArr_of_canonical vs h.2⟩
theorem uniqueKeysObj_of_canonical : ∀ kvs, CanonicalObj kvs → UniqueKeysObj kvs
  | [], _ => trivial
  | (_, v) :: kvs, h => ⟨uniqueKeys_of_canonical v h.2.1, uniqueKeysObj_of_canonical kvs h.2.2⟩
end

/-- What a member list shows at a key and path. -/
theorem observe_key (kvs : List (String × Json)) (hc : CanonicalObj kvs) (k : String) (p : List Step) :
    observe (.obj kvs) (.key k :: p) = (lookup k kvs).bind fun w => observe w p := by
  simp only [observe]
  cases hl : lookup k kvs with
  | none => rfl
  | some w =>
    have := (canonicalObj_mem hc (lookup_mem hl)).1
    cases w <;> simp_all

mutual
theorem canonical_ext : ∀ v w : Json, Canonical v → Canonical w → (∀ p, observe v p = observe w p) → v = w
  | .null, w, _, hw, h => by
    have := h []; cases w <;> simp_all [observe, shape, Canonical]
  | .bool _, w, _, hw, h => by
    have := h []; cases w <;> simp_all [observe, shape, Canonical]
  | .int _, w, hv, hw, h => by simp [Canonical] at hv
  | .float _, w, hv, hw, h => by simp [Canonical] at hv
  | .str _, w, _, hw, h => by
    have := h []; cases w <;> simp_all [observe, shape, Canonical]
  | .arr vs, w, hv, hw, h => by
    have h0 := h []
    cases w with
    | arr ws =>
      simp only [observe, shape, Option.some.injEq, Shape.array.injEq] at h0
      congr 1
      refine canonicalArr_ext vs ws hv hw h0 ?_
      intro n p
      have := h (.idx n :: p)
      simp only [observe] at this
      cases h1 : vs[n]? <;> cases h2 : ws[n]? <;> simp_all
    | _ => simp_all [observe, shape, Canonical]
  | .obj kvs, w, hv, hw, h => by
    have h0 := h []
    cases w with
    | obj ws =>
      simp only [Canonical] at hv hw
      congr 1
      refine canonicalObj_ext kvs ws hv.1 hv.2 hw.1 hw.2 ?_
      intro k p
      rw [← observe_key kvs hv.2, ← observe_key ws hw.2]
      exact h _
    | _ => simp_all [observe, shape, Canonical]
theorem canonicalArr_ext : ∀ vs ws : List Json, CanonicalArr vs → CanonicalArr ws →
    vs.length = ws.length →
    (∀ (n : Nat) p, (vs[n]?).bind (observe · p) = (ws[n]?).bind (observe · p)) → vs = ws
  | [], ws, _, _, hl, _ => by
    cases ws with
    | nil => rfl
    | cons _ _ => simp at hl
  | v :: vs, ws, hv, hw, hl, h => by
    cases ws with
    | nil => simp at hl
    | cons w ws =>
      simp only [CanonicalArr] at hv hw
      have h1 := canonical_ext v w hv.1 hw.1 (fun p => by simpa using h 0 p)
      have h2 := canonicalArr_ext vs ws hv.2 hw.2 (by simpa using hl)
        (fun n p => by simpa using h (n + 1) p)
      rw [h1, h2]
theorem canonicalObj_ext : ∀ kvs ws : List (String × Json),
    kvs.Pairwise (fun a b => utf16 a.1 < utf16 b.1) → CanonicalObj kvs →
    ws.Pairwise (fun a b => utf16 a.1 < utf16 b.1) → CanonicalObj ws →
    (∀ k p, (lookup k kvs).bind (observe · p) = (lookup k ws).bind (observe · p)) → kvs = ws
  | [], ws, _, _, _, _, h => by
    cases ws with
    | nil => rfl
    | cons w ws =>
      obtain ⟨k, w⟩ := w
      have := h k []
      simp [lookup, observe] at this
  | (k, v) :: kvs, ws, hp, hv, hq, hw, h => by
    cases ws with
    | nil =>
      have := h k []
      simp [lookup, observe] at this
    | cons w ws =>
      obtain ⟨l, w⟩ := w
      have hmem : ∀ x, x ∈ ((k, v) :: kvs).map Prod.fst ↔ x ∈ ((l, w) :: ws).map Prod.fst := by
        intro x
        have := h x []
        have e : ∀ o : Option Json, (o.bind (observe · [])) = none ↔ o = none := by
          intro o; cases o <;> simp [observe]
        rw [← not_iff_not, ← lookup_none_iff, ← lookup_none_iff, ← e, ← e (lookup x ((l, w) :: ws)), this]
      simp only [List.pairwise_cons] at hp hq
      have hkl : k = l := by
        have h1 := (hmem k).mp (by simp)
        have h2 := (hmem l).mpr (by simp)
        simp only [List.map_cons, List.mem_cons] at h1 h2
        rcases h1 with h1 | h1
        · exact h1
        rcases h2 with h2 | h2
        · exact h2.symm
        obtain ⟨x, hx, rfl⟩ := List.mem_map.mp h1
        obtain ⟨y, hy, rfl⟩ := List.mem_map.mp h2
        have a1 := hq.1 x hx
        have a2 := hp.1 y hy
        exact absurd (List.lt_trans a1 a2) (List.lt_irrefl _)
      subst hkl
      simp only [CanonicalObj] at hv hw
      have h1 := canonical_ext v w hv.2.1 hw.2.1 (fun p => by simpa [lookup] using h k p)
      subst h1
      have nk : k ∉ kvs.map Prod.fst := by
        intro hk
        obtain ⟨x, hx, hxk⟩ := List.mem_map.mp hk
        have := hp.1 x hx
        rw [hxk] at this
        exact List.lt_irrefl _ this
      have nw : k ∉ ws.map Prod.fst := by
        intro hk
        obtain ⟨x, hx, hxk⟩ := List.mem_map.mp hk
        have := hq.1 x hx
        rw [hxk] at this
        exact List.lt_irrefl _ this
      have h2 := canonicalObj_ext kvs ws hp.2 hv.2.2 hq.2 hw.2.2 (fun x p => by
        by_cases hx : x = k
        · subst hx
          rw [lookup_none_iff.mpr nk, lookup_none_iff.mpr nw]
        · simpa [lookup, hx] using h x p)
      rw [h2]
end

/-! ### Fixpoint -/

theorem norm_norm (v : Json) (hu : UniqueKeys v) (hf : NoFloat v) : norm (norm v) = norm v := by
  have hc := canonical_norm v hu hf
  have hu' := uniqueKeys_of_canonical _ hc
  have hf' := noFloat_of_canonical _ hc
  exact canonical_ext _ _ (canonical_norm _ hu' hf') hc (fun p => observe_norm p _ hu')

theorem norm_of_canonical (v : Json) (hc : Canonical v) : norm v = v := by
  have hu := uniqueKeys_of_canonical v hc
  exact canonical_ext _ _ (canonical_norm v hu (noFloat_of_canonical v hc)) hc
    (fun p => observe_norm p v hu)

/-! ### Heights -/

theorem heightObj_le_iff (l : List (String × Json)) (n : Nat) :
    heightObj l ≤ n ↔ ∀ kv ∈ l, height kv.2 ≤ n := by
  induction l with
  | nil => simp [heightObj]
  | cons kv l ih => obtain ⟨k, v⟩ := kv; simp [heightObj, ih]

mutual
theorem height_norm : ∀ v, height (norm v) ≤ height v
  | .null => by simp [norm]
  | .bool _ => by simp [norm]
  | .int _ => by simp [norm, height]
  | .float _ => by simp [norm]
  | .str _ => by simp [norm]
  | .arr vs => by have := heightArr_norm vs; simp only [norm, height]; omega
  | .obj kvs => by
    have := heightObj_norm kvs
    simp only [norm, height]
    have h : heightObj (sortEntries (normObj kvs)) ≤ heightObj kvs := by
      rw [heightObj_le_iff] at *
      intro kv hkv
      exact this kv (mem_sortEntries.mp hkv)
    omega
theorem heightArr_norm : ∀ vs, heightArr (normArr vs) ≤ heightArr vs
  | [] => by simp [normArr]
  | v :: vs => by
    have h1 := height_norm v
    have h2 := heightArr_norm vs
    simp only [normArr, heightArr]; omega
theorem heightObj_norm : ∀ kvs, heightObj (normObj kvs) ≤ heightObj kvs
  | [] => by simp [normObj]
  | (k, v) :: kvs => by
    have h1 := height_norm v
    have h2 := heightObj_norm kvs
    simp only [normObj]
    split
    · simp only [heightObj]; omega
    · simp only [heightObj]; omega
end

theorem canonBytes_eq {v : Json} (h : NoFloat v) : canonBytes v = some (writeBytes (norm v)) := by
  simp [canonBytes, canon_some v h, writeBytes]

theorem canonBytes_some {v : Json} {b : Bytes} (h : canonBytes v = some b) :
    NoFloat v ∧ b = writeBytes (norm v) := by
  unfold canonBytes at h
  rw [Option.map_eq_some_iff] at h
  obtain ⟨t, ht, rfl⟩ := h
  have hf := noFloat_of_canon v t ht
  rw [canon_some v hf] at ht
  cases ht
  exact ⟨hf, rfl⟩

theorem writeBytes_injective {v w : Json} (hv : Plain v) (hw : Plain w)
    (h : writeBytes v = writeBytes w) : v = w := write_injective hv hw (utf8Chars_injective h)

/-- Reading back canonical bytes gives the normal form. -/
theorem parse_canonBytes {v : Json} {b : Bytes} (h : canonBytes v = some b) (hh : height v < 128) :
    parse b = some (norm v) := by
  obtain ⟨hf, rfl⟩ := canonBytes_some h
  exact parse_writeBytes _ (plain_norm v hf) (Nat.lt_of_le_of_lt (height_norm v) hh)

end Qos.Json
