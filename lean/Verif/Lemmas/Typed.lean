import Verif.Model.Typed
import Verif.Lemmas.JsonCanon
import Verif.Lemmas.Hex
import Verif.Props.Hex
namespace Qos
open Json

/-- A type whose JSON form can be read back, both as written by `serde_json` and after canonical
QOS rewriting (keys sorted, integers as strings, null members dropped). -/
structure JCodec.Lawful {α : Type} (c : JCodec α) : Prop where
  dec_enc : ∀ a, c.ok a → c.dec (c.enc a) = some a
  dec_norm : ∀ a, c.ok a → c.dec (norm (c.enc a)) = some a
  dec_ok : ∀ v a, c.dec v = some a → c.ok a
  dec_null : c.dec .null = none
  plain : ∀ a, c.ok a → Plain (c.enc a)
  unique : ∀ a, c.ok a → UniqueKeys (c.enc a)
  height : ∀ a, height (c.enc a) ≤ c.depth

/-- A value is never written as `null`. -/
theorem JCodec.Lawful.ne_null {α : Type} {c : JCodec α} (h : c.Lawful) {a : α} (ha : c.ok a) :
    c.enc a ≠ .null := by
  intro hn
  have := h.dec_enc a ha
  rw [hn, h.dec_null] at this
  cases this

/-- Lookup after canonical rewriting. -/
def normLook (kvs : List (String × Json)) (k : String) : Option Json := (lookup k kvs).map norm

structure Fields.Lawful {α : Type} (f : Fields α) : Prop where
  nodup : f.keys.Nodup
  sub : ∀ a, ((f.enc a).map Prod.fst).Sublist f.keys
  dec_enc : ∀ a look, f.ok a → (∀ k ∈ f.keys, look k = lookup k (f.enc a)) → f.dec look = some a
  dec_norm : ∀ a look, f.ok a → (∀ k ∈ f.keys, look k = normLook (f.enc a) k) → f.dec look = some a
  dec_ok : ∀ look a, f.dec look = some a → f.ok a
  plain : ∀ a, f.ok a → PlainObj (f.enc a)
  unique : ∀ a, f.ok a → UniqueKeysObj (f.enc a)
  ne_null : ∀ a, f.ok a → ∀ kv ∈ f.enc a, kv.2 ≠ .null
  height : ∀ a, heightObj (f.enc a) ≤ f.depth

namespace JCodec

theorem lawful_string : string.Lawful where
  dec_enc _ _ := rfl
  dec_norm _ _ := rfl
  dec_ok _ _ _ := trivial
  dec_null := rfl
  plain _ _ := trivial
  unique _ _ := trivial
  height _ := Nat.le_refl _

theorem lawful_bool : bool.Lawful where
  dec_enc _ _ := rfl
  dec_norm _ _ := rfl
  dec_ok _ _ _ := trivial
  dec_null := rfl
  plain _ _ := trivial
  unique _ _ := trivial
  height _ := Nat.le_refl _

theorem lawful_stringOrNumeric (bound : Nat) (hb : bound ≤ 2 ^ 64) : (stringOrNumeric bound).Lawful where
  dec_enc n h := by
    simp only [stringOrNumeric, numText]
    exact parseUnsigned_natText h
  dec_norm n h := by
    simp only [stringOrNumeric, norm, numText, String.toList_ofList]
    exact parseUnsigned_natText h
  dec_ok v n h := by
    simp only [stringOrNumeric] at h
    split at h
    · exact parseUnsigned_lt h
    · cases h
  dec_null := rfl
  plain n h := by
    have h' : n < bound := h
    simp only [stringOrNumeric, Plain]
    constructor
    · have : (0 : Int) ≤ n := Int.natCast_nonneg n
      omega
    · have : n < 2 ^ 64 := Nat.lt_of_lt_of_le h' hb
      exact_mod_cast this
  unique _ _ := trivial
  height _ := Nat.le_refl _

theorem utf8_bytesText {b : Bytes} (h : ∀ x ∈ b, x < 128) : utf8 (bytesText b) = b := by
  unfold utf8 bytesText
  rw [String.toList_ofList]
  induction b with
  | nil => rfl
  | cons x b ih =>
    have hx : x < 128 := h x (by simp)
    have key : ∀ n : Fin 128, String.utf8EncodeChar (Char.ofNat n.val) = [UInt8.ofNat n.val] := by
      decide +kernel
    have := key ⟨x.toNat, by simpa [UInt8.lt_iff_toNat_lt] using hx⟩
    simp only [UInt8.ofNat_toNat] at this
    simp only [List.map_cons, List.flatMap_cons, this]
    rw [ih fun y hy => h y (by simp [hy])]
    rfl

theorem encode_ascii (b : Bytes) : ∀ x ∈ Hex.encode b, x < 128 := by
  intro x hx
  simp only [Hex.encode, List.mem_flatMap] at hx
  obtain ⟨y, -, hy⟩ := hx
  have key : ∀ y : Fin 256, ∀ x ∈ Hex.byteChars (UInt8.ofNat y.val), x < 128 := by decide +kernel
  have := key ⟨y.toNat, y.toNat_lt⟩
  simp only [UInt8.ofNat_toNat] at this
  exact this x hy

theorem utf8_hexText (b : Bytes) : utf8 (bytesText (Hex.encode b)) = Hex.encode b :=
  utf8_bytesText (encode_ascii b)

theorem decode_ok_length {s r : Bytes} (h : Hex.decode s = .ok r) : 2 * r.length < Hex.strMaxLength := by
  unfold Hex.decode at h
  split at h
  · cases h; decide
  · split at h
    · cases h
    · simp only at h
      split at h
      · rename_i hl
        split at h
        · rename_i he
          rw [← Hex.decodePairs_length h he]; exact hl
        · cases h
      · cases h

theorem decodeToBuf_ok_length {s r : Bytes} {n : Nat} (h : Hex.decodeToBuf s n = .ok r) :
    r.length = n := by
  unfold Hex.decodeToBuf at h
  split at h
  · split at h
    · cases h; simp_all
    · cases h
  · split at h
    · cases h
    · simp only at h
      split at h
      · cases h
      · rename_i he
        split at h
        · cases h
        · rename_i hn
          have := Hex.decodePairs_length h (by omega)
          omega

theorem toOption_some {ε α : Type} {x : Except ε α} {a : α} (h : x.toOption = some a) : x = .ok a := by
  cases x <;> simp_all [Except.toOption]

theorem lawful_hexVec : hexVec.Lawful where
  dec_enc b h := by
    simp only [hexVec, utf8_hexText]
    rw [Hex.hex_decode_encode b h]; rfl
  dec_norm b h := by
    simp only [hexVec, norm, utf8_hexText]
    rw [Hex.hex_decode_encode b h]; rfl
  dec_ok v b h := by
    cases v <;> simp only [hexVec, reduceCtorEq] at h
    exact decode_ok_length (toOption_some h)
  dec_null := rfl
  plain _ _ := trivial
  unique _ _ := trivial
  height _ := Nat.le_refl _

theorem lawful_hexArray (n : Nat) : (hexArray n).Lawful where
  dec_enc b h := by
    have h' : b.length = n := h
    simp only [hexArray, utf8_hexText]
    rw [Hex.hex_decodeToBuf_encode b n, if_pos h']; rfl
  dec_norm b h := by
    have h' : b.length = n := h
    simp only [hexArray, norm, utf8_hexText]
    rw [Hex.hex_decodeToBuf_encode b n, if_pos h']; rfl
  dec_ok v b h := by
    cases v <;> simp only [hexArray, reduceCtorEq] at h
    exact decodeToBuf_ok_length (toOption_some h)
  dec_null := rfl
  plain _ _ := trivial
  unique _ _ := trivial
  height _ := Nat.le_refl _

theorem decAll_of {α : Type} {c : JCodec α} (g : α → Json) (l : List α)
    (h : ∀ a ∈ l, c.dec (g a) = some a) : decAll c (l.map g) = some l := by
  induction l with
  | nil => rfl
  | cons a l ih =>
    simp only [List.map_cons, decAll, h a (by simp), ih fun x hx => h x (by simp [hx])]

theorem decAll_ok {α : Type} {c : JCodec α} (hc : c.Lawful) {vs : List Json} {l : List α}
    (h : decAll c vs = some l) : ∀ a ∈ l, c.ok a := by
  induction vs generalizing l with
  | nil => simp only [decAll, Option.some.injEq] at h; subst h; simp
  | cons v vs ih =>
    simp only [decAll] at h
    split at h
    · rename_i a as h1 h2
      simp only [Option.some.injEq] at h; subst h
      intro x hx
      rcases List.mem_cons.mp hx with rfl | hx
      · exact hc.dec_ok _ _ h1
      · exact ih h2 x hx
    · cases h

theorem lawful_vec {α : Type} {c : JCodec α} (hc : c.Lawful) : (vec c).Lawful where
  dec_enc l h := by
    simp only [vec]
    exact decAll_of c.enc l fun a ha => hc.dec_enc a (h a ha)
  dec_norm l h := by
    simp only [vec, norm, normArr_eq_map, List.map_map]
    exact decAll_of (norm ∘ c.enc) l fun a ha => hc.dec_norm a (h a ha)
  dec_ok v l h := by
    cases v <;> simp only [vec, reduceCtorEq] at h
    exact decAll_ok hc h
  dec_null := rfl
  plain l h := by
    simp only [vec, Plain, plainArr_iff, List.mem_map]
    rintro v ⟨a, ha, rfl⟩
    exact hc.plain a (h a ha)
  unique l h := by
    simp only [vec, UniqueKeys]
    have h' : ∀ a ∈ l, c.ok a := h
    clear h
    induction l with
    | nil => trivial
    | cons a l ih => exact ⟨hc.unique a (h' a (by simp)), ih fun x hx => h' x (by simp [hx])⟩
  height l := by
    simp only [vec, Json.height]
    have : heightArr (l.map c.enc) ≤ c.depth := by
      induction l with
      | nil => simp [heightArr]
      | cons a l ih => simp only [List.map_cons, heightArr]; exact Nat.max_le.mpr ⟨hc.height a, ih⟩
    omega

theorem lawful_imap {α β : Type} {f : α → β} {g : β → α} {c : JCodec α} (hc : c.Lawful)
    (h1 : ∀ b, f (g b) = b) (h2 : ∀ a, c.ok a → c.ok (g (f a))) : (imap f g c).Lawful where
  dec_enc b h := by simp only [imap, hc.dec_enc _ h, Option.map_some, h1]
  dec_norm b h := by simp only [imap, hc.dec_norm _ h, Option.map_some, h1]
  dec_ok v b h := by
    simp only [imap, Option.map_eq_some_iff] at h
    obtain ⟨a, ha, rfl⟩ := h
    exact h2 a (hc.dec_ok _ _ ha)
  dec_null := by simp [imap, hc.dec_null]
  plain b h := hc.plain _ h
  unique b h := hc.unique _ h
  height b := hc.height _

theorem decEntries_of {α : Type} {deny : Bool} {f : Fields α} {kvs : List (String × Json)}
    (hn : (kvs.map Prod.fst).Nodup) (hs : ∀ k ∈ kvs.map Prod.fst, k ∈ f.keys) :
    decEntries deny f kvs = f.dec fun k => Json.lookup k kvs := by
  unfold decEntries
  rw [if_pos (hn.filter _), if_neg]
  simp only [Bool.and_eq_true, Bool.not_eq_true', List.all_eq_false, not_and]
  rintro -
  rintro ⟨k, hk, hk'⟩
  exact hk' (List.contains_iff_mem.mpr (hs k hk))

theorem lookup_norm_nonnull {l : List (String × Json)} (hn : (l.map Prod.fst).Nodup)
    (h : ∀ kv ∈ l, kv.2 ≠ .null) (k : String) :
    lookup k (sortEntries (normObj l)) = normLook l k := by
  rw [lookup_norm hn]
  unfold normLook
  cases hl : lookup k l with
  | none => rfl
  | some v =>
    have := h _ (lookup_mem hl)
    cases v <;> simp_all

theorem lawful_struct {α : Type} {deny : Bool} {f : Fields α} (hf : f.Lawful) :
    (struct deny f).Lawful where
  dec_enc a h := by
    have hn : ((f.enc a).map Prod.fst).Nodup := (hf.sub a).nodup hf.nodup
    simp only [struct, entriesOf]
    rw [decEntries_of hn fun k hk => (hf.sub a).subset hk]
    exact hf.dec_enc a _ h fun k _ => rfl
  dec_norm a h := by
    have hn : ((f.enc a).map Prod.fst).Nodup := (hf.sub a).nodup hf.nodup
    have hsub := normObj_keys_sublist (f.enc a)
    have hperm := (sortEntries_perm (normObj (f.enc a))).map Prod.fst
    simp only [struct, norm, entriesOf]
    rw [decEntries_of (hperm.nodup_iff.mpr (hsub.nodup hn))
      fun k hk => (hf.sub a).subset (hsub.subset (hperm.mem_iff.mp hk))]
    exact hf.dec_norm a _ h fun k _ => lookup_norm_nonnull hn (hf.ne_null a h) k
  dec_ok v a h := by
    simp only [struct] at h
    split at h
    · unfold decEntries at h
      split at h
      · split at h
        · cases h
        · exact hf.dec_ok _ _ h
      · cases h
    · cases h
  dec_null := rfl
  plain a h := hf.plain a h
  unique a h := ⟨(hf.sub a).nodup hf.nodup, hf.unique a h⟩
  height a := by
    have := hf.height a
    simp only [struct, Json.height]; omega

end JCodec

namespace Fields

theorem lawful_req {α : Type} {k : String} {c : JCodec α} (hc : c.Lawful) : (req k c).Lawful where
  nodup := List.nodup_singleton k
  sub a := by simp [req]
  dec_enc a look h hl := by
    have : look k = some (c.enc a) := by rw [hl k (by simp [req])]; simp [req, lookup]
    simp only [req, this]; exact hc.dec_enc a h
  dec_norm a look h hl := by
    have : look k = some (norm (c.enc a)) := by
      rw [hl k (by simp [req])]; simp [req, normLook, lookup]
    simp only [req, this]; exact hc.dec_norm a h
  dec_ok look a h := by
    simp only [req] at h
    split at h
    · exact hc.dec_ok _ _ h
    · cases h
  plain a h := ⟨hc.plain a h, trivial⟩
  unique a h := ⟨hc.unique a h, trivial⟩
  ne_null a h := by
    intro kv hkv
    simp only [req, List.mem_singleton] at hkv
    subst hkv; exact hc.ne_null h
  height a := by simp only [req, heightObj]; exact Nat.max_le.mpr ⟨hc.height a, Nat.zero_le _⟩

theorem lawful_opt {α : Type} {k : String} {c : JCodec α} (hc : c.Lawful) : (opt k c).Lawful where
  nodup := List.nodup_singleton k
  sub a := by cases a <;> simp [opt]
  dec_enc a look h hl := by
    have hl := hl k (by simp [opt])
    cases a with
    | none => simp only [opt, lookup] at hl; simp [opt, hl]
    | some a =>
      simp only [opt, lookup, if_true] at hl
      have hd := hc.dec_enc a h
      have hn := hc.ne_null (a := a) h
      simp only [opt, hl]
      rw [hd]; rfl
  dec_norm a look h hl := by
    have hl := hl k (by simp [opt])
    cases a with
    | none => simp only [opt, normLook, lookup] at hl; simp [opt, hl]
    | some a =>
      simp only [opt, normLook, lookup, if_true, Option.map_some] at hl
      have hd := hc.dec_norm a h
      have hn : norm (c.enc a) ≠ .null := fun hn => hc.ne_null (a := a) h (norm_eq_null.mp hn)
      simp only [opt, hl]
      rw [hd]; rfl
  dec_ok look a h := by
    simp only [opt] at h
    split at h
    · cases h; trivial
    · rw [Option.map_eq_some_iff] at h
      obtain ⟨b, hb, rfl⟩ := h
      exact hc.dec_ok _ _ hb
    · cases h; trivial
  plain a h := by
    cases a with
    | none => trivial
    | some a => exact ⟨hc.plain a h, trivial⟩
  unique a h := by
    cases a with
    | none => trivial
    | some a => exact ⟨hc.unique a h, trivial⟩
  ne_null a h := by
    intro kv hkv
    cases a with
    | none => simp [opt] at hkv
    | some a =>
      simp only [opt, List.mem_singleton] at hkv
      subst hkv; exact hc.ne_null (a := a) h
  height a := by
    cases a with
    | none => simp [opt, heightObj]
    | some a => simp only [opt, heightObj]; exact Nat.max_le.mpr ⟨hc.height a, Nat.zero_le _⟩

theorem lawful_orEmpty {α : Type} {k : String} {c : JCodec (List α)} (hc : c.Lawful) (h0 : c.ok []) :
    (orEmpty k c).Lawful where
  nodup := List.nodup_singleton k
  sub a := by simp only [orEmpty]; split <;> simp
  dec_enc a look h hl := by
    have hl := hl k (by simp [orEmpty])
    cases a with
    | nil => simp only [orEmpty, List.isEmpty_nil, if_true, lookup] at hl; simp [orEmpty, hl]
    | cons x a =>
      simp only [orEmpty, List.isEmpty_cons, Bool.false_eq_true, if_false, lookup, if_true] at hl
      simp only [orEmpty, hl]; exact hc.dec_enc _ h
  dec_norm a look h hl := by
    have hl := hl k (by simp [orEmpty])
    cases a with
    | nil => simp only [orEmpty, normLook, List.isEmpty_nil, if_true, lookup] at hl; simp [orEmpty, hl]
    | cons x a =>
      simp only [orEmpty, normLook, List.isEmpty_cons, Bool.false_eq_true, if_false, lookup, if_true,
        Option.map_some] at hl
      simp only [orEmpty, hl]; exact hc.dec_norm _ h
  dec_ok look a h := by
    simp only [orEmpty] at h
    split at h
    · exact hc.dec_ok _ _ h
    · cases h; exact h0
  plain a h := by
    simp only [orEmpty]; split
    · trivial
    · exact ⟨hc.plain a h, trivial⟩
  unique a h := by
    simp only [orEmpty]; split
    · trivial
    · exact ⟨hc.unique a h, trivial⟩
  ne_null a h := by
    intro kv hkv
    simp only [orEmpty] at hkv
    split at hkv
    · simp at hkv
    · simp only [List.mem_singleton] at hkv
      subst hkv; exact hc.ne_null (a := a) h
  height a := by
    simp only [orEmpty]; split
    · simp [heightObj]
    · simp only [heightObj]; exact Nat.max_le.mpr ⟨hc.height a, Nat.zero_le _⟩

theorem lookup_append (k : String) (l m : List (String × Json)) :
    lookup k (l ++ m) = (lookup k l).or (lookup k m) := by
  induction l with
  | nil => simp [lookup]
  | cons kv l ih => obtain ⟨k', v⟩ := kv; simp only [List.cons_append, lookup]; split <;> simp [*]

theorem lawful_both {α β : Type} {f : Fields α} {g : Fields β} (hf : f.Lawful) (hg : g.Lawful)
    (hd : ∀ k ∈ f.keys, k ∉ g.keys) : (both f g).Lawful where
  nodup := by
    simp only [both]
    exact List.nodup_append.mpr ⟨hf.nodup, hg.nodup, fun a ha b hb hab => hd a ha (hab ▸ hb)⟩
  sub a := by
    simp only [both, List.map_append]
    exact (hf.sub a.1).append (hg.sub a.2)
  dec_enc a look h hl := by
    have h1 : f.dec look = some a.1 := hf.dec_enc a.1 look h.1 fun k hk => by
      rw [hl k (by simp [both, hk])]
      simp only [both, lookup_append]
      have : lookup k (g.enc a.2) = none :=
        lookup_none_iff.mpr fun hm => hd k hk ((hg.sub a.2).subset hm)
      rw [this]; simp
    have h2 : g.dec look = some a.2 := hg.dec_enc a.2 look h.2 fun k hk => by
      rw [hl k (by simp [both, hk])]
      simp only [both, lookup_append]
      have : lookup k (f.enc a.1) = none :=
        lookup_none_iff.mpr fun hm => hd k ((hf.sub a.1).subset hm) hk
      rw [this]; simp
    simp only [both, h1, h2]
  dec_norm a look h hl := by
    have h1 : f.dec look = some a.1 := hf.dec_norm a.1 look h.1 fun k hk => by
      rw [hl k (by simp [both, hk])]
      simp only [both, normLook, lookup_append]
      have : lookup k (g.enc a.2) = none :=
        lookup_none_iff.mpr fun hm => hd k hk ((hg.sub a.2).subset hm)
      rw [this]; simp
    have h2 : g.dec look = some a.2 := hg.dec_norm a.2 look h.2 fun k hk => by
      rw [hl k (by simp [both, hk])]
      simp only [both, normLook, lookup_append]
      have : lookup k (f.enc a.1) = none :=
        lookup_none_iff.mpr fun hm => hd k ((hf.sub a.1).subset hm) hk
      rw [this]; simp
    simp only [both, h1, h2]
  dec_ok look a h := by
    simp only [both] at h
    split at h
    · rename_i x hx
      split at h
      · rename_i y hy
        cases h
        exact ⟨hf.dec_ok _ _ hx, hg.dec_ok _ _ hy⟩
      · cases h
    · cases h
  plain a h := by
    have h1 := (plainObj_iff _).mp (hf.plain a.1 h.1)
    have h2 := (plainObj_iff _).mp (hg.plain a.2 h.2)
    simp only [both]
    rw [plainObj_iff]
    intro kv hkv
    rcases List.mem_append.mp hkv with hm | hm
    · exact h1 kv hm
    · exact h2 kv hm
  unique a h := by
    have h1 := hf.unique a.1 h.1
    have h2 := hg.unique a.2 h.2
    simp only [both]
    generalize f.enc a.1 = l at h1
    induction l with
    | nil => exact h2
    | cons kv l ih => obtain ⟨k, v⟩ := kv; exact ⟨h1.1, ih h1.2⟩
  ne_null a h := by
    intro kv hkv
    simp only [both] at hkv
    rcases List.mem_append.mp hkv with hm | hm
    · exact hf.ne_null a.1 h.1 kv hm
    · exact hg.ne_null a.2 h.2 kv hm
  height a := by
    have h1 := (heightObj_le_iff _ _).mp (hf.height a.1)
    have h2 := (heightObj_le_iff _ _).mp (hg.height a.2)
    simp only [both]
    rw [heightObj_le_iff]
    intro kv hkv
    rcases List.mem_append.mp hkv with hm | hm
    · exact Nat.le_trans (h1 kv hm) (Nat.le_max_left _ _)
    · exact Nat.le_trans (h2 kv hm) (Nat.le_max_right _ _)

theorem lawful_imap {α β : Type} {fwd : α → β} {back : β → α} {f : Fields α} (hf : f.Lawful)
    (h1 : ∀ b, fwd (back b) = b) (h2 : ∀ a, f.ok a → f.ok (back (fwd a))) :
    (imap fwd back f).Lawful where
  nodup := hf.nodup
  sub b := hf.sub _
  dec_enc b look h hl := by
    simp only [imap] at *
    rw [hf.dec_enc (back b) look h hl]; simp [h1]
  dec_norm b look h hl := by
    simp only [imap] at *
    rw [hf.dec_norm (back b) look h hl]; simp [h1]
  dec_ok look b h := by
    simp only [imap, Option.map_eq_some_iff] at h
    obtain ⟨a, ha, rfl⟩ := h
    exact h2 a (hf.dec_ok _ _ ha)
  plain b h := hf.plain _ h
  unique b h := hf.unique _ h
  ne_null b h := hf.ne_null _ h
  height b := hf.height _

end Fields

/-! ### Text level -/

theorem JCodec.Lawful.parse_write {α : Type} {c : JCodec α} (h : c.Lawful) (hd : c.depth < 128) {a : α}
    (ha : c.ok a) : parse (writeBytes (c.enc a)) = some (c.enc a) :=
  parse_writeBytes _ (h.plain a ha) (Nat.lt_of_le_of_lt (h.height a) hd)

mutual
theorem noFloat_of_plain : ∀ v, Plain v → NoFloat v
  | .null, _ => trivial
  | .bool _, _ => trivial
  | .int _, _ => trivial
  | .float _, h => h
  | .str _, _ => trivial
  | .arr vs, h => noFloatArr_of_plain vs h
  | .obj kvs, h => noFloatObj_of_plain kvs h
theorem noFloatArr_of_plain : ∀ vs, PlainArr vs → NoFloatArr vs
  | [], _ => trivial
  | v :: vs, h => ⟨noFloat_of_plain v h.1, noFloatArr_of_plain vs h.2⟩
theorem noFloatObj_of_plain : ∀ kvs, PlainObj kvs → NoFloatObj kvs
  | [], _ => trivial
  | (_, v) :: kvs, h => ⟨noFloat_of_plain v h.1, noFloatObj_of_plain kvs h.2⟩
end

theorem JCodec.Lawful.canon {α : Type} {c : JCodec α} (h : c.Lawful) {a : α} (ha : c.ok a) :
    canonBytes (c.enc a) = some (writeBytes (norm (c.enc a))) :=
  canonBytes_eq (noFloat_of_plain _ (h.plain a ha))

theorem JCodec.Lawful.parse_canon {α : Type} {c : JCodec α} (h : c.Lawful) (hd : c.depth < 128) {a : α}
    (ha : c.ok a) : parse (writeBytes (norm (c.enc a))) = some (norm (c.enc a)) :=
  parse_canonBytes (h.canon ha) (Nat.lt_of_le_of_lt (h.height a) hd)

/-- Canonical text is injective on values of the type. -/
theorem JCodec.Lawful.canon_injective {α : Type} {c : JCodec α} (h : c.Lawful) (hd : c.depth < 128)
    {a b : α} (ha : c.ok a) (hb : c.ok b) (e : canonBytes (c.enc a) = canonBytes (c.enc b)) : a = b := by
  rw [h.canon ha, h.canon hb, Option.some.injEq] at e
  have h1 := h.parse_canon hd ha
  rw [e, h.parse_canon hd hb, Option.some.injEq] at h1
  have h2 := h.dec_norm a ha
  rw [← h1, h.dec_norm b hb] at h2
  simpa using h2.symm

end Qos
