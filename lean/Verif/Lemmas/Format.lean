import Verif.Spec.Format
import Verif.Lemmas.Manifest
import Verif.Lemmas.HostCli
import Verif.Props.Ip
namespace Qos.Format
open Json

/-! ## Scalars -/

theorem text_iff {v : Json} {s : String} : JCodec.string.dec v = some s ↔ IsText v s := by
  cases v <;> simp [JCodec.string, IsText]

theorem flag_iff {v : Json} {b : Bool} : JCodec.bool.dec v = some b ↔ IsFlag v b := by
  cases v <;> simp [JCodec.bool, IsFlag]

theorem parse_nat {bound k n : Nat} : parseUnsigned bound (natText k) = some n ↔ k = n ∧ n < bound := by
  constructor
  · intro h
    have e : natText k = (String.ofList (natText k)).toList := String.toList_ofList.symm
    obtain ⟨h1, h2⟩ := HostCli.parseUnsigned_iff.mp (e ▸ h)
    have h3 : parseUnsigned (max n k + 1) (natText k) = some k := parseUnsigned_natText (by omega)
    have h4 : parseUnsigned (max n k + 1) (natText k) = some n := by
      rw [e]; exact HostCli.parseUnsigned_iff.mpr ⟨h1, by omega⟩
    rw [h3] at h4
    exact ⟨Option.some.inj h4, h2⟩
  · rintro ⟨rfl, h⟩; exact parseUnsigned_natText h

theorem number_iff {bound : Nat} {v : Json} {n : Nat} :
    (JCodec.stringOrNumeric bound).dec v = some n ↔ IsNumber v n ∧ n < bound := by
  cases v with
  | str s => simp [JCodec.stringOrNumeric, JCodec.numText, IsNumber, HostCli.parseUnsigned_iff]
  | int i =>
    simp only [JCodec.stringOrNumeric, JCodec.numText, IsNumber, Json.int.injEq, reduceCtorEq, false_and, exists_false, or_false]
    cases i with
    | ofNat k =>
      refine Iff.trans (parse_nat (bound := bound) (k := k)) ?_
      simp only [Int.ofNat_eq_natCast, Int.natCast_inj]
    | negSucc k =>
      have e : intText (Int.negSucc k) = '-' :: natText (k + 1) := rfl
      have e2 : parseUnsigned bound ('-' :: natText (k + 1)) = none := by
        have : stripPlus ('-' :: natText (k + 1)) = '-' :: natText (k + 1) := by
          unfold stripPlus; split <;> simp_all
        simp [parseUnsigned, this, digitsNat, show digitNat '-' = none from by decide]
      rw [e, e2]
      simp only [reduceCtorEq, false_and]
  | _ => simp [JCodec.stringOrNumeric, JCodec.numText, IsNumber]

theorem u16_iff {v : Json} {n : UInt16} : JCodec.u16.dec v = some n ↔ IsNumber v n.toNat := by
  simp only [JCodec.u16, JCodec.imap, Option.map_eq_some_iff, number_iff]
  constructor
  · rintro ⟨a, ⟨h1, h2⟩, rfl⟩
    rwa [UInt16.toNat_ofNat_of_lt' h2]
  · intro h; exact ⟨n.toNat, ⟨h, n.toNat_lt⟩, by simp⟩

theorem u32_iff {v : Json} {n : UInt32} : JCodec.u32.dec v = some n ↔ IsNumber v n.toNat := by
  simp only [JCodec.u32, JCodec.imap, Option.map_eq_some_iff, number_iff]
  constructor
  · rintro ⟨a, ⟨h1, h2⟩, rfl⟩
    rwa [UInt32.toNat_ofNat_of_lt' h2]
  · intro h; exact ⟨n.toNat, ⟨h, n.toNat_lt⟩, by simp⟩

/-! ## Hex -/

theorem text_length {s r : Bytes} (h : Hex.Text s r) : s.length = 2 * r.length := by
  induction h with
  | nil => rfl
  | cons _ _ ih => simp only [List.length_cons, ih]; omega

theorem text_no_prefix {t r : Bytes} (h : Hex.Text (ascii "0x" ++ t) r) : False := by
  have e : ascii "0x" ++ t = 48 :: 120 :: t := rfl
  rw [e] at h
  cases h with
  | cons hp _ =>
    have nox : ∀ d, ¬ Hex.Digit 120 d := by
      intro d hd
      have key : ∀ d : Fin 16, ¬ ((ascii "0123456789abcdef")[d.val]? = some 120 ∨ (ascii "0123456789ABCDEF")[d.val]? = some 120) := by
        decide
      have hlt : d < 16 := by
        rcases hd with h | h <;>
        · have := (List.getElem?_eq_some_iff.1 h).1
          simpa [ascii] using this
      exact key ⟨d, hlt⟩ hd
    cases hp with
    | digits _ h2 => exact nox _ h2

theorem decode_iff {raw r : Bytes} : Hex.decode raw = .ok r ↔
    ∃ body, Hex.Text body r ∧ (raw = ascii "0x" ++ body ∨ raw = body) ∧ r.length < 128 * 1024 * 1024 := by
  rw [Hex.hex_decode_accepts_iff]
  constructor
  · rintro (⟨rfl, rfl⟩ | ⟨h1, body, h2, h3, h4⟩)
    · exact ⟨[], .nil, .inr rfl, by decide⟩
    · refine ⟨body, h3, ?_, ?_⟩
      · rcases h4 with h | ⟨h, -, -⟩
        · exact .inl h
        · exact .inr h
      · have := text_length h3; omega
  · rintro ⟨body, h1, h2, h3⟩
    have hl := text_length h1
    rcases h2 with rfl | rfl
    · exact .inr ⟨by simp [ascii], body, by omega, h1, .inl rfl⟩
    · cases h1 with
      | nil => exact .inl ⟨rfl, rfl⟩
      | @cons a b v s r hp ht =>
        refine .inr ⟨by simp, a :: b :: s, by omega, .cons hp ht, .inr ⟨rfl, by simp, ?_⟩⟩
        rintro ⟨t, e⟩
        exact text_no_prefix (e ▸ Hex.Text.cons hp ht)

theorem hexVec_iff {v : Json} {b : Bytes} : JCodec.hexVec.dec v = some b ↔ IsHex v b := by
  unfold IsHex
  cases v with
  | str s =>
    have : JCodec.hexVec.dec (.str s) = some b ↔ Hex.decode (utf8 s) = .ok b := by
      simp only [JCodec.hexVec]
      cases Hex.decode (utf8 s) <;> simp [Except.toOption]
    rw [this, decode_iff]
    constructor
    · rintro ⟨body, h⟩; exact ⟨s, body, rfl, h⟩
    · rintro ⟨s', body, e, h⟩
      cases e
      exact ⟨body, h⟩
  | _ => simp [JCodec.hexVec]

theorem decodeToBuf_iff {raw r : Bytes} {n : Nat} (hn : n < 128 * 1024 * 1024) :
    Hex.decodeToBuf raw n = .ok r ↔ Hex.decode raw = .ok r ∧ r.length = n := by
  unfold Hex.decodeToBuf Hex.decode
  by_cases h0 : raw.length = 0
  · rw [if_pos h0, if_pos h0]
    by_cases hz : n = 0
    · rw [if_pos hz]
      subst hz
      simp only [Except.ok.injEq]
      constructor
      · rintro rfl; exact ⟨rfl, rfl⟩
      · exact fun h => h.1
    · rw [if_neg hz]
      simp only [reduceCtorEq, Except.ok.injEq, false_iff]
      rintro ⟨rfl, h⟩; exact hz h.symm
  · rw [if_neg h0, if_neg h0]
    by_cases h1 : raw.length = 1
    · rw [if_pos h1, if_pos h1]; simp
    · rw [if_neg h1, if_neg h1]
      simp only
      by_cases h2 : (Hex.stripPrefix raw).length % 2 = 0
      · rw [if_neg (by omega)]
        by_cases h3 : (Hex.stripPrefix raw).length / 2 = n
        · rw [if_neg (by omega), if_pos (by unfold Hex.strMaxLength; omega), if_pos h2]
          constructor
          · intro h
            refine ⟨h, ?_⟩
            have hd : Hex.decodeToBuf raw n = .ok r := by
              unfold Hex.decodeToBuf
              rw [if_neg h0, if_neg h1]
              simp only
              rw [if_neg (by omega), if_neg (by omega)]
              exact h
            exact JCodec.decodeToBuf_ok_length hd
          · exact fun h => h.1
        · rw [if_pos (by omega)]
          simp only [reduceCtorEq, false_iff]
          rintro ⟨h4, h5⟩
          have h6 : Hex.decode raw = .ok r := by
            unfold Hex.decode
            rw [if_neg h0, if_neg h1]
            exact h4
          by_cases h7 : (Hex.stripPrefix raw).length < Hex.strMaxLength
          · rw [if_pos h7, if_pos h2] at h4
            have hd : Hex.decodeToBuf raw ((Hex.stripPrefix raw).length / 2) = .ok r := by
              unfold Hex.decodeToBuf
              rw [if_neg h0, if_neg h1]
              simp only
              rw [if_neg (by omega), if_neg (by omega)]
              exact h4
            exact h3 (by rw [← JCodec.decodeToBuf_ok_length hd]; exact h5)
          · rw [if_neg h7] at h4; cases h4
      · rw [if_pos h2]
        simp only [reduceCtorEq, false_iff]
        rintro ⟨h4, -⟩
        by_cases h7 : (Hex.stripPrefix raw).length < Hex.strMaxLength
        · rw [if_pos h7, if_neg h2] at h4; cases h4
        · rw [if_neg h7] at h4; cases h4

theorem hexArray_iff {v : Json} {b : Bytes} : (JCodec.hexArray 32).dec v = some b ↔ IsDigest v b := by
  unfold IsDigest
  rw [← hexVec_iff]
  cases v with
  | str s =>
    have h1 : (JCodec.hexArray 32).dec (.str s) = some b ↔ Hex.decodeToBuf (utf8 s) 32 = .ok b := by
      simp only [JCodec.hexArray]
      cases Hex.decodeToBuf (utf8 s) 32 <;> simp [Except.toOption]
    have h2 : JCodec.hexVec.dec (.str s) = some b ↔ Hex.decode (utf8 s) = .ok b := by
      simp only [JCodec.hexVec]
      cases Hex.decode (utf8 s) <;> simp [Except.toOption]
    rw [h1, h2, decodeToBuf_iff (by decide)]
  | _ => simp [JCodec.hexArray, JCodec.hexVec]

/-! ## Lists -/

theorem decAll_iff {α : Type} {c : JCodec α} {P : Json → α → Prop} (h : ∀ v a, c.dec v = some a ↔ P v a) {vs : List Json}
    {l : List α} : JCodec.decAll c vs = some l ↔ List.Forall₂ P vs l := by
  induction vs generalizing l with
  | nil => cases l <;> simp [JCodec.decAll]
  | cons v vs ih =>
    unfold JCodec.decAll
    cases l with
    | nil => cases c.dec v <;> cases JCodec.decAll c vs <;> simp
    | cons a l =>
      rw [List.forall₂_cons, ← h, ← ih]
      cases c.dec v <;> cases JCodec.decAll c vs <;> simp

theorem vec_iff {α : Type} {c : JCodec α} {P : Json → α → Prop} (h : ∀ v a, c.dec v = some a ↔ P v a) {v : Json} {l : List α} :
    (JCodec.vec c).dec v = some l ↔ IsList P v l := by
  unfold IsList
  cases v with
  | arr vs => simp [JCodec.vec, decAll_iff h]
  | _ => simp [JCodec.vec]

theorem texts_iff {v : Json} {l : List String} : (JCodec.vec JCodec.string).dec v = some l ↔ IsList IsText v l :=
  vec_iff fun _ _ => text_iff

/-! ## Records -/

/-- The field list is without repetition and reads only its own names. -/
structure Reads {α : Type} (f : Fields α) : Prop where
  nodup : f.keys.Nodup
  ext : ∀ l m : String → Option Json, (∀ k ∈ f.keys, l k = m k) → f.dec l = f.dec m

theorem reads_req {α : Type} {k : String} {c : JCodec α} : Reads (Fields.req k c) where
  nodup := by simp [Fields.req]
  ext l m h := by simp only [Fields.req]; rw [h k (by simp [Fields.req])]

theorem reads_opt {α : Type} {k : String} {c : JCodec α} : Reads (Fields.opt k c) where
  nodup := by simp [Fields.opt]
  ext l m h := by simp only [Fields.opt]; rw [h k (by simp [Fields.opt])]

theorem reads_orEmpty {α : Type} {k : String} {c : JCodec (List α)} : Reads (Fields.orEmpty k c) where
  nodup := by simp [Fields.orEmpty]
  ext l m h := by simp only [Fields.orEmpty]; rw [h k (by simp [Fields.orEmpty])]

theorem reads_both {α β : Type} {f : Fields α} {g : Fields β} (hf : Reads f) (hg : Reads g)
    (hd : ∀ k ∈ f.keys, k ∉ g.keys) : Reads (Fields.both f g) where
  nodup := List.nodup_append.mpr ⟨hf.nodup, hg.nodup, fun a ha b hb e => hd a ha (e ▸ hb)⟩
  ext l m h := by
    simp only [Fields.both]
    rw [hf.ext l m (fun k hk => h k (List.mem_append_left _ hk)), hg.ext l m (fun k hk => h k (List.mem_append_right _ hk))]

theorem reads_imap {α β : Type} {f : α → β} {g : β → α} {c : Fields α} (h : Reads c) : Reads (Fields.imap f g c) where
  nodup := h.nodup
  ext l m e := by simp only [Fields.imap]; rw [h.ext l m e]

theorem lookup_mem {k : String} {x : Json} {kvs : List (String × Json)} (h1 : (kvs.map Prod.fst).count k ≤ 1) :
    lookup k kvs = some x ↔ (k, x) ∈ kvs := by
  induction kvs with
  | nil => simp [lookup]
  | cons kv kvs ih =>
    obtain ⟨k', v⟩ := kv
    simp only [List.map_cons, List.count_cons] at h1
    simp only [lookup]
    by_cases e : k = k'
    · subst e
      rw [if_pos rfl]
      have h2 : k ∉ kvs.map Prod.fst := by
        rw [← List.count_eq_zero]
        simp only [beq_self_eq_true, if_true] at h1
        omega
      simp only [Option.some.injEq, List.mem_cons, Prod.mk.injEq, true_and]
      constructor
      · rintro rfl; exact .inl rfl
      · rintro (rfl | h)
        · rfl
        · exact absurd (List.mem_map_of_mem (f := Prod.fst) h) h2
    · rw [if_neg e, ih (by omega)]
      simp [e]

theorem count_filter_nodup {l keys : List String} : (l.filter fun k => keys.contains k).Nodup ↔ ∀ k ∈ keys, l.count k ≤ 1 := by
  rw [List.nodup_iff_count_le_one]
  constructor
  · intro h k hk
    have := h k
    rwa [List.count_filter (by simpa using hk)] at this
  · intro h k
    by_cases hk : k ∈ keys
    · rw [List.count_filter (by simpa using hk)]; exact h k hk
    · rw [List.count_eq_zero_of_not_mem]
      · omega
      · intro hm
        exact hk (by simpa using (List.mem_filter.mp hm).2)

theorem zip_lookup {keys : List String} (hn : keys.Nodup) {items : List Json} {i : Nat} {k : String} (hk : keys[i]? = some k) :
    lookup k (keys.zip items) = items[i]? := by
  induction keys generalizing items i with
  | nil => simp at hk
  | cons a keys ih =>
    cases items with
    | nil => simp [lookup]
    | cons x items =>
      simp only [List.zip_cons_cons, lookup]
      cases i with
      | zero =>
        simp only [List.getElem?_cons_zero, Option.some.injEq] at hk
        subst hk
        simp
      | succ i =>
        simp only [List.getElem?_cons_succ] at hk
        have hne : k ≠ a := by
          rintro rfl
          exact (List.nodup_cons.mp hn).1 (List.mem_of_getElem? hk)
        rw [if_neg hne, ih (List.nodup_cons.mp hn).2 hk, List.getElem?_cons_succ]

theorem keys_zip_sub {keys : List String} {items : List Json} {k : String} (h : k ∈ (keys.zip items).map Prod.fst) : k ∈ keys := by
  obtain ⟨⟨a, b⟩, hab, rfl⟩ := List.mem_map.mp h
  exact (List.of_mem_zip hab).1

theorem zip_nodup {keys : List String} (hn : keys.Nodup) (items : List Json) : ((keys.zip items).map Prod.fst).Nodup := by
  refine hn.sublist ?_
  clear hn
  induction keys generalizing items with
  | nil => simp
  | cons k keys ih =>
    cases items with
    | nil => simp
    | cons x items => simpa using ih items

theorem struct_iff {α : Type} {deny : Bool} {f : Fields α} (hf : Reads f) {v : Json} {a : α} :
    (JCodec.struct deny f).dec v = some a ↔ ∃ field, Record deny f.keys v field ∧ f.dec field = some a := by
  unfold Record
  cases v with
  | obj kvs =>
    simp only [JCodec.struct, JCodec.entriesOf, JCodec.decEntries]
    constructor
    · intro h
      by_cases h1 : ((kvs.map Prod.fst).filter fun k => f.keys.contains k).Nodup
      · rw [if_pos h1] at h
        by_cases h2 : (deny && !((kvs.map Prod.fst).all fun k => f.keys.contains k)) = true
        · rw [if_pos h2] at h; cases h
        · rw [if_neg h2] at h
          have hc := count_filter_nodup.mp h1
          refine ⟨fun k => lookup k kvs, .inl ⟨kvs, rfl, hc, ?_, fun n hn x => lookup_mem (hc n hn)⟩, h⟩
          intro hd kv hkv
          simp only [hd, Bool.true_and, Bool.not_eq_true', Bool.not_eq_false] at h2
          have := List.all_eq_true.mp h2 kv.1 (List.mem_map_of_mem hkv)
          simpa using this
      · rw [if_neg h1] at h; cases h
    · rintro ⟨field, ⟨m, e, h1, h2, h3⟩ | ⟨_, e, -⟩, h4⟩
      · cases e
        rw [if_pos (count_filter_nodup.mpr h1), if_neg, ← h4]
        · apply hf.ext
          intro k hk
          have := h3 k hk
          cases hl : lookup k kvs with
          | some x => exact ((this x).mpr ((lookup_mem (h1 k hk)).mp hl)).symm
          | none =>
            cases hq : field k with
            | none => rfl
            | some y =>
              have := (lookup_mem (h1 k hk)).mpr ((this y).mp hq)
              rw [hl] at this; cases this
        · intro hb
          simp only [Bool.and_eq_true, Bool.not_eq_true'] at hb
          have : ((kvs.map Prod.fst).all fun k => f.keys.contains k) = true := by
            rw [List.all_eq_true]
            intro k hk
            obtain ⟨kv, hkv, rfl⟩ := List.mem_map.mp hk
            simpa using h2 hb.1 kv hkv
          rw [this] at hb
          cases hb.2
      · cases e
  | arr items =>
    simp only [JCodec.struct, JCodec.entriesOf]
    by_cases hl : items.length ≤ f.keys.length
    · rw [if_pos hl]
      simp only [JCodec.decEntries]
      have h1 : (((f.keys.zip items).map Prod.fst).filter fun k => f.keys.contains k).Nodup :=
        (zip_nodup hf.nodup items).filter _
      have h2 : ((f.keys.zip items).map Prod.fst).all (fun k => f.keys.contains k) = true := by
        rw [List.all_eq_true]
        intro k hk
        simpa using keys_zip_sub hk
      rw [if_pos h1, h2, if_neg (by simp)]
      constructor
      · intro h
        exact ⟨_, .inr ⟨items, rfl, hl, fun i n hi => zip_lookup hf.nodup hi⟩, h⟩
      · rintro ⟨field, ⟨_, e, -⟩ | ⟨items', e, -, h3⟩, h4⟩
        · cases e
        · cases e
          rw [← h4]
          apply hf.ext
          intro k hk
          obtain ⟨i, hi⟩ := List.mem_iff_getElem?.mp hk
          rw [h3 i k hi, zip_lookup hf.nodup hi]
    · rw [if_neg hl]
      simp only [reduceCtorEq, false_iff]
      rintro ⟨field, ⟨_, e, -⟩ | ⟨items', e, h, -⟩, -⟩
      · cases e
      · cases e; exact hl h
  | _ =>
    simp only [JCodec.struct, JCodec.entriesOf, reduceCtorEq, false_iff]
    rintro ⟨field, ⟨_, e, -⟩ | ⟨_, e, -⟩, -⟩ <;> cases e

theorem req_iff {α : Type} {k : String} {c : JCodec α} {l : String → Option Json} {a : α} :
    (Fields.req k c).dec l = some a ↔ Has l k (fun v => c.dec v = some a) := by
  unfold Has
  simp only [Fields.req]
  cases l k <;> simp

theorem opt_iff {α : Type} {k : String} {c : JCodec α} (hn : c.dec .null = none) {l : String → Option Json} {a : Option α} :
    (Fields.opt k c).dec l = some a ↔
      (a = none ∧ (l k = none ∨ l k = some .null)) ∨ ∃ b, a = some b ∧ Has l k (fun v => c.dec v = some b) := by
  unfold Has
  simp only [Fields.opt]
  cases hl : l k with
  | none => simp [eq_comm]
  | some v =>
    cases v with
    | null => simp [hn, eq_comm]
    | _ => simp [eq_comm, and_comm]

theorem orEmpty_iff {α : Type} {k : String} {c : JCodec (List α)} {l : String → Option Json} {a : List α} :
    (Fields.orEmpty k c).dec l = some a ↔ (l k = none ∧ a = []) ∨ Has l k (fun v => c.dec v = some a) := by
  unfold Has
  simp only [Fields.orEmpty]
  cases l k <;> simp [eq_comm]

theorem both_iff {α β : Type} {f : Fields α} {g : Fields β} {l : String → Option Json} {ab : α × β} :
    (Fields.both f g).dec l = some ab ↔ f.dec l = some ab.1 ∧ g.dec l = some ab.2 := by
  simp only [Fields.both]
  obtain ⟨a, b⟩ := ab
  cases f.dec l <;> cases g.dec l <;> simp

theorem imap_iff {α β : Type} {f : α → β} {g : β → α} {c : Fields α} (h1 : ∀ a, g (f a) = a) (h2 : ∀ b, f (g b) = b)
    {l : String → Option Json} {b : β} : (Fields.imap f g c).dec l = some b ↔ c.dec l = some (g b) := by
  simp only [Fields.imap, Option.map_eq_some_iff]
  constructor
  · rintro ⟨a, h, rfl⟩; rw [h1]; exact h
  · intro h; exact ⟨_, h, h2 b⟩

theorem has_congr {l : String → Option Json} {k : String} {P Q : Json → Prop} (h : ∀ v, P v ↔ Q v) : Has l k P ↔ Has l k Q := by
  unfold Has
  exact exists_congr fun x => and_congr_right fun _ => h x

end Qos.Format
