import Verif.Model.Wire
import Verif.Props.Storage
import Mathlib.Data.List.Dedup
/-! JSON laws of the message types. -/
namespace Qos
open Json

/-! ### Enums -/

/-- A value survives its variant's payload. -/
structure JVariant.LawAt {α : Type} (v : JVariant α) (a : α) : Prop where
  dec_enc : v.ok a → v.dec (v.enc a) = some a
  dec_norm : v.ok a → v.dec ((v.enc a).map norm) = some a
  nonnull : v.ok a → v.enc a ≠ some .null
  plain : v.ok a → ∀ x, v.enc a = some x → Plain x
  unique : v.ok a → ∀ x, v.enc a = some x → UniqueKeys x
  height : ∀ x, v.enc a = some x → height x ≤ v.depth

/-- What a variant reads belongs to it. -/
def JVariant.Reads {α : Type} (tag : α → Nat) (v : JVariant α) (i : Nat) : Prop :=
  ∀ x a, v.dec x = some a → tag a = i ∧ v.ok a

theorem JVariant.unit_lawAt {α : Type} {name : String} {a : α} {al : List String} :
    (JVariant.unit name a al).LawAt a where
  dec_enc _ := rfl
  dec_norm _ := rfl
  nonnull _ h := by cases h
  plain _ _ h := by cases h
  unique _ _ h := by cases h
  height _ h := by cases h

theorem JVariant.unit_reads {α : Type} {tag : α → Nat} {name : String} {a : α} {al : List String} {i : Nat}
    (h : tag a = i) : (JVariant.unit name a al).Reads tag i := by
  intro x b hb
  cases x with
  | none => cases hb; exact ⟨h, trivial⟩
  | some x => cases x <;> cases hb; exact ⟨h, trivial⟩

theorem JVariant.data_lawAt {α β : Type} {name : String} {c : JCodec β} {inj : β → α} {proj : α → Option β}
    (hc : c.Lawful) {a : α} {b : β} (hp : proj a = some b) (hi : inj b = a) :
    (JVariant.data name c inj proj).LawAt a where
  dec_enc h := by
    have h : c.ok b := by simpa only [JVariant.data, hp] using h
    simp only [JVariant.data, hp, hc.dec_enc b h, Option.map_some, hi]
  dec_norm h := by
    have h : c.ok b := by simpa only [JVariant.data, hp] using h
    simp only [JVariant.data, hp, Option.map_some, hc.dec_norm b h, hi]
  nonnull h hn := by
    have h : c.ok b := by simpa only [JVariant.data, hp] using h
    simp only [JVariant.data, hp, Option.some.injEq] at hn
    exact hc.ne_null h hn
  plain h x hx := by
    have h : c.ok b := by simpa only [JVariant.data, hp] using h
    simp only [JVariant.data, hp, Option.some.injEq] at hx
    exact hx ▸ hc.plain b h
  unique h x hx := by
    have h : c.ok b := by simpa only [JVariant.data, hp] using h
    simp only [JVariant.data, hp, Option.some.injEq] at hx
    exact hx ▸ hc.unique b h
  height x hx := by
    simp only [JVariant.data, hp, Option.some.injEq] at hx
    exact hx ▸ hc.height b

theorem JVariant.data_reads {α β : Type} {tag : α → Nat} {name : String} {c : JCodec β} {inj : β → α}
    {proj : α → Option β} {i : Nat} (hc : c.Lawful) (hp : ∀ b, proj (inj b) = some b) (ht : ∀ b, tag (inj b) = i) :
    (JVariant.data name c inj proj).Reads tag i := by
  intro x a h
  cases x with
  | none => cases h
  | some x =>
    simp only [JVariant.data, Option.map_eq_some_iff] at h
    obtain ⟨b, hb, rfl⟩ := h
    exact ⟨ht b, by simpa only [JVariant.data, hp] using hc.dec_ok _ _ hb⟩

/-- `Reads` along a list. -/
def ReadsFrom {α : Type} (tag : α → Nat) : Nat → List (JVariant α) → Prop
  | _, [] => True
  | i, v :: vs => v.Reads tag i ∧ ReadsFrom tag (i + 1) vs

theorem ReadsFrom.get {α : Type} {tag : α → Nat} : ∀ {i : Nat} {vs : List (JVariant α)}, ReadsFrom tag i vs →
    ∀ {j : Nat} {v : JVariant α}, vs[j]? = some v → v.Reads tag (i + j)
  | _, [], _, j, v, h => by simp at h
  | i, w :: vs, hr, 0, v, h => by simp at h; subst h; exact hr.1
  | i, w :: vs, hr, j + 1, v, h => by
    have := ReadsFrom.get hr.2 (j := j) (v := v) (by simpa using h)
    rwa [show i + 1 + j = i + (j + 1) by omega] at this

/-- All names. -/
def allNames {α : Type} (vs : List (JVariant α)) : List String := vs.flatMap fun v => v.name :: v.aliases

theorem find_named {α : Type} : ∀ {vs : List (JVariant α)}, (allNames vs).Nodup →
    ∀ {i : Nat} {v : JVariant α}, vs[i]? = some v → vs.find? (fun w => w.named v.name) = some v
  | [], _, i, v, h => by simp at h
  | w :: vs, hn, 0, v, h => by
    simp at h; subst h
    simp [JVariant.named]
  | w :: vs, hn, i + 1, v, h => by
    simp only [List.getElem?_cons_succ] at h
    simp only [allNames, List.flatMap_cons, List.nodup_append] at hn
    have hmem : v.name ∈ allNames vs := by
      simp only [allNames, List.mem_flatMap]
      exact ⟨v, List.mem_of_getElem? h, by simp⟩
    have hw : w.named v.name = false := by
      simp only [JVariant.named, Bool.eq_false_iff, ne_eq, List.contains_iff_mem]
      intro hm
      exact hn.2.2 _ hm _ hmem rfl
    rw [List.find?_cons_of_neg (by simp [hw])]
    exact find_named hn.2.1 h

theorem le_foldr_max {l : List Nat} {x : Nat} (h : x ∈ l) : x ≤ l.foldr max 0 := by
  induction l with
  | nil => simp at h
  | cons y l ih =>
    rw [List.foldr_cons]
    rcases List.mem_cons.mp h with rfl | h
    · exact Nat.le_max_left _ _
    · exact Nat.le_trans (ih h) (Nat.le_max_right _ _)

theorem sortEntries_single (kv : String × Json) : sortEntries [kv] = [kv] := by
  have := sortEntries_perm [kv]
  exact List.perm_singleton.mp this

theorem norm_single {s : String} {x : Json} (h : x ≠ .null) : norm (.obj [(s, x)]) = .obj [(s, norm x)] := by
  cases x <;> simp_all [norm, normObj, sortEntries_single, Json.isNull]

theorem JCodec.lawful_enum {α : Type} {tag : α → Nat} {vs : List (JVariant α)} (hn : (allNames vs).Nodup)
    (hr : ReadsFrom tag 0 vs) (hl : ∀ a v, vs[tag a]? = some v → v.LawAt a) : (JCodec.enum tag vs).Lawful where
  dec_enc a h := by
    simp only [JCodec.enum] at h ⊢
    cases hv : vs[tag a]? with
    | none => simp [hv] at h
    | some v =>
      simp only [hv] at h ⊢
      have hd := (hl a v hv).dec_enc h
      have hf := find_named hn hv
      cases he : v.enc a with
      | none => rw [he] at hd; simp only [hf, hd]
      | some x => rw [he] at hd; simp only [hf, hd]
  dec_norm a h := by
    simp only [JCodec.enum] at h ⊢
    cases hv : vs[tag a]? with
    | none => simp [hv] at h
    | some v =>
      simp only [hv] at h ⊢
      have hd := (hl a v hv).dec_norm h
      have hnn := (hl a v hv).nonnull h
      have hf := find_named hn hv
      cases he : v.enc a with
      | none => rw [he] at hd; simp only [norm, hf]; exact hd
      | some x =>
        rw [he] at hd hnn
        have hx : x ≠ .null := fun hx => hnn (by rw [hx])
        simp only [norm_single hx, hf]; exact hd
  dec_ok v a h := by
    have key : ∀ (s : String) (x : Option Json) (w : JVariant α),
        vs.find? (fun v => v.named s) = some w → w.dec x = some a → (JCodec.enum tag vs).ok a := by
      intro s x w hw hd
      obtain ⟨j, hj⟩ := List.mem_iff_getElem?.mp (List.mem_of_find?_eq_some hw)
      obtain ⟨ht, hok⟩ := hr.get hj _ _ hd
      rw [Nat.zero_add] at ht
      simp only [JCodec.enum, ht, hj]
      exact hok
    simp only [JCodec.enum] at h
    split at h
    · split at h
      · exact key _ _ _ (by assumption) h
      · cases h
    · split at h
      · exact key _ _ _ (by assumption) h
      · cases h
    · cases h
  dec_null := rfl
  plain a h := by
    simp only [JCodec.enum] at h ⊢
    cases hv : vs[tag a]? with
    | none => simp [hv] at h
    | some v =>
      simp only [hv] at h ⊢
      cases he : v.enc a with
      | none => trivial
      | some x => exact ⟨(hl a v hv).plain h x he, trivial⟩
  unique a h := by
    simp only [JCodec.enum] at h ⊢
    cases hv : vs[tag a]? with
    | none => simp [hv] at h
    | some v =>
      simp only [hv] at h ⊢
      cases he : v.enc a with
      | none => trivial
      | some x => exact ⟨by simp, (hl a v hv).unique h x he, trivial⟩
  height a := by
    simp only [JCodec.enum]
    cases hv : vs[tag a]? with
    | none => simp [Json.height]
    | some v =>
      have hm : v.depth ≤ (vs.map JVariant.depth).foldr max 0 :=
        le_foldr_max (List.mem_map.mpr ⟨v, List.mem_of_getElem? hv, rfl⟩)
      cases he : v.enc a with
      | none => simp only [he, Json.height]; omega
      | some x =>
        have := (hl a v hv).height x he
        simp only [he, Json.height, heightObj]
        omega

theorem JCodec.lawful_tuple2 {α β : Type} {c : JCodec α} {d : JCodec β} (hc : c.Lawful) (hd : d.Lawful) :
    (JCodec.tuple2 c d).Lawful where
  dec_enc a h := by simp [JCodec.tuple2, hc.dec_enc _ h.1, hd.dec_enc _ h.2]
  dec_norm a h := by simp [JCodec.tuple2, norm, normArr, hc.dec_norm _ h.1, hd.dec_norm _ h.2]
  dec_ok v a h := by
    simp only [JCodec.tuple2] at h
    split at h
    · split at h
      · cases h
        exact ⟨hc.dec_ok _ _ (by assumption), hd.dec_ok _ _ (by assumption)⟩
      · cases h
    · cases h
  dec_null := rfl
  plain a h := ⟨hc.plain _ h.1, hd.plain _ h.2, trivial⟩
  unique a h := ⟨hc.unique _ h.1, hd.unique _ h.2, trivial⟩
  height a := by
    have := hc.height a.1
    have := hd.height a.2
    simp only [JCodec.tuple2, Json.height, heightArr]
    omega

/-! ### Sets -/

theorem isSet_sortSet (l : List UInt16) : Borsh.IsSet (Borsh.sortSet l) := by
  have hs : (l.mergeSort (fun a b => a ≤ b)).Pairwise (fun a b => (decide (a ≤ b)) = true) :=
    List.pairwise_mergeSort (fun a b c => by simp only [decide_eq_true_eq]; exact UInt16.le_trans)
      (fun a b => by simp only [Bool.or_eq_true, decide_eq_true_eq]; exact UInt16.le_total a b) l
  have h1 : (Borsh.sortSet l).Pairwise (fun a b => (decide (a ≤ b)) = true) := hs.sublist (List.dedup_sublist _)
  have h2 : (Borsh.sortSet l).Pairwise (· ≠ ·) := List.nodup_dedup _
  refine (h1.and h2).imp fun ⟨a, b⟩ => ?_
  simp only [decide_eq_true_eq] at a
  exact UInt16.lt_of_le_of_ne a b

theorem sortSet_of_isSet {l : List UInt16} (h : Borsh.IsSet l) : Borsh.sortSet l = l := by
  unfold Borsh.sortSet
  rw [List.mergeSort_of_pairwise (h.imp fun hab => by simpa using UInt16.le_of_lt hab)]
  exact List.dedup_eq_self.mpr (h.imp fun hab => UInt16.ne_of_lt hab)

theorem ok_u16_json (x : UInt16) : JCodec.u16.ok x := by
  have := x.toNat_lt
  simpa [JCodec.u16, JCodec.imap, JCodec.stringOrNumeric] using this

theorem JCodec.lawful_setU16 : JCodec.setU16.Lawful where
  dec_enc l h := by
    simp only [JCodec.setU16]
    rw [(lawful_vec lawful_u16).dec_enc l fun a _ => ok_u16_json a, Option.map_some, sortSet_of_isSet h]
  dec_norm l h := by
    simp only [JCodec.setU16]
    rw [(lawful_vec lawful_u16).dec_norm l fun a _ => ok_u16_json a, Option.map_some, sortSet_of_isSet h]
  dec_ok v l h := by
    simp only [JCodec.setU16, Option.map_eq_some_iff] at h
    obtain ⟨x, -, rfl⟩ := h
    exact isSet_sortSet x
  dec_null := rfl
  plain l _ := (lawful_vec lawful_u16).plain l fun a _ => ok_u16_json a
  unique l _ := (lawful_vec lawful_u16).unique l fun a _ => ok_u16_json a
  height l := (lawful_vec lawful_u16).height l

/-! ### The types -/

namespace JCodec

theorem lawful_phase : phase.Lawful := by
  refine lawful_enum (by decide +kernel) ?_ ?_
  · simp only [Phase.variants, List.map, ReadsFrom]
    refine ⟨?_, ?_, ?_, ?_, ?_, ?_, trivial⟩ <;> exact JVariant.unit_reads rfl
  · intro a v h
    cases a <;> (obtain rfl := Option.some.inj h; exact JVariant.unit_lawAt)

theorem lawful_nsmErrorCode : nsmErrorCode.Lawful := by
  refine lawful_enum (by decide +kernel) ?_ ?_
  · simp only [NsmErrorCode.variants, List.map, ReadsFrom]
    refine ⟨?_, ?_, ?_, ?_, ?_, ?_, ?_, ?_, ?_, trivial⟩ <;> exact JVariant.unit_reads rfl
  · intro a v h
    cases a <;> (obtain rfl := Option.some.inj h; exact JVariant.unit_lawAt)

theorem lawful_nsmDigest : nsmDigest.Lawful := by
  refine lawful_enum (by decide +kernel) ?_ ?_
  · simp only [NsmDigest.variants, List.map, ReadsFrom]
    refine ⟨?_, ?_, ?_, trivial⟩ <;> exact JVariant.unit_reads rfl
  · intro a v h
    cases a <;> (obtain rfl := Option.some.inj h; exact JVariant.unit_lawAt)

open Fields in
theorem lawful_one {α : Type} {k : String} {c : JCodec α} (h : c.Lawful) : (struct false (.req k c)).Lawful :=
  lawful_struct (lawful_req h)

open Fields in
theorem lawful_two {α β : Type} {k l : String} {c : JCodec α} {d : JCodec β} (h : c.Lawful) (h' : d.Lawful)
    (hkl : k ≠ l) : (struct false (.both (.req k c) (.req l d))).Lawful :=
  lawful_struct (Fields.lawful_both (lawful_req h) (lawful_req h') (by simpa [Fields.req] using hkl))

open Fields in
theorem lawful_two_opt {α β : Type} {k l : String} {c : JCodec α} {d : JCodec β} (h : c.Lawful) (h' : d.Lawful)
    (hkl : k ≠ l) : (struct false (.both (.req k c) (.opt l d))).Lawful :=
  lawful_struct (Fields.lawful_both (lawful_req h) (lawful_opt h') (by simpa [Fields.req, Fields.opt] using hkl))

open Fields in
theorem lawful_describeNSM : (struct false (.both (.req "version_major" .u16) (.both (.req "version_minor" .u16)
       (.both (.req "version_patch" .u16) (.both (.req "module_id" .string) (.both (.req "max_pcrs" .u16)
         (.both (.req "locked_pcrs" .setU16) (.req "digest" .nsmDigest)))))))).Lawful :=
  lawful_struct (Fields.lawful_both (lawful_req lawful_u16) (Fields.lawful_both (lawful_req lawful_u16)
    (Fields.lawful_both (lawful_req lawful_u16) (Fields.lawful_both (lawful_req lawful_string)
      (Fields.lawful_both (lawful_req lawful_u16) (Fields.lawful_both (lawful_req lawful_setU16)
        (lawful_req lawful_nsmDigest) (by decide +kernel)) (by decide +kernel)) (by decide +kernel))
          (by decide +kernel)) (by decide +kernel)) (by decide +kernel))

theorem lawful_nsmResponse : nsmResponse.Lawful := by
  refine lawful_enum (by decide +kernel) ?_ ?_
  · simp only [NsmResponse.variants, List.map, ReadsFrom]
    exact ⟨JVariant.data_reads (lawful_two lawful_bool lawful_hexVec (by decide)) (fun _ => rfl) (fun _ => rfl),
      JVariant.data_reads (lawful_one lawful_hexVec) (fun _ => rfl) (fun _ => rfl),
      JVariant.unit_reads rfl, JVariant.unit_reads rfl,
      JVariant.data_reads lawful_describeNSM (fun _ => rfl) (fun _ => rfl),
      JVariant.data_reads (lawful_one lawful_hexVec) (fun _ => rfl) (fun _ => rfl),
      JVariant.data_reads (lawful_one lawful_hexVec) (fun _ => rfl) (fun _ => rfl),
      JVariant.data_reads lawful_nsmErrorCode (fun _ => rfl) (fun _ => rfl), trivial⟩
  · intro a v h
    cases a <;> obtain rfl := Option.some.inj h
    · exact JVariant.data_lawAt (lawful_two lawful_bool lawful_hexVec (by decide)) rfl rfl
    · exact JVariant.data_lawAt (lawful_one lawful_hexVec) rfl rfl
    · exact JVariant.unit_lawAt
    · exact JVariant.unit_lawAt
    · exact JVariant.data_lawAt lawful_describeNSM rfl rfl
    · exact JVariant.data_lawAt (lawful_one lawful_hexVec) rfl rfl
    · exact JVariant.data_lawAt (lawful_one lawful_hexVec) rfl rfl
    · exact JVariant.data_lawAt lawful_nsmErrorCode rfl rfl

theorem lawful_p256Error : p256Error.Lawful := by
  refine lawful_enum (by decide +kernel) ?_ ?_
  · simp only [P256Error.variants, List.map, ReadsFrom]
    refine ⟨?_, ?_, ?_, ?_, ?_, ?_, ?_, ?_, ?_, ?_, ?_, ?_, ?_, ?_, ?_, ?_, ?_, ?_, ?_, ?_, ?_, trivial⟩ <;>
      first
        | exact JVariant.unit_reads rfl
        | exact JVariant.data_reads lawful_string (fun _ => rfl) (fun _ => rfl)
  · intro a v h
    cases a <;> (obtain rfl := Option.some.inj h
                 first
                   | exact JVariant.unit_lawAt
                   | exact JVariant.data_lawAt lawful_string rfl rfl)

theorem lawful_expectedActual : expectedActual.Lawful := lawful_two lawful_string lawful_string (by decide)

theorem lawful_protocolError : protocolError.Lawful := by
  refine lawful_enum (by decide +kernel) ?_ ?_
  · simp only [ProtocolError.variants, List.map]
    repeat' (first | exact trivial | refine And.intro ?_ ?_)
    all_goals
      first
        | exact JVariant.unit_reads rfl
        | exact JVariant.data_reads lawful_string (fun _ => rfl) (fun _ => rfl)
        | exact JVariant.data_reads lawful_p256Error (fun _ => rfl) (fun _ => rfl)
        | exact JVariant.data_reads lawful_expectedActual (fun _ => rfl) (fun _ => rfl)
        | exact JVariant.data_reads lawful_phase (fun _ => rfl) (fun _ => rfl)
        | exact JVariant.data_reads lawful_approval (fun _ => rfl) (fun _ => rfl)
        | exact JVariant.data_reads (lawful_two lawful_u32 lawful_u32 (by decide)) (fun _ => rfl) (fun _ => rfl)
        | exact JVariant.data_reads (lawful_tuple2 lawful_phase lawful_phase) (fun _ => rfl) (fun _ => rfl)
  · intro a v h
    cases a <;> (obtain rfl := Option.some.inj h
                 first
                   | exact JVariant.unit_lawAt
                   | exact JVariant.data_lawAt lawful_string rfl rfl
                   | exact JVariant.data_lawAt lawful_p256Error rfl rfl
                   | exact JVariant.data_lawAt lawful_expectedActual rfl rfl
                   | exact JVariant.data_lawAt lawful_phase rfl rfl
                   | exact JVariant.data_lawAt lawful_approval rfl rfl
                   | exact JVariant.data_lawAt (lawful_two lawful_u32 lawful_u32 (by decide)) rfl rfl
                   | exact JVariant.data_lawAt (lawful_tuple2 lawful_phase lawful_phase) rfl rfl)


theorem lawful_genesisSet : genesisSet.Lawful :=
  lawful_struct (Fields.lawful_imap (Fields.lawful_both (Fields.lawful_req (lawful_vec lawful_quorumMember))
    (Fields.lawful_req lawful_u32) (by decide +kernel)) (fun _ => rfl) (fun _ h => h))

theorem lawful_memberOutput : memberOutput.Lawful :=
  lawful_struct (Fields.lawful_imap (Fields.lawful_both (Fields.lawful_req lawful_quorumMember)
    (Fields.lawful_both (Fields.lawful_req lawful_hexVec) (Fields.lawful_req (lawful_hexArray 64))
      (by decide +kernel)) (by decide +kernel)) (fun _ => rfl) (fun _ h => h))

theorem lawful_memberShard : memberShard.Lawful :=
  lawful_struct (Fields.lawful_imap (Fields.lawful_both (Fields.lawful_req lawful_quorumMember)
    (Fields.lawful_req lawful_hexVec) (by decide +kernel)) (fun _ => rfl) (fun _ h => h))

open Fields in
theorem lawful_genesisOutput : genesisOutput.Lawful :=
  lawful_struct (Fields.lawful_imap
    (Fields.lawful_both (lawful_req lawful_genesisSet) (Fields.lawful_both (lawful_opt lawful_hexVec)
      (Fields.lawful_both (lawful_req lawful_hexVec) (Fields.lawful_both (lawful_req (lawful_vec lawful_memberOutput))
        (Fields.lawful_both (lawful_req (lawful_vec (lawful_vec lawful_memberShard)))
          (Fields.lawful_both (lawful_opt lawful_hexVec) (Fields.lawful_both (lawful_req (lawful_hexArray 64))
            (Fields.lawful_both (lawful_req lawful_hexVec) (Fields.lawful_both (lawful_req lawful_hexVec)
              (lawful_req lawful_hexVec)
              (by decide +kernel)) (by decide +kernel)) (by decide +kernel)) (by decide +kernel)) (by decide +kernel))
              (by decide +kernel)) (by decide +kernel)) (by decide +kernel)) (by decide +kernel))
    (fun _ => rfl) (fun _ h => h))

end JCodec

/-! ### Envelopes after canonical rewriting -/

theorem normLook_eq {kvs : List (String × Json)} {k : String} {v : Json}
    (h : normLook kvs k = some v) : ∃ w, lookup k kvs = some w ∧ norm w = v := by
  simpa [normLook, Option.map_eq_some_iff] using h

/-- A derived struct reading a rewritten object. -/
theorem struct_dec_norm {α : Type} {deny : Bool} {f : Fields α} {kvs : List (String × Json)} {a : α}
    (hn : (kvs.map Prod.fst).Nodup) (hnn : ∀ kv ∈ kvs, kv.2 ≠ .null)
    (h : (JCodec.struct deny f).dec (norm (.obj kvs)) = some a) : f.dec (normLook kvs) = some a := by
  simp only [norm] at h
  have := (struct_dec_obj h).1
  rwa [show (fun k => lookup k (sortEntries (normObj kvs))) = normLook kvs from
    funext fun k => JCodec.lookup_norm_nonnull hn hnn k] at this

theorem v2_norm_v1_manifest (m : Manifest) : JCodec.manifestV2.dec (norm (JCodec.manifest.enc m)) = none := by
  rw [manifest_enc]
  refine eq_none_of fun a h => ?_
  obtain ⟨x, h, -⟩ := imap_dec (struct_dec_norm (by simp) (by
    intro kv hkv
    simp only [List.mem_cons, List.not_mem_nil, or_false] at hkv
    rcases hkv with rfl | rfl | rfl | rfl | rfl | rfl <;> (intro hc; cases hc)) h)
  obtain ⟨v, hv, -⟩ := req_dec (both_dec h).1
  simp [normLook, lookup] at hv

theorem v2_norm_v1_envelope (e : EnvelopeOf Manifest) :
    JCodec.envelopeV2.dec (norm (JCodec.envelopeV1.enc e)) = none := by
  rw [envelope_enc_v1]
  refine eq_none_of fun a h => ?_
  obtain ⟨x, h, -⟩ := imap_dec (struct_dec_norm (by simp) (by
    intro kv hkv
    simp only [List.mem_cons, List.not_mem_nil, or_false] at hkv
    rcases hkv with rfl | rfl | rfl <;> (intro hc; cases hc)) h)
  obtain ⟨v, hv, hd⟩ := req_dec (both_dec h).1
  simp [normLook, lookup] at hv
  subst hv
  rw [v2_norm_v1_manifest] at hd; cases hd

theorem v12_norm_v0_envelope (e : EnvelopeOf ManifestV0) :
    JCodec.envelopeV2.dec (norm (JCodec.envelopeV0.enc e)) = none ∧
    JCodec.envelopeV1.dec (norm (JCodec.envelopeV0.enc e)) = none := by
  rw [envelope_enc_v0]
  constructor
  all_goals
    refine eq_none_of fun a h => ?_
    obtain ⟨x, h, -⟩ := imap_dec (struct_dec_norm (by simp) (by
      intro kv hkv
      simp only [List.mem_cons, List.not_mem_nil, or_false] at hkv
      rcases hkv with rfl | rfl | rfl <;> (intro hc; cases hc)) h)
    obtain ⟨v, hv, -⟩ := req_dec (both_dec (both_dec h).2).1
    simp [normLook, lookup] at hv

theorem JCodec.lawful_envelope : JCodec.envelope.Lawful where
  dec_enc e h := by
    simp only [JCodec.envelope] at *
    unfold Envelope.decUntagged
    cases e with
    | v2 e => simp only [Envelope.encUntagged, lawful_envelopeV2.dec_enc e h]
    | v1 e => simp only [Envelope.encUntagged, v2_dec_v1_envelope, lawful_envelopeV1.dec_enc e h]
    | v0 e => simp only [Envelope.encUntagged, v2_dec_v0_envelope, v1_dec_v0_envelope, lawful_envelopeV0.dec_enc e h]
  dec_norm e h := by
    simp only [JCodec.envelope] at *
    unfold Envelope.decUntagged
    cases e with
    | v2 e => simp only [Envelope.encUntagged, lawful_envelopeV2.dec_norm e h]
    | v1 e => simp only [Envelope.encUntagged, v2_norm_v1_envelope, lawful_envelopeV1.dec_norm e h]
    | v0 e => simp only [Envelope.encUntagged, v12_norm_v0_envelope, lawful_envelopeV0.dec_norm e h]
  dec_ok v e h := wire_ok v e h
  dec_null := by
    simp only [JCodec.envelope, Envelope.decUntagged, lawful_envelopeV2.dec_null, lawful_envelopeV1.dec_null,
      lawful_envelopeV0.dec_null]
  plain e h := by
    cases e with
    | v2 e => exact lawful_envelopeV2.plain e h
    | v1 e => exact lawful_envelopeV1.plain e h
    | v0 e => exact lawful_envelopeV0.plain e h
  unique e h := by
    cases e with
    | v2 e => exact lawful_envelopeV2.unique e h
    | v1 e => exact lawful_envelopeV1.unique e h
    | v0 e => exact lawful_envelopeV0.unique e h
  height e := by
    simp only [JCodec.envelope]
    cases e with
    | v2 e => have := lawful_envelopeV2.height e; simp only [Envelope.encUntagged]; omega
    | v1 e => have := lawful_envelopeV1.height e; simp only [Envelope.encUntagged]; omega
    | v0 e => have := lawful_envelopeV0.height e; simp only [Envelope.encUntagged]; omega

namespace JCodec

theorem lawful_msg : JCodec.msg.Lawful := by
  have hEnvBytes : ∀ {k l : String}, k ≠ l → (struct false (.both (.req k .envelope) (.req l .hexVec))).Lawful :=
    fun h => lawful_two lawful_envelope lawful_hexVec h
  have hTwo : ∀ {k l : String}, k ≠ l → (struct false (.both (.req k .hexVec) (.req l .hexVec))).Lawful :=
    fun h => lawful_two lawful_hexVec lawful_hexVec h
  refine lawful_enum (by decide +kernel) ?_ ?_
  · refine ⟨JVariant.data_reads lawful_protocolError (fun _ => rfl) (fun _ => rfl),
      JVariant.unit_reads rfl,
      JVariant.data_reads lawful_phase (fun _ => rfl) (fun _ => rfl),
      JVariant.data_reads (hEnvBytes (by decide)) (fun _ => rfl) (fun _ => rfl),
      JVariant.data_reads (lawful_one lawful_nsmResponse) (fun _ => rfl) (fun _ => rfl),
      JVariant.data_reads (lawful_two_opt lawful_genesisSet lawful_hexVec (by decide)) (fun _ => rfl) (fun _ => rfl),
      JVariant.data_reads (lawful_two lawful_nsmResponse lawful_genesisOutput (by decide)) (fun _ => rfl) (fun _ => rfl),
      JVariant.data_reads (lawful_two lawful_hexVec lawful_approval (by decide)) (fun _ => rfl) (fun _ => rfl),
      JVariant.data_reads (lawful_one lawful_bool) (fun _ => rfl) (fun _ => rfl),
      JVariant.data_reads (lawful_one lawful_hexVec) (fun _ => rfl) (fun _ => rfl),
      JVariant.data_reads (lawful_one lawful_hexVec) (fun _ => rfl) (fun _ => rfl),
      JVariant.unit_reads rfl,
      JVariant.data_reads (lawful_two_opt lawful_nsmResponse lawful_envelope (by decide)) (fun _ => rfl) (fun _ => rfl),
      JVariant.data_reads (hEnvBytes (by decide)) (fun _ => rfl) (fun _ => rfl),
      JVariant.data_reads (lawful_one lawful_nsmResponse) (fun _ => rfl) (fun _ => rfl),
      JVariant.data_reads (hEnvBytes (by decide)) (fun _ => rfl) (fun _ => rfl),
      JVariant.data_reads (hTwo (by decide)) (fun _ => rfl) (fun _ => rfl),
      JVariant.data_reads (hTwo (by decide)) (fun _ => rfl) (fun _ => rfl),
      JVariant.unit_reads rfl,
      JVariant.unit_reads rfl,
      JVariant.data_reads (lawful_struct (Fields.lawful_opt lawful_envelope)) (fun _ => rfl) (fun _ => rfl),
      JVariant.unit_reads rfl,
      JVariant.data_reads (lawful_two lawful_string lawful_string (by decide)) (fun _ => rfl) (fun _ => rfl), trivial⟩
  · intro a v h
    cases a <;> first | obtain rfl := Option.some.inj h | (cases h; done)
    · exact JVariant.data_lawAt lawful_protocolError rfl rfl
    · exact JVariant.unit_lawAt
    · exact JVariant.data_lawAt lawful_phase rfl rfl
    · exact JVariant.data_lawAt (hEnvBytes (by decide)) rfl rfl
    · exact JVariant.data_lawAt (lawful_one lawful_nsmResponse) rfl rfl
    · exact JVariant.data_lawAt (lawful_two_opt lawful_genesisSet lawful_hexVec (by decide)) rfl rfl
    · exact JVariant.data_lawAt (lawful_two lawful_nsmResponse lawful_genesisOutput (by decide)) rfl rfl
    · exact JVariant.data_lawAt (lawful_two lawful_hexVec lawful_approval (by decide)) rfl rfl
    · exact JVariant.data_lawAt (lawful_one lawful_bool) rfl rfl
    · exact JVariant.data_lawAt (lawful_one lawful_hexVec) rfl rfl
    · exact JVariant.data_lawAt (lawful_one lawful_hexVec) rfl rfl
    · exact JVariant.unit_lawAt
    · exact JVariant.data_lawAt (lawful_two_opt lawful_nsmResponse lawful_envelope (by decide)) rfl rfl
    · exact JVariant.data_lawAt (hEnvBytes (by decide)) rfl rfl
    · exact JVariant.data_lawAt (lawful_one lawful_nsmResponse) rfl rfl
    · exact JVariant.data_lawAt (hEnvBytes (by decide)) rfl rfl
    · exact JVariant.data_lawAt (hTwo (by decide)) rfl rfl
    · exact JVariant.data_lawAt (hTwo (by decide)) rfl rfl
    · exact JVariant.unit_lawAt
    · exact JVariant.unit_lawAt
    · exact JVariant.data_lawAt (lawful_struct (Fields.lawful_opt lawful_envelope)) rfl rfl
    · exact JVariant.unit_lawAt
    · exact JVariant.data_lawAt (lawful_two lawful_string lawful_string (by decide)) rfl rfl

theorem depth_msg : JCodec.msg.depth < 128 := by decide +kernel

end JCodec
end Qos
