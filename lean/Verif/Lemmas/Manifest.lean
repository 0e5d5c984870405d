import Verif.Model.Manifest
import Verif.Lemmas.Borsh
import Verif.Lemmas.Ip
import Verif.Lemmas.Typed
import Verif.Props.Env
namespace Qos

/-! ### Borsh -/
namespace Borsh

theorem lawful_nitroConfig : Lawful nitroConfig :=
  lawful_imap (lawful_pair lawful_bytes (lawful_pair lawful_bytes (lawful_pair lawful_bytes
    (lawful_pair lawful_bytes (lawful_pair lawful_bytes lawful_string))))) (fun _ => rfl) (fun _ _ => rfl)

theorem lawful_restartPolicy : Lawful restartPolicy :=
  lawful_imap (lawful_sum lawful_unit lawful_unit) (by intro b; cases b <;> rfl)
    (by intro a _; rcases a with ⟨⟩ | ⟨⟩ <;> rfl)

theorem lawful_bridgeConfig : Lawful bridgeConfig :=
  lawful_imap (lawful_sum (lawful_pair lawful_u16 lawful_string)
    (lawful_pair lawful_u16 (lawful_option lawful_string))) (by intro b; cases b <;> rfl)
    (by intro a _; rcases a with ⟨_, _⟩ | ⟨_, _⟩ <;> rfl)

theorem lawful_pivotConfigV0 : Lawful pivotConfigV0 :=
  lawful_imap (lawful_pair (lawful_fixed 32) (lawful_pair lawful_restartPolicy
    (lawful_vec lawful_string))) (fun _ => rfl) (fun _ _ => rfl)

theorem lawful_pivotConfig : Lawful pivotConfig :=
  lawful_imap (lawful_pair (lawful_fixed 32) (lawful_pair lawful_restartPolicy
    (lawful_pair (lawful_vec lawful_bridgeConfig) (lawful_pair lawful_bool (lawful_vec lawful_string)))))
    (fun _ => rfl) (fun _ _ => rfl)

theorem lawful_quorumMember : Lawful quorumMember :=
  lawful_imap (lawful_pair lawful_string lawful_bytes) (fun _ => rfl) (fun _ _ => rfl)

theorem lawful_quorumSet : Lawful quorumSet :=
  lawful_imap (lawful_pair lawful_u32 (lawful_vec lawful_quorumMember)) (fun _ => rfl) (fun _ _ => rfl)

theorem lawful_patchSet : Lawful patchSet :=
  lawful_imap (lawful_pair lawful_u32 (lawful_vec lawful_bytes)) (fun _ => rfl) (fun _ _ => rfl)

theorem lawful_namespace : Lawful «namespace» :=
  lawful_imap (lawful_pair lawful_string (lawful_pair lawful_u32 lawful_bytes))
    (fun _ => rfl) (fun _ _ => rfl)

theorem lawful_manifest : Lawful manifest :=
  lawful_imap (lawful_pair lawful_namespace (lawful_pair lawful_pivotConfig
    (lawful_pair lawful_quorumSet (lawful_pair lawful_quorumSet
      (lawful_pair lawful_nitroConfig lawful_patchSet))))) (fun _ => rfl) (fun _ _ => rfl)

theorem lawful_manifestV0 : Lawful manifestV0 :=
  lawful_imap (lawful_pair lawful_namespace (lawful_pair lawful_pivotConfigV0
    (lawful_pair lawful_quorumSet (lawful_pair lawful_quorumSet
      (lawful_pair lawful_nitroConfig lawful_patchSet))))) (fun _ => rfl) (fun _ _ => rfl)

theorem lawful_approval : Lawful approval :=
  lawful_imap (lawful_pair lawful_bytes lawful_quorumMember) (fun _ => rfl) (fun _ _ => rfl)

theorem lawful_envelopeOf {M : Type} {c : Codec M} (h : Lawful c) : Lawful (envelopeOf c) :=
  lawful_imap (lawful_pair h (lawful_pair (lawful_vec lawful_approval) (lawful_vec lawful_approval)))
    (fun _ => rfl) (fun _ _ => rfl)

end Borsh

/-! ### JSON -/
namespace JCodec
open Json

theorem lawful_u32 : u32.Lawful :=
  lawful_imap (lawful_stringOrNumeric _ (by decide)) (fun b => by simp) (fun a h => by
    have h' : a < 2 ^ 32 := h
    rw [UInt32.toNat_ofNat_of_lt' h']; exact h)

theorem lawful_u16 : u16.Lawful :=
  lawful_imap (lawful_stringOrNumeric _ (by decide)) (fun b => by simp) (fun a h => by
    have h' : a < 2 ^ 16 := h
    rw [UInt16.toNat_ofNat_of_lt' h']; exact h)

theorem ok_u32 (x : UInt32) : u32.ok x := x.toNat_lt
theorem ok_u16 (x : UInt16) : u16.ok x := x.toNat_lt

theorem find_name {α : Type} {all : List α} {name : α → String} (hi : ∀ a ∈ all, ∀ b ∈ all, name a = name b → a = b)
    {a : α} (h : a ∈ all) : (all.find? fun x => name x == name a) = some a := by
  cases hf : all.find? fun x => name x == name a with
  | none =>
    have := List.find?_eq_none.mp hf a h
    simp at this
  | some b =>
    have h1 := List.find?_some hf
    have h2 := List.mem_of_find?_eq_some hf
    simp only [beq_iff_eq] at h1
    rw [hi b h2 a h h1]

theorem lawful_unitEnum {α : Type} {all : List α} {name : α → String}
    (hi : ∀ a ∈ all, ∀ b ∈ all, name a = name b → a = b) : (unitEnum all name).Lawful where
  dec_enc a h := find_name hi h
  dec_norm a h := find_name hi h
  dec_ok v a h := by
    simp only [unitEnum] at h
    split at h
    · exact List.mem_of_find?_eq_some h
    · exact List.mem_of_find?_eq_some h
    · cases h
  dec_null := rfl
  plain _ _ := trivial
  unique _ _ := trivial
  height _ := Nat.le_refl _

theorem lawful_restartPolicy : restartPolicy.Lawful :=
  lawful_unitEnum (by intro a _ b _; cases a <;> cases b <;> simp [restartName])

theorem lawful_v2Version : v2Version.Lawful where
  dec_enc a h := by have h' : a = .v2 := h; subst h'; decide
  dec_norm a h := by have h' : a = .v2 := h; subst h'; decide
  dec_ok v a h := by
    simp only [v2Version] at h
    split at h
    · cases h; rfl
    · cases h
  dec_null := rfl
  plain _ _ := trivial
  unique _ _ := trivial
  height _ := Nat.le_refl _

theorem lookup_filter {tag k : String} (h : k ≠ tag) (l : List (String × Json)) :
    lookup k (l.filter fun kv => kv.1 ≠ tag) = lookup k l := by
  induction l with
  | nil => rfl
  | cons kv l ih =>
    obtain ⟨k', v⟩ := kv
    by_cases hk : k' = tag
    · subst hk
      rw [List.filter_cons_of_neg (by simp), ih]
      simp [lookup, h]
    · rw [List.filter_cons_of_pos (by simpa using hk)]
      simp only [lookup, ih]

theorem splitTag_obj {tag : String} {t : Json} {kvs : List (String × Json)}
    (hn : (kvs.map Prod.fst).Nodup) (hl : lookup tag kvs = some t) :
    splitTag tag (.obj kvs) = some (t, .obj (kvs.filter fun kv => kv.1 ≠ tag)) := by
  have hm : tag ∈ kvs.map Prod.fst := by
    by_contra hc
    rw [lookup_none_iff.mpr hc] at hl; cases hl
  simp only [splitTag]
  rw [if_pos (List.count_eq_one_of_mem hn hm), hl]

theorem struct_filter {α : Type} {f : Fields α} {tag : String} (ht : tag ∉ f.keys)
    {kvs : List (String × Json)} (hn : (kvs.map Prod.fst).Nodup)
    (hs : ∀ k ∈ kvs.map Prod.fst, k = tag ∨ k ∈ f.keys) (hf : f.Lawful)
    {a : α} (ha : f.ok a)
    (hl : (∀ k ∈ f.keys, lookup k kvs = lookup k (f.enc a)) ∨
      (∀ k ∈ f.keys, lookup k kvs = normLook (f.enc a) k)) :
    (struct false f).dec (.obj (kvs.filter fun kv => kv.1 ≠ tag)) = some a := by
  have hsub : ((kvs.filter fun kv => kv.1 ≠ tag).map Prod.fst).Sublist (kvs.map Prod.fst) :=
    List.Sublist.map _ List.filter_sublist
  simp only [struct, entriesOf]
  rw [decEntries_of (hsub.nodup hn)]
  · have e : ∀ k ∈ f.keys, lookup k (kvs.filter fun kv => kv.1 ≠ tag) = lookup k kvs :=
      fun k hk => lookup_filter (fun (h : k = tag) => ht (h ▸ hk)) kvs
    rcases hl with hl | hl
    · exact hf.dec_enc a _ ha fun k hk => by rw [e k hk, hl k hk]
    · exact hf.dec_norm a _ ha fun k hk => by rw [e k hk, hl k hk]
  · intro k hk
    obtain ⟨kv, hkv, rfl⟩ := List.mem_map.mp hk
    have hm := List.mem_filter.mp hkv
    rcases hs kv.1 (List.mem_map.mpr ⟨kv, hm.1, rfl⟩) with h | h
    · simp [h] at hm
    · exact h

/-- One variant of an internally tagged enum, as written and after canonical rewriting. -/
theorem tagged_variant {α : Type} {f : Fields α} {tag name : String} (ht : tag ∉ f.keys)
    (hf : f.Lawful) {a : α} (ha : f.ok a) (v : Json)
    (hv : v = .obj ((tag, .str name) :: f.enc a) ∨ v = norm (.obj ((tag, .str name) :: f.enc a))) :
    ∃ rest, splitTag tag v = some (.str name, rest) ∧ (struct false f).dec rest = some a := by
  have hk : tag ∉ (f.enc a).map Prod.fst := fun h => ht ((hf.sub a).subset h)
  have hn : (((tag, Json.str name) :: f.enc a).map Prod.fst).Nodup := by
    simp only [List.map_cons, List.nodup_cons]
    exact ⟨hk, (hf.sub a).nodup hf.nodup⟩
  have hnn : ∀ kv ∈ ((tag, Json.str name) :: f.enc a), kv.2 ≠ .null := by
    intro kv hkv
    rcases List.mem_cons.mp hkv with rfl | h
    · simp
    · exact hf.ne_null a ha kv h
  rcases hv with rfl | rfl
  · refine ⟨_, splitTag_obj hn (by simp [lookup]), ?_⟩
    refine struct_filter ht hn ?_ hf ha (Or.inl ?_)
    · intro k hk
      rcases List.mem_cons.mp hk with rfl | h
      · exact Or.inl rfl
      · exact Or.inr ((hf.sub a).subset h)
    · intro k hk
      have : k ≠ tag := fun h => ht (h ▸ hk)
      simp [lookup, this]
  · have hsub := normObj_keys_sublist ((tag, Json.str name) :: f.enc a)
    have hperm := (sortEntries_perm (normObj ((tag, Json.str name) :: f.enc a))).map Prod.fst
    have hn' := hperm.nodup_iff.mpr (hsub.nodup hn)
    have hl := lookup_norm_nonnull hn hnn
    simp only [norm]
    refine ⟨_, splitTag_obj hn' (by rw [hl]; simp [normLook, lookup, norm]), ?_⟩
    refine struct_filter ht hn' ?_ hf ha (Or.inr ?_)
    · intro k hk
      rcases List.mem_cons.mp (hsub.subset (hperm.mem_iff.mp hk)) with rfl | h
      · exact Or.inl rfl
      · exact Or.inr ((hf.sub a).subset h)
    · intro k hk
      have : k ≠ tag := fun h => ht (h ▸ hk)
      rw [hl]; simp [normLook, lookup, this]

theorem lawful_tagged2 {α β : Type} {tag nameA nameB : String} {fa : Fields α} {fb : Fields β}
    (ha : fa.Lawful) (hb : fb.Lawful) (hta : tag ∉ fa.keys) (htb : tag ∉ fb.keys) (hne : nameB ≠ nameA) :
    (tagged2 tag nameA fa nameB fb).Lawful := by
  have key : ∀ x : α ⊕ β, (tagged2 tag nameA fa nameB fb).ok x → ∀ v,
      (v = (tagged2 tag nameA fa nameB fb).enc x ∨ v = norm ((tagged2 tag nameA fa nameB fb).enc x)) →
      (tagged2 tag nameA fa nameB fb).dec v = some x := by
    intro x hx v hv
    cases x with
    | inl a =>
      obtain ⟨rest, h1, h2⟩ := tagged_variant hta ha (a := a) hx v hv
      simp only [tagged2, h1, if_true, h2, Option.map_some]
    | inr b =>
      obtain ⟨rest, h1, h2⟩ := tagged_variant htb hb (a := b) hx v hv
      simp only [tagged2, h1, hne, if_false, if_true, h2, Option.map_some]
  refine ⟨fun x hx => key x hx _ (Or.inl rfl), fun x hx => key x hx _ (Or.inr rfl), ?_, rfl, ?_, ?_, ?_⟩
  · intro v x h
    simp only [tagged2] at h
    split at h
    · split at h
      · rw [Option.map_eq_some_iff] at h
        obtain ⟨a, h1, rfl⟩ := h
        exact (lawful_struct (deny := false) ha).dec_ok _ _ h1
      · split at h
        · rw [Option.map_eq_some_iff] at h
          obtain ⟨a, h1, rfl⟩ := h
          exact (lawful_struct (deny := false) hb).dec_ok _ _ h1
        · cases h
    · cases h
  · intro x hx
    cases x with
    | inl a => exact ⟨trivial, ha.plain a hx⟩
    | inr b => exact ⟨trivial, hb.plain b hx⟩
  · intro x hx
    cases x with
    | inl a =>
      refine ⟨?_, trivial, ha.unique a hx⟩
      simp only [List.map_cons, List.nodup_cons]
      exact ⟨fun h => hta ((ha.sub a).subset h), (ha.sub a).nodup ha.nodup⟩
    | inr b =>
      refine ⟨?_, trivial, hb.unique b hx⟩
      simp only [List.map_cons, List.nodup_cons]
      exact ⟨fun h => htb ((hb.sub b).subset h), (hb.sub b).nodup hb.nodup⟩
  · intro x
    cases x with
    | inl a =>
      have := ha.height a
      simp only [tagged2, Json.height, heightObj]; omega
    | inr b =>
      have := hb.height b
      simp only [tagged2, Json.height, heightObj]; omega

theorem lawful_bridgeConfig : bridgeConfig.Lawful :=
  lawful_imap (lawful_tagged2
    (Fields.lawful_both (Fields.lawful_req lawful_u16) (Fields.lawful_req lawful_string) (by decide +kernel))
    (Fields.lawful_both (Fields.lawful_req lawful_u16) (Fields.lawful_opt lawful_string) (by decide +kernel))
    (by decide +kernel) (by decide +kernel) (by decide))
    (by intro b; cases b <;> rfl) (by intro a h; rcases a with ⟨_, _⟩ | ⟨_, _⟩ <;> exact h)

theorem lawful_nitroConfig : nitroConfig.Lawful :=
  lawful_struct (Fields.lawful_imap
    (Fields.lawful_both (Fields.lawful_req lawful_hexVec)
      (Fields.lawful_both (Fields.lawful_req lawful_hexVec)
        (Fields.lawful_both (Fields.lawful_req lawful_hexVec)
          (Fields.lawful_both (Fields.lawful_req lawful_hexVec)
            (Fields.lawful_both (Fields.lawful_req lawful_hexVec) (Fields.lawful_req lawful_string)
              (by decide +kernel)) (by decide +kernel)) (by decide +kernel)) (by decide +kernel))
      (by decide +kernel))
    (fun _ => rfl) (fun _ h => h))

theorem lawful_pivotConfigV0 : pivotConfigV0.Lawful :=
  lawful_struct (Fields.lawful_imap
    (Fields.lawful_both (Fields.lawful_req (lawful_hexArray 32))
      (Fields.lawful_both (Fields.lawful_req lawful_restartPolicy)
        (Fields.lawful_req (lawful_vec lawful_string)) (by decide +kernel)) (by decide +kernel))
    (fun _ => rfl) (fun _ h => h))

theorem lawful_pivotConfig : pivotConfig.Lawful :=
  lawful_struct (Fields.lawful_imap
    (Fields.lawful_both (Fields.lawful_req (lawful_hexArray 32))
      (Fields.lawful_both (Fields.lawful_req lawful_restartPolicy)
        (Fields.lawful_both (Fields.lawful_req (lawful_vec lawful_bridgeConfig))
          (Fields.lawful_both (Fields.lawful_req lawful_bool) (Fields.lawful_req (lawful_vec lawful_string))
            (by decide +kernel)) (by decide +kernel)) (by decide +kernel)) (by decide +kernel))
    (fun _ => rfl) (fun _ h => h))

theorem lawful_value : (struct false (.req "value" string)).Lawful :=
  lawful_struct (Fields.lawful_req lawful_string)

theorem lawful_envValue : envValue.Lawful where
  dec_enc v _ := lawful_value.dec_enc v trivial
  dec_norm v _ := by
    have e : norm (envValue.enc v) = envValue.enc v := by
      simp [envValue, norm, normObj, isNull, sortEntries]
    rw [e]; exact lawful_value.dec_enc v trivial
  dec_ok _ _ _ := trivial
  dec_null := rfl
  plain v _ := ⟨⟨trivial, trivial⟩, trivial⟩
  unique v _ := ⟨by simp, ⟨by simp, trivial, trivial⟩, trivial⟩
  height v := by simp [envValue, Json.height, heightObj]

theorem envPairs_map {g : String → Json} (hg : ∀ v, envValue.dec (g v) = some v)
    (m : List (String × String)) : envPairs (m.map fun kv => (kv.1, g kv.2)) = some m := by
  induction m with
  | nil => rfl
  | cons kv m ih => obtain ⟨k, v⟩ := kv; simp only [List.map_cons, envPairs, hg, ih]

theorem mem_collect_iff {ps : List (String × String)} (hn : (ps.map Prod.fst).Nodup) {kv} :
    kv ∈ Env.collect ps ↔ kv ∈ ps := by
  constructor
  · exact Env.mem_collect
  · intro h
    have hg : Env.get kv.1 (Env.collect ps) = some kv.2 := by
      rw [Env.env_collect_last]
      have hnr : (ps.reverse.map Prod.fst).Nodup := by
        rw [List.map_reverse]; exact List.nodup_reverse.mpr hn
      have hm : kv ∈ ps.reverse := List.mem_reverse.mpr h
      generalize ps.reverse = l at hnr hm
      induction l with
      | nil => cases hm
      | cons x l ih =>
        simp only [List.map_cons, List.nodup_cons] at hnr
        rcases List.mem_cons.mp hm with rfl | hm
        · simp
        · have : x.1 ≠ kv.1 := fun he => hnr.1 (he ▸ List.mem_map_of_mem (f := Prod.fst) hm)
          rw [List.find?_cons_of_neg (by simpa using this)]
          exact ih hnr.2 hm
    generalize Env.collect ps = m at hg
    induction m with
    | nil => simp [Env.get] at hg
    | cons x m ih =>
      obtain ⟨k', v'⟩ := x
      simp only [Env.get] at hg
      split at hg
      · rename_i he
        cases hg
        have : kv = (k', kv.2) := by rw [← he]
        rw [this]; simp
      · exact List.mem_cons_of_mem _ (ih hg)

theorem collect_perm {m ps : List (String × String)} (hs : Env.Sorted m) (hp : ps.Perm m) :
    Env.collect ps = m := by
  have hn : (ps.map Prod.fst).Nodup := (hp.map _).nodup_iff.mpr (Env.sorted_nodup hs)
  have h2 := Env.sorted_collect ps
  have nd : ∀ {l : Env.Map}, Env.Sorted l → l.Nodup := fun h => (Env.sorted_nodup h).of_map _
  have hperm : (Env.collect ps).Perm m := by
    rw [List.perm_ext_iff_of_nodup (nd h2) (nd hs)]
    intro kv
    rw [mem_collect_iff hn, hp.mem_iff]
  refine hperm.eq_of_pairwise ?_ h2 hs
  intro a b _ _ hab hba
  exact absurd (String.lt_trans hab hba) (String.lt_irrefl _)

theorem decode_perm {m ps : List (String × String)} (h : Env.decode m = some m) (hp : ps.Perm m) :
    Env.decode ps = some m := by
  have hi := Env.inv_decode h
  rw [Env.env_decode_iff]
  exact ⟨fun kv hkv => hi.2.2 kv (hp.mem_iff.mp hkv), (collect_perm hi.2.1 hp).symm, hi.1⟩

theorem decode_idem {ps : List (String × String)} {m : Env.Map} (h : Env.decode ps = some m) :
    Env.decode m = some m := by
  have hi := Env.inv_decode h
  rw [Env.env_decode_iff]
  exact ⟨hi.2.2, (collect_perm hi.2.1 (List.Perm.refl _)).symm, hi.1⟩

theorem envValue_norm (v : String) : norm (envValue.enc v) = envValue.enc v := by
  simp [envValue, norm, normObj, isNull, sortEntries]

theorem lawful_pivotEnv : pivotEnv.Lawful where
  dec_enc m h := by
    simp only [pivotEnv]
    rw [envPairs_map (g := envValue.enc) (fun v => lawful_envValue.dec_enc v trivial) m]
    exact h
  dec_norm m h := by
    have h1 : normObj (m.map fun kv => (kv.1, envValue.enc kv.2)) = m.map fun kv => (kv.1, envValue.enc kv.2) := by
      clear h
      induction m with
      | nil => rfl
      | cons kv m ih => simp only [List.map_cons, normObj, envValue_norm, ih]; rfl
    simp only [pivotEnv, norm, h1]
    have e : sortEntries (m.map fun kv => (kv.1, envValue.enc kv.2)) =
        (sortEntries m).map fun kv => (kv.1, envValue.enc kv.2) := sortEntries_map envValue.enc m
    rw [e, envPairs_map (g := envValue.enc) (fun v => lawful_envValue.dec_enc v trivial)]
    exact decode_perm h (sortEntries_perm m)
  dec_ok v m h := by
    simp only [pivotEnv] at h
    split at h
    · split at h
      · exact decode_idem h
      · cases h
    · cases h
  dec_null := rfl
  plain m h := by
    simp only [pivotEnv, Plain, plainObj_iff, List.mem_map]
    rintro kv ⟨x, -, rfl⟩
    exact lawful_envValue.plain _ trivial
  unique m h := by
    have hn := Env.sorted_nodup (Env.inv_decode (show Env.decode m = some m from h)).2.1
    refine ⟨?_, ?_⟩
    · rw [List.map_map]; exact hn
    · clear h hn
      induction m with
      | nil => trivial
      | cons kv m ih => exact ⟨lawful_envValue.unique _ trivial, ih⟩
  height m := by
    simp only [pivotEnv, Json.height]
    have : heightObj (m.map fun kv => (kv.1, envValue.enc kv.2)) ≤ 2 := by
      rw [heightObj_le_iff]
      intro kv hkv
      obtain ⟨x, -, rfl⟩ := List.mem_map.mp hkv
      exact lawful_envValue.height _
    omega

theorem ok_env_nil : pivotEnv.ok [] := by show Env.decode [] = some []; decide

theorem lawful_pivotConfigV2 : pivotConfigV2.Lawful :=
  lawful_struct (Fields.lawful_imap
    (Fields.lawful_both (Fields.lawful_req (lawful_hexArray 32))
      (Fields.lawful_both (Fields.lawful_req lawful_restartPolicy)
        (Fields.lawful_both (Fields.lawful_req (lawful_vec lawful_bridgeConfig))
          (Fields.lawful_both (Fields.lawful_req lawful_bool)
            (Fields.lawful_both (Fields.lawful_req (lawful_vec lawful_string))
              (Fields.lawful_orEmpty lawful_pivotEnv ok_env_nil)
              (by decide +kernel)) (by decide +kernel)) (by decide +kernel)) (by decide +kernel))
      (by decide +kernel))
    (fun _ => rfl) (fun _ h => h))

theorem lawful_quorumMember : quorumMember.Lawful :=
  lawful_struct (Fields.lawful_imap
    (Fields.lawful_both (Fields.lawful_req lawful_string) (Fields.lawful_req lawful_hexVec)
      (by decide +kernel)) (fun _ => rfl) (fun _ h => h))

theorem lawful_quorumSet : quorumSet.Lawful :=
  lawful_struct (Fields.lawful_imap
    (Fields.lawful_both (Fields.lawful_req lawful_u32) (Fields.lawful_req (lawful_vec lawful_quorumMember))
      (by decide +kernel)) (fun _ => rfl) (fun _ h => h))

theorem lawful_patchSet : patchSet.Lawful :=
  lawful_struct (Fields.lawful_imap
    (Fields.lawful_both (Fields.lawful_req lawful_u32)
      (Fields.lawful_req (lawful_vec (lawful_struct (Fields.lawful_req lawful_hexVec))))
      (by decide +kernel)) (fun _ => rfl) (fun _ h => h))

theorem lawful_namespace : «namespace».Lawful :=
  lawful_struct (Fields.lawful_imap
    (Fields.lawful_both (Fields.lawful_req lawful_string)
      (Fields.lawful_both (Fields.lawful_req lawful_u32) (Fields.lawful_req lawful_hexVec)
        (by decide +kernel)) (by decide +kernel)) (fun _ => rfl) (fun _ h => h))

theorem lawful_ipAddr : ipAddr.Lawful where
  dec_enc a _ := Ip.parse_display a
  dec_norm a _ := Ip.parse_display a
  dec_ok _ _ _ := trivial
  dec_null := rfl
  plain _ _ := trivial
  unique _ _ := trivial
  height _ := Nat.le_refl _

theorem lawful_dnsConfig : dnsConfig.Lawful :=
  lawful_struct (Fields.lawful_imap (Fields.lawful_req (lawful_vec lawful_ipAddr))
    (fun _ => rfl) (fun _ h => h))

theorem lawful_manifest : manifest.Lawful :=
  lawful_struct (Fields.lawful_imap
    (Fields.lawful_both (Fields.lawful_req lawful_namespace)
      (Fields.lawful_both (Fields.lawful_req lawful_pivotConfig)
        (Fields.lawful_both (Fields.lawful_req lawful_quorumSet)
          (Fields.lawful_both (Fields.lawful_req lawful_quorumSet)
            (Fields.lawful_both (Fields.lawful_req lawful_nitroConfig) (Fields.lawful_req lawful_patchSet)
              (by decide +kernel)) (by decide +kernel)) (by decide +kernel)) (by decide +kernel))
      (by decide +kernel))
    (fun _ => rfl) (fun _ h => h))

theorem lawful_manifestV0 : manifestV0.Lawful :=
  lawful_struct (Fields.lawful_imap
    (Fields.lawful_both (Fields.lawful_req lawful_namespace)
      (Fields.lawful_both (Fields.lawful_req lawful_pivotConfigV0)
        (Fields.lawful_both (Fields.lawful_req lawful_quorumSet)
          (Fields.lawful_both (Fields.lawful_req lawful_quorumSet)
            (Fields.lawful_both (Fields.lawful_req lawful_nitroConfig) (Fields.lawful_req lawful_patchSet)
              (by decide +kernel)) (by decide +kernel)) (by decide +kernel)) (by decide +kernel))
      (by decide +kernel))
    (fun _ => rfl) (fun _ h => h))

theorem lawful_manifestV2 : manifestV2.Lawful :=
  lawful_struct (Fields.lawful_imap
    (Fields.lawful_both (Fields.lawful_req lawful_v2Version)
      (Fields.lawful_both (Fields.lawful_req lawful_namespace)
        (Fields.lawful_both (Fields.lawful_req lawful_pivotConfigV2)
          (Fields.lawful_both (Fields.lawful_req lawful_quorumSet)
            (Fields.lawful_both (Fields.lawful_req lawful_quorumSet)
              (Fields.lawful_both (Fields.lawful_req lawful_nitroConfig) (Fields.lawful_opt lawful_dnsConfig)
                (by decide +kernel)) (by decide +kernel)) (by decide +kernel)) (by decide +kernel))
        (by decide +kernel)) (by decide +kernel))
    (fun _ => rfl) (fun _ h => h))

theorem lawful_approval : approval.Lawful :=
  lawful_struct (Fields.lawful_imap
    (Fields.lawful_both (Fields.lawful_req lawful_hexVec) (Fields.lawful_req lawful_quorumMember)
      (by decide +kernel)) (fun _ => rfl) (fun _ h => h))

theorem lawful_envelopeFields {M : Type} {c : JCodec M} {a b d : String} (hc : c.Lawful)
    (h1 : a ≠ b) (h2 : a ≠ d) (h3 : b ≠ d) : (envelopeFields c a b d).Lawful :=
  Fields.lawful_imap
    (Fields.lawful_both (Fields.lawful_req hc)
      (Fields.lawful_both (Fields.lawful_req (lawful_vec lawful_approval))
        (Fields.lawful_req (lawful_vec lawful_approval)) (by simpa [Fields.req] using h3))
      (by simpa [Fields.req, Fields.both] using ⟨h1, h2⟩))
    (fun _ => rfl) (fun _ h => h)

theorem lawful_envelopeV1 : envelopeV1.Lawful :=
  lawful_struct (lawful_envelopeFields lawful_manifest (by decide) (by decide) (by decide))
theorem lawful_envelopeV0 : envelopeV0.Lawful :=
  lawful_struct (lawful_envelopeFields lawful_manifestV0 (by decide) (by decide) (by decide))
theorem lawful_envelopeV2 : envelopeV2.Lawful :=
  lawful_struct (lawful_envelopeFields lawful_manifestV2 (by decide) (by decide) (by decide))

theorem depth_manifest : manifest.depth < 128 := by decide +kernel
theorem depth_manifestV0 : manifestV0.depth < 128 := by decide +kernel
theorem depth_manifestV2 : manifestV2.depth < 128 := by decide +kernel
theorem depth_envelopeV1 : envelopeV1.depth < 128 := by decide +kernel
theorem depth_envelopeV0 : envelopeV0.depth < 128 := by decide +kernel
theorem depth_envelopeV2 : envelopeV2.depth < 128 := by decide +kernel

end JCodec
end Qos
