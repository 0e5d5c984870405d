import Verif.Lemmas.Format
import Verif.Props.Storage
import Verif.Props.Approvals
import Mathlib.Data.List.Sort
/-!
# C73: the manifest documents, field by field
-/
namespace Qos.Format
open Json

/-- Field lists of this file read their own names only. -/
local macro "recs" : tactic => `(tactic|
  repeat' (first | exact reads_req | exact reads_opt | exact reads_orEmpty | apply reads_imap | (refine reads_both ?_ ?_ (by simp [Fields.req, Fields.opt, Fields.orEmpty, Fields.both]))))

/-- A struct is read as the record of its fields. -/
local macro "record" : tactic => `(tactic| (
  refine Iff.trans (struct_iff (by recs)) ?_
  refine exists_congr fun field => and_congr Iff.rfl ?_
  refine Iff.trans (imap_iff (by intro a; rfl) (by intro a; rfl)) ?_
  simp only [both_iff, req_iff, hexVec_iff, hexArray_iff, text_iff, flag_iff, texts_iff, u16_iff, u32_iff]))

theorem unitEnum_iff {α : Type} {all : List α} {name : α → String} (hall : ∀ a, a ∈ all)
    (inj : ∀ a b, name a = name b → a = b) {v : Json} {a : α} :
    (JCodec.unitEnum all name).dec v = some a ↔ IsName v (name a) := by
  have key : ∀ s, (all.find? fun a => name a == s) = some a ↔ s = name a := by
    intro s
    constructor
    · intro h
      have h2 := List.find?_some h
      exact (beq_iff_eq.mp h2).symm
    · rintro rfl
      cases h : all.find? fun b => name b == name a with
      | none =>
        have := List.find?_eq_none.mp h a (hall a)
        simp at this
      | some b =>
        have h2 := List.find?_some h
        rw [inj b a (beq_iff_eq.mp h2)]
  unfold JCodec.unitEnum IsName
  cases v with
  | str s => simpa using key s
  | obj kvs =>
    match kvs with
    | [] => simp
    | [(s, .null)] => simpa using key s
    | [(s, .bool _)] => simp
    | [(s, .int _)] => simp
    | [(s, .float ..)] => simp
    | [(s, .str _)] => simp
    | [(s, .arr _)] => simp
    | [(s, .obj _)] => simp
    | _ :: _ :: _ => simp
  | _ => simp

theorem restart_iff {v : Json} {r : RestartPolicy} : JCodec.restartPolicy.dec v = some r ↔ RestartDoc v r := by
  refine Iff.trans (unitEnum_iff (by intro a; cases a <;> simp) (by intro a b; cases a <;> cases b <;> simp [JCodec.restartName])) ?_
  cases r <;> rfl

theorem version_iff {v : Json} {r : ManifestVersion} : JCodec.v2Version.dec v = some r ↔ r = .v2 ∧ IsName v "v2" := by
  have k2 : IsName v "v2" ↔ _ := (unitEnum_iff (all := [ManifestVersion.v1, .v2]) (name := JCodec.versionName) (v := v)
    (a := .v2) (by intro a; cases a <;> simp) (by intro a b; cases a <;> cases b <;> simp [JCodec.versionName])).symm
  rw [k2]
  simp only [JCodec.v2Version]
  cases h : (JCodec.unitEnum [ManifestVersion.v1, .v2] JCodec.versionName).dec v with
  | none => simp
  | some x => cases x <;> cases r <;> simp

theorem nitro_iff {v : Json} {n : NitroConfig} : JCodec.nitroConfig.dec v = some n ↔ NitroDoc v n := by
  unfold JCodec.nitroConfig NitroDoc
  record

theorem pivotV0_iff {v : Json} {p : PivotConfigV0} : JCodec.pivotConfigV0.dec v = some p ↔ PivotDocV0 v p := by
  unfold JCodec.pivotConfigV0 PivotDocV0
  record
  simp only [restart_iff]

theorem member_iff {v : Json} {m : QuorumMember} : JCodec.quorumMember.dec v = some m ↔ MemberDoc v m := by
  unfold JCodec.quorumMember MemberDoc
  record

theorem set_iff {v : Json} {m : QuorumSet} : JCodec.quorumSet.dec v = some m ↔ SetDoc v m := by
  unfold JCodec.quorumSet SetDoc
  record
  simp only [vec_iff fun _ _ => member_iff]

theorem patchMember_iff {v : Json} {b : Bytes} :
    (JCodec.struct false (.req "pubKey" JCodec.hexVec)).dec v = some b ↔ PatchMemberDoc v b := by
  unfold PatchMemberDoc
  refine Iff.trans (struct_iff (by recs)) ?_
  refine exists_congr fun field => and_congr Iff.rfl ?_
  simp only [req_iff, hexVec_iff]

theorem patchSet_iff {v : Json} {m : PatchSet} : JCodec.patchSet.dec v = some m ↔ PatchSetDoc v m := by
  unfold JCodec.patchSet PatchSetDoc
  record
  simp only [vec_iff fun _ _ => patchMember_iff]

theorem namespace_iff {v : Json} {m : Namespace} : JCodec.namespace.dec v = some m ↔ NamespaceDoc v m := by
  unfold JCodec.namespace NamespaceDoc
  record

theorem ip_iff {v : Json} {a : IpAddr} : JCodec.ipAddr.dec v = some a ↔ IpDoc v a := Ip.manifest_resolver v a

theorem dns_iff {v : Json} {d : DnsConfig} : JCodec.dnsConfig.dec v = some d ↔ DnsDoc v d := by
  unfold JCodec.dnsConfig DnsDoc
  record
  simp only [vec_iff fun _ _ => ip_iff]

theorem approval_iff {v : Json} {a : Approval} : JCodec.approval.dec v = some a ↔ ApprovalDoc v a := by
  unfold JCodec.approval ApprovalDoc
  record
  simp only [member_iff]

/-- A tagged record is a record with one more member. -/
theorem tag_record {tag : String} {names : List String} (hn : tag ∉ names) {v t : Json} {P : (String → Option Json) → Prop}
    (ext : ∀ f g, (∀ n ∈ names, f n = g n) → P f → P g) :
    (∃ rest, JCodec.splitTag tag v = some (t, rest) ∧ ∃ f, Record false names rest f ∧ P f) ↔
      ∃ f, Record false (tag :: names) v f ∧ f tag = some t ∧ P f := by
  have ne : ∀ n ∈ names, n ≠ tag := fun n h e => hn (e ▸ h)
  constructor
  · rintro ⟨rest, hs, f, hr, hp⟩
    refine ⟨fun k => if k = tag then some t else f k, ?_, if_pos rfl,
      ext _ _ (fun n h => (if_neg (ne n h)).symm) hp⟩
    cases v with
    | obj kvs =>
      simp only [JCodec.splitTag] at hs
      by_cases hc : (kvs.map Prod.fst).count tag = 1
      · rw [if_pos hc] at hs
        cases hl : lookup tag kvs with
        | none => rw [hl] at hs; cases hs
        | some t' =>
          rw [hl] at hs
          simp only [Option.some.injEq, Prod.mk.injEq] at hs
          obtain ⟨rfl, rfl⟩ := hs
          rcases hr with ⟨m, e, h1, -, h3⟩ | ⟨_, e, -⟩
          · cases e
            refine .inl ⟨kvs, rfl, ?_, by simp, ?_⟩
            · intro n h
              rcases List.mem_cons.mp h with rfl | h
              · omega
              · have := h1 n h
                have e2 : (kvs.filter fun kv => kv.1 ≠ tag).map Prod.fst = (kvs.map Prod.fst).filter (fun k => k ≠ tag) := by
                  rw [List.filter_map]; rfl
                rw [e2, List.count_filter (by simpa using ne n h)] at this
                exact this
            · intro n h x
              show (if n = tag then some _ else f n) = some x ↔ _
              rcases List.mem_cons.mp h with rfl | h
              · rw [if_pos rfl, ← hl]
                exact lookup_mem (by omega)
              · rw [if_neg (ne n h), h3 n h x, List.mem_filter]
                simp [ne n h]
          · cases e
      · rw [if_neg hc] at hs; cases hs
    | arr items =>
      cases items with
      | nil => cases hs
      | cons t' vs =>
        simp only [JCodec.splitTag, Option.some.injEq, Prod.mk.injEq] at hs
        obtain ⟨rfl, rfl⟩ := hs
        rcases hr with ⟨_, e, -⟩ | ⟨items, e, h1, h2⟩
        · cases e
        · cases e
          refine .inr ⟨t' :: vs, rfl, by simpa using h1, ?_⟩
          intro i n hi
          show (if n = tag then some _ else f n) = _
          cases i with
          | zero =>
            simp only [List.getElem?_cons_zero, Option.some.injEq] at hi
            subst hi
            simp
          | succ i =>
            simp only [List.getElem?_cons_succ] at hi ⊢
            rw [if_neg (ne n (List.mem_of_getElem? hi)), h2 i n hi]
    | _ => cases hs
  · rintro ⟨f, hr, ht, hp⟩
    rcases hr with ⟨kvs, rfl, h1, -, h3⟩ | ⟨items, rfl, h1, h2⟩
    · have hm : (tag, t) ∈ kvs := (h3 tag (by simp) t).mp ht
      have hc : (kvs.map Prod.fst).count tag = 1 := by
        have := h1 tag (by simp)
        have : 0 < (kvs.map Prod.fst).count tag := List.count_pos_iff.mpr (List.mem_map_of_mem (f := Prod.fst) hm)
        omega
      have hl : lookup tag kvs = some t := (lookup_mem (by omega)).mpr hm
      refine ⟨.obj (kvs.filter fun kv => kv.1 ≠ tag), ?_, f, .inl ⟨_, rfl, ?_, by simp, ?_⟩, hp⟩
      · simp only [JCodec.splitTag]
        rw [if_pos hc, hl]
      · intro n h
        have e2 : (kvs.filter fun kv => kv.1 ≠ tag).map Prod.fst = (kvs.map Prod.fst).filter (fun k => k ≠ tag) := by
          rw [List.filter_map]; rfl
        rw [e2, List.count_filter (by simpa using ne n h)]
        exact h1 n (List.mem_cons_of_mem _ h)
      · intro n h x
        rw [h3 n (List.mem_cons_of_mem _ h) x, List.mem_filter]
        simp [ne n h]
    · have h0 := h2 0 tag rfl
      rw [ht] at h0
      cases items with
      | nil => cases h0
      | cons t' vs =>
        simp only [List.getElem?_cons_zero, Option.some.injEq] at h0
        subst h0
        refine ⟨.arr vs, rfl, f, .inr ⟨vs, rfl, by simpa using h1, ?_⟩, hp⟩
        intro i n hi
        exact h2 (i + 1) n (by simpa using hi)

theorem has_ext {f g : String → Option Json} {n : String} (h : f n = g n) {P : Json → Prop} (hp : Has f n P) : Has g n P := by
  obtain ⟨x, hx, h2⟩ := hp
  exact ⟨x, h ▸ hx, h2⟩

theorem tagged_iff {α β : Type} {tag nameA nameB : String} {fa : Fields α} {fb : Fields β} (hab : nameA ≠ nameB) {v : Json}
    {x : α ⊕ β} : (JCodec.tagged2 tag nameA fa nameB fb).dec v = some x ↔
      (∃ a, x = .inl a ∧ ∃ rest, JCodec.splitTag tag v = some (.str nameA, rest) ∧ (JCodec.struct false fa).dec rest = some a) ∨
      ∃ b, x = .inr b ∧ ∃ rest, JCodec.splitTag tag v = some (.str nameB, rest) ∧ (JCodec.struct false fb).dec rest = some b := by
  simp only [JCodec.tagged2]
  cases hs : JCodec.splitTag tag v with
  | none => simp
  | some tr =>
    obtain ⟨t, rest⟩ := tr
    cases t with
    | str s =>
      simp only [Option.some.injEq, Prod.mk.injEq, Json.str.injEq]
      by_cases h1 : s = nameA
      · subst h1
        rw [if_pos rfl]
        simp only [Option.map_eq_some_iff, hab, true_and, false_and, exists_false, and_false, or_false]
        constructor
        · rintro ⟨a, h, rfl⟩; exact ⟨a, rfl, rest, rfl, h⟩
        · rintro ⟨a, rfl, _, rfl, h⟩; exact ⟨a, h, rfl⟩
      · rw [if_neg h1]
        by_cases h2 : s = nameB
        · subst h2
          rw [if_pos rfl]
          simp only [Option.map_eq_some_iff, h1, true_and, false_and, exists_false, and_false, false_or]
          constructor
          · rintro ⟨a, h, rfl⟩; exact ⟨a, rfl, rest, rfl, h⟩
          · rintro ⟨a, rfl, _, rfl, h⟩; exact ⟨a, h, rfl⟩
        · rw [if_neg h2]
          simp [h1, h2]
    | _ => simp

theorem bridge_iff {v : Json} {b : BridgeConfig} : JCodec.bridgeConfig.dec v = some b ↔ BridgeDoc v b := by
  have hserver : ∀ (port : UInt16) (host : String),
      (∃ rest, JCodec.splitTag "type" v = some (.str "server", rest) ∧
        (JCodec.struct false (.both (.req "port" JCodec.u16) (.req "host" JCodec.string))).dec rest = some (port, host)) ↔
      BridgeDoc v (.server port host) := by
    intro port host
    have hr : ∀ rest, (JCodec.struct false (.both (.req "port" JCodec.u16) (.req "host" JCodec.string))).dec rest =
        some (port, host) ↔ ∃ f, Record false ["port", "host"] rest f ∧
          (Has f "port" (IsNumber · port.toNat) ∧ Has f "host" (IsText · host)) := by
      intro rest
      refine Iff.trans (struct_iff (by recs)) ?_
      refine exists_congr fun field => and_congr Iff.rfl ?_
      simp only [both_iff, req_iff, u16_iff, text_iff]
    simp only [hr]
    refine Iff.trans (tag_record (by simp) ?_) ?_
    · rintro f g h ⟨h1, h2⟩
      exact ⟨has_ext (h "port" (by simp)) h1, has_ext (h "host" (by simp)) h2⟩
    · refine exists_congr fun field => and_congr Iff.rfl (and_congr ?_ Iff.rfl)
      simp [Has, IsText]
  have hclient : ∀ (port : UInt16) (host : Option String),
      (∃ rest, JCodec.splitTag "type" v = some (.str "client", rest) ∧
        (JCodec.struct false (.both (.req "port" JCodec.u16) (.opt "host" JCodec.string))).dec rest = some (port, host)) ↔
      BridgeDoc v (.client port host) := by
    intro port host
    have hr : ∀ rest, (JCodec.struct false (.both (.req "port" JCodec.u16) (.opt "host" JCodec.string))).dec rest =
        some (port, host) ↔ ∃ f, Record false ["port", "host"] rest f ∧
          (Has f "port" (IsNumber · port.toNat) ∧ ((host = none ∧ (f "host" = none ∨ f "host" = some .null)) ∨
            ∃ h, host = some h ∧ Has f "host" (IsText · h))) := by
      intro rest
      refine Iff.trans (struct_iff (by recs)) ?_
      refine exists_congr fun field => and_congr Iff.rfl ?_
      simp only [both_iff, req_iff, u16_iff, opt_iff (c := JCodec.string) rfl, text_iff]
    simp only [hr]
    refine Iff.trans (tag_record (by simp) ?_) ?_
    · rintro f g h ⟨h1, h2⟩
      refine ⟨has_ext (h "port" (by simp)) h1, ?_⟩
      rcases h2 with ⟨h3, h4⟩ | ⟨x, h3, h4⟩
      · exact .inl ⟨h3, by rwa [← h "host" (by simp)]⟩
      · exact .inr ⟨x, h3, has_ext (h "host" (by simp)) h4⟩
    · refine exists_congr fun field => and_congr Iff.rfl (and_congr ?_ Iff.rfl)
      simp [Has, IsText]
  simp only [JCodec.bridgeConfig, JCodec.imap, Option.map_eq_some_iff, tagged_iff (show "server" ≠ "client" by simp)]
  constructor
  · rintro ⟨x, ⟨⟨p, h⟩, rfl, hd⟩ | ⟨⟨p, h⟩, rfl, hd⟩, rfl⟩
    · exact (hserver p h).mp hd
    · exact (hclient p h).mp hd
  · intro h
    cases b with
    | server p host => exact ⟨.inl (p, host), .inl ⟨_, rfl, (hserver p host).mpr h⟩, rfl⟩
    | client p host => exact ⟨.inr (p, host), .inr ⟨_, rfl, (hclient p host).mpr h⟩, rfl⟩

theorem pivotV1_iff {v : Json} {p : PivotConfig} : JCodec.pivotConfig.dec v = some p ↔ PivotDocV1 v p := by
  unfold JCodec.pivotConfig PivotDocV1
  record
  simp only [restart_iff, vec_iff fun _ _ => bridge_iff]

/-! ### The environment -/

theorem envValue_iff {v : Json} {s : String} : JCodec.envValue.dec v = some s ↔ EnvValueDoc v s := by
  have hr : ∀ inner, (JCodec.struct false (.req "value" JCodec.string)).dec inner = some s ↔
      ∃ field, Record false ["value"] inner field ∧ Has field "value" (IsText · s) := by
    intro inner
    refine Iff.trans (struct_iff (by recs)) ?_
    refine exists_congr fun field => and_congr Iff.rfl ?_
    simp only [req_iff, text_iff]
  unfold EnvValueDoc
  have hno : (∀ inner, v ≠ .obj [("plain", inner)]) → (JCodec.envValue.dec v = some s ↔
      ∃ inner field, v = .obj [("plain", inner)] ∧ Record false ["value"] inner field ∧ Has field "value" (IsText · s)) := by
    intro h
    constructor
    · intro hd
      unfold JCodec.envValue at hd
      simp only at hd
      cases hd
    · rintro ⟨inner, _, e, -⟩
      exact absurd e (h inner)
  by_cases hv : ∃ inner, v = .obj [("plain", inner)]
  · obtain ⟨inner, rfl⟩ := hv
    refine Iff.trans (b := (JCodec.struct false (.req "value" JCodec.string)).dec inner = some s) Iff.rfl ?_
    rw [hr]
    constructor
    · rintro ⟨f, h⟩; exact ⟨inner, f, rfl, h⟩
    · rintro ⟨i, f, e, h⟩
      simp only [Json.obj.injEq, List.cons.injEq, Prod.mk.injEq, true_and, and_true] at e
      subst e
      exact ⟨f, h⟩
  · exact hno fun inner e => hv ⟨inner, e⟩

theorem envPairs_iff {kvs : List (String × Json)} {ps : List (String × String)} : JCodec.envPairs kvs = some ps ↔
    List.Forall₂ (fun kv g => kv.1 = g.1 ∧ EnvValueDoc kv.2 g.2) kvs ps := by
  induction kvs generalizing ps with
  | nil => cases ps <;> simp [JCodec.envPairs]
  | cons kv kvs ih =>
    obtain ⟨k, v⟩ := kv
    unfold JCodec.envPairs
    cases ps with
    | nil => cases JCodec.envValue.dec v <;> cases JCodec.envPairs kvs <;> simp
    | cons g ps =>
      obtain ⟨k', x⟩ := g
      rw [List.forall₂_cons, ← ih]
      simp only [← envValue_iff]
      cases JCodec.envValue.dec v <;> cases JCodec.envPairs kvs <;> simp [and_assoc]

theorem get_mem {m : Env.Map} (hs : Env.Sorted m) {k x : String} : Env.get k m = some x ↔ (k, x) ∈ m := by
  induction m with
  | nil => simp [Env.get]
  | cons kv m ih =>
    obtain ⟨k', v⟩ := kv
    obtain ⟨h1, h2⟩ := List.pairwise_cons.mp hs
    simp only [Env.get]
    by_cases e : k = k'
    · subst e
      rw [if_pos rfl]
      simp only [Option.some.injEq, List.mem_cons, Prod.mk.injEq, true_and]
      constructor
      · rintro rfl; exact .inl rfl
      · rintro (rfl | h)
        · rfl
        · exact absurd (h1 _ h) (String.lt_irrefl k)
    · rw [if_neg e, ih h2]
      simp [e]

theorem sorted_ext {m m' : Env.Map} (hs : Env.Sorted m) (hs' : Env.Sorted m') (h : ∀ x, x ∈ m ↔ x ∈ m') : m = m' := by
  haveI : Std.Irrefl (fun a b : String × String => a.1 < b.1) := ⟨fun a => String.lt_irrefl a.1⟩
  haveI : Std.Antisymm (fun a b : String × String => a.1 < b.1) :=
    ⟨fun a b h1 h2 => absurd (String.lt_trans h1 h2) (String.lt_irrefl _)⟩
  exact List.Pairwise.eq_of_mem_iff (r := fun a b : String × String => a.1 < b.1) hs hs' (fun {x} => h x)

theorem last_given {given : List (String × String)} {k x : String} :
    ((given.reverse.find? fun kv => kv.1 = k).map Prod.snd = some x) ↔
      ∃ before after, given = before ++ (k, x) :: after ∧ ∀ g ∈ after, g.1 ≠ k := by
  simp only [Option.map_eq_some_iff, List.find?_eq_some_iff_append]
  constructor
  · rintro ⟨⟨k', x'⟩, ⟨h1, as, bs, h2, h3⟩, rfl⟩
    have e : given = bs.reverse ++ (k', x') :: as.reverse := by
      have := congrArg List.reverse h2
      simpa using this
    have hk : k' = k := by simpa using h1
    subst hk
    exact ⟨bs.reverse, as.reverse, e, fun g hg => by simpa using h3 g (List.mem_reverse.mp hg)⟩
  · rintro ⟨b, a, rfl, h⟩
    refine ⟨(k, x), ⟨by simp, a.reverse, b.reverse, by simp, ?_⟩, rfl⟩
    intro g hg
    simpa using h g (List.mem_reverse.mp hg)

theorem env_iff {v : Json} {m : Env.Map} : JCodec.pivotEnv.dec v = some m ↔ EnvDoc v m := by
  unfold EnvDoc
  have hin : ∀ given : List (String × String), Env.decode given = some m ↔
      (∀ g ∈ given, Env.ValidName g.1 ∧ Env.ValidValue g.2) ∧ m.length ≤ 512 ∧ m.Pairwise (fun a b => a.1 < b.1) ∧
      ∀ name value, (name, value) ∈ m ↔ ∃ before after, given = before ++ (name, value) :: after ∧ ∀ g ∈ after, g.1 ≠ name := by
    intro given
    have hsc : Env.Sorted (Env.collect given) := Env.sorted_collect given
    have hc : ∀ k x, (k, x) ∈ Env.collect given ↔ ∃ before after, given = before ++ (k, x) :: after ∧ ∀ g ∈ after, g.1 ≠ k := by
      intro k x
      rw [← get_mem hsc, Env.env_collect_last, last_given]
    rw [Env.env_decode_iff]
    constructor
    · rintro ⟨h1, rfl, h2⟩
      exact ⟨h1, h2, hsc, hc⟩
    · rintro ⟨h1, h2, h3, h4⟩
      have : m = Env.collect given := sorted_ext h3 hsc fun ⟨k, x⟩ => by rw [h4, hc]
      exact ⟨h1, this, h2⟩
  cases v with
  | obj kvs =>
    simp only [JCodec.pivotEnv, Json.obj.injEq]
    constructor
    · intro h
      cases hp : JCodec.envPairs kvs with
      | none => rw [hp] at h; cases h
      | some ps =>
        rw [hp] at h
        exact ⟨kvs, ps, rfl, envPairs_iff.mp hp, (hin ps).mp h⟩
    · rintro ⟨ms, given, rfl, h1, h2⟩
      rw [envPairs_iff.mpr h1]
      exact (hin given).mpr h2
  | _ => simp [JCodec.pivotEnv]

theorem pivotV2_iff {v : Json} {p : PivotConfigV2} : JCodec.pivotConfigV2.dec v = some p ↔ PivotDocV2 v p := by
  unfold JCodec.pivotConfigV2 PivotDocV2
  record
  simp only [restart_iff, vec_iff fun _ _ => bridge_iff, orEmpty_iff, env_iff]

/-! ### Manifests and envelopes -/

/-- C73: a document is read as a V1 manifest exactly if it says so under the documented names. -/
theorem manifest_v1_read (v : Json) (m : Manifest) : JCodec.manifest.dec v = some m ↔ ManifestDocV1 v m := by
  unfold JCodec.manifest ManifestDocV1
  record
  simp only [namespace_iff, pivotV1_iff, set_iff, nitro_iff, patchSet_iff]

/-- C73: the same for V0. -/
theorem manifest_v0_read (v : Json) (m : ManifestV0) : JCodec.manifestV0.dec v = some m ↔ ManifestDocV0 v m := by
  unfold JCodec.manifestV0 ManifestDocV0
  record
  simp only [namespace_iff, pivotV0_iff, set_iff, nitro_iff, patchSet_iff]

/-- C73: the same for V2. -/
theorem manifest_v2_read (v : Json) (m : ManifestV2) : JCodec.manifestV2.dec v = some m ↔ ManifestDocV2 v m := by
  unfold JCodec.manifestV2 ManifestDocV2
  refine Iff.trans (struct_iff (by recs)) ?_
  rw [← exists_and_left]
  refine exists_congr fun field => ?_
  refine Iff.trans (and_congr Iff.rfl (imap_iff (by intro a; rfl) (by intro a; rfl))) ?_
  simp only [both_iff, req_iff, namespace_iff, pivotV2_iff, set_iff, nitro_iff, version_iff,
    opt_iff (c := JCodec.dnsConfig) rfl, dns_iff]
  have hv : Has field "version" (fun v => m.version = .v2 ∧ IsName v "v2") ↔ m.version = .v2 ∧ Has field "version" (IsName · "v2") := by
    unfold Has
    constructor
    · rintro ⟨x, h1, h2, h3⟩; exact ⟨h2, x, h1, h3⟩
    · rintro ⟨h2, x, h1, h3⟩; exact ⟨x, h1, h2, h3⟩
  rw [hv]
  constructor
  · rintro ⟨h1, ⟨h2, h3⟩, h4⟩; exact ⟨h2, h1, h3, h4⟩
  · rintro ⟨h2, h1, h3, h4⟩; exact ⟨h1, ⟨h2, h3⟩, h4⟩

theorem envelopeV1_iff {v : Json} {e : EnvelopeOf Manifest} : JCodec.envelopeV1.dec v = some e ↔ EnvelopeDocV1 v e := by
  unfold JCodec.envelopeV1 JCodec.envelopeFields EnvelopeDocV1
  record
  simp only [manifest_v1_read, vec_iff fun _ _ => approval_iff]

theorem envelopeV0_iff {v : Json} {e : EnvelopeOf ManifestV0} : JCodec.envelopeV0.dec v = some e ↔ EnvelopeDocV0 v e := by
  unfold JCodec.envelopeV0 JCodec.envelopeFields EnvelopeDocV0
  record
  simp only [manifest_v0_read, vec_iff fun _ _ => approval_iff]

theorem envelopeV2_iff {v : Json} {e : EnvelopeOf ManifestV2} : JCodec.envelopeV2.dec v = some e ↔ EnvelopeDocV2 v e := by
  unfold JCodec.envelopeV2 JCodec.envelopeFields EnvelopeDocV2
  record
  simp only [manifest_v2_read, vec_iff fun _ _ => approval_iff]

end Qos.Format
