import Verif.Props.ClientEnvelope
import Verif.Props.ClientToy
/-!
# C51: from local files to an approved envelope

The commands composed: a generated manifest, approved by enough members, each on its own machine, becomes an envelope
the enclave accepts.
-/
namespace Qos.Client
open P256 (Pair Public toyPrims toyLaws)
variable {S : Type}

/-- A member of the manifest set at its own machine, about to run `approve-manifest`. -/
structure Operator where
  seed : Bytes
  pair : Pair
  disk : Disk
  args : ApproveArgs
  input : List String

/-- The member this operator is. -/
def Operator.member (p : Prims) (o : Operator) : QuorumMember := ⟨o.args.memberAlias, (o.pair.publicKey p).toBytes⟩

/-- The operator has a key, the manifest file, local artefacts that agree with it, and says yes to every question. -/
structure Operator.Ready (p : Prims) (awsRoot : Bytes) (m : VersionedManifest) (o : Operator) : Prop where
  key : Pair.fromMasterSeed p o.seed = .ok o.pair
  manifest : ManifestIn o.disk o.args.manifestPath m
  agrees : LocalMatch p awsRoot o.disk o.args.places m
  answers : 8 ≤ o.input.length
  yes : ∀ l ∈ o.input, IsYes l
  space : ∀ path, o.disk.writable path = true

/-- What the operator's run leaves: its last event is writing `contents`. -/
def Operator.Approves (C : Setting S) (s : S) (o : Operator) (contents : Bytes) : Prop :=
  ∃ es path, (approveManifest { C with disk := o.disk } o.pair o.args o.input s).events = es ++ [.wrote path contents]

theorem forall2_comp {α β γ : Type} {R : α → β → Prop} {T : β → γ → Prop} {a : List α} {b : List β} {c : List γ}
    (h : List.Forall₂ R a b) (h' : List.Forall₂ T b c) : List.Forall₂ (fun x z => ∃ y, R x y ∧ T y z) a c := by
  induction h generalizing c with
  | nil => cases h'; exact .nil
  | cons h1 _ ih =>
    cases h' with
    | cons h2 h3 => exact .cons ⟨_, h1, h2⟩ (ih h3)

/-- Every ready operator approves, with a file that is a genuine approval. -/
theorem ready_approves (C : Setting S) (hp : C.prims.Laws) (s : S) {m : VersionedManifest} {o : Operator}
    (h : o.Ready C.prims C.awsRoot m) : ∃ contents, o.Approves C s contents := by
  obtain ⟨_, path, c, hc⟩ := approve_complete { C with disk := o.disk } o.pair o.args o.input s m h.manifest h.agrees
    h.answers h.yes h.space
  obtain ⟨_, es, _, _, he, _⟩ := approve_safe { C with disk := o.disk } hp o.seed o.pair h.key o.args o.input s path c hc
  exact ⟨c, es, path, he⟩

theorem approves_text (C : Setting S) (hp : C.prims.Laws) (s : S) {m : VersionedManifest} {o : Operator} {c : Bytes}
    (h : o.Ready C.prims C.awsRoot m) (ha : o.Approves C s c) :
    ∃ a, fromJsonSlice JCodec.approval c = some a ∧ a.member = o.member C.prims ∧
      a.member.Signed C.prims (m.hash C.prims) a.signature := by
  obtain ⟨es, path, he⟩ := ha
  obtain ⟨m', _, hm', _, _, _, ht, _, _⟩ := approve_safe { C with disk := o.disk } hp o.seed o.pair h.key o.args o.input s path c
    (by rw [he]; exact List.mem_append_right _ (List.mem_singleton.mpr rfl))
  obtain ⟨c1, h1, h2⟩ := hm'
  obtain ⟨c2, h3, h4⟩ := h.manifest
  have h1 : o.disk.file o.args.manifestPath = some c1 := h1
  rw [h1] at h3
  cases h3
  rw [h2] at h4
  cases h4
  obtain ⟨a, k1, k2, k3⟩ := ht
  exact ⟨a, k1, k2, k3⟩

/-! ## Property theorems -/

open Classical in
/-- C51: let `m` be a manifest with a well-formed manifest set, and let different members of that set, at least threshold
many, run `approve-manifest` on their own machines, with local files that agree and yes to every question. Whoever then
collects the written files in a directory (in any order, among files of other kinds) and runs
`generate-manifest-envelope` gets an envelope around `m` with a quorum of approvals, which reads back from the file. The
assumption on hashes is that no two members collide. -/
theorem approvals_make_envelope (C : Setting S) (hp : C.prims.Laws) (s : S) (m : VersionedManifest) (hok : m.Ok)
    (hdist : DistinctMembers C.prims m.manifestSet.members)
    (hcol : ∀ a ∈ m.manifestSet.members, ∀ b ∈ m.manifestSet.members, a.hash C.prims = b.hash C.prims → a = b)
    (ops : List Operator) (hready : ∀ o ∈ ops, o.Ready C.prims C.awsRoot m)
    (hmem : ∀ o ∈ ops, o.member C.prims ∈ m.manifestSet.members) (hnd : (ops.map (·.member C.prims)).Nodup)
    (henough : m.manifestSet.threshold.toNat ≤ ops.length) :
    ∃ files, List.Forall₂ (fun o c => o.Approves C s c) ops files ∧
    ∀ (d : Disk) (dir mpath : String) (out : Option String) (names : List String) (collected : List Bytes),
      collected.Perm files → d.dir dir = some names →
      List.Forall₂ (fun n c => d.file (pathJoin dir n) = some c) (names.filter fun n => decide (IsApprovalName n)) collected →
      ManifestIn d mpath m → (∀ path, d.writable path = true) →
      ∃ b e, (generateManifestEnvelope { C with disk := d } dir mpath out s).result = .ok () ∧
        (generateManifestEnvelope { C with disk := d } dir mpath out s).events =
          [.wrote (out.getD (pathJoin dir "manifest_envelope")) b] ∧
        Envelope.tryFromSliceCompat b = some e ∧ e.manifest = m ∧ e.shareSetApprovals = [] ∧ e.Ok ∧
        Quorum C.prims (m.hash C.prims) m.manifestSet e.manifestSetApprovals ∧ e.checkApprovals C.prims = .ok () := by
  have hfiles : ∃ files, List.Forall₂ (fun o c => o.Approves C s c) ops files := by
    clear hmem hnd henough
    induction ops with
    | nil => exact ⟨[], .nil⟩
    | cons o ops ih =>
      obtain ⟨fs, hfs⟩ := ih fun o ho => hready o (List.mem_cons_of_mem _ ho)
      obtain ⟨c, hc⟩ := ready_approves C hp s (hready o (List.mem_cons_self ..))
      exact ⟨c :: fs, .cons hc hfs⟩
  obtain ⟨files, hfiles⟩ := hfiles
  refine ⟨files, hfiles, ?_⟩
  intro d dir mpath out names collected hperm hdir hnames hm hw
  -- the approvals in the files, as a list parallel to `files`
  have happ : ∃ as : List Approval, List.Forall₂ (fun c a => fromJsonSlice JCodec.approval c = some a) files as ∧
      as.map (·.member) = ops.map (·.member C.prims) ∧ ∀ a ∈ as, a.member.Signed C.prims (m.hash C.prims) a.signature := by
    clear hmem hnd henough hperm hnames
    induction hfiles with
    | nil => exact ⟨[], .nil, rfl, by simp⟩
    | cons h _ ih =>
      obtain ⟨as, h1, h2, h3⟩ := ih fun o ho => hready o (List.mem_cons_of_mem _ ho)
      obtain ⟨a, k1, k2, k3⟩ := approves_text C hp s (hready _ (List.mem_cons_self ..)) h
      refine ⟨a :: as, .cons k1 h1, by simp [k2, h2], ?_⟩
      intro b hb
      rcases List.mem_cons.mp hb with rfl | hb
      · exact k3
      · exact h3 b hb
  obtain ⟨as, has, hmap, hsig⟩ := happ
  -- the same list in the order of the directory
  obtain ⟨as', hperm', has'⟩ : ∃ as' : List Approval, as'.Perm as ∧
      List.Forall₂ (fun c a => fromJsonSlice JCodec.approval c = some a) collected as' := by
    obtain ⟨as', h1, h2⟩ := List.perm_comp_forall₂ hperm has
    exact ⟨as', h2, h1⟩
  have hain : ApprovalsIn d dir as' := by
    refine ⟨names, hdir, ?_⟩
    exact forall2_comp hnames has'
  have hmap' : (as'.map (·.member)).Perm (ops.map (·.member C.prims)) := hmap ▸ hperm'.map _
  have hlisted : ∀ a ∈ as', a.member ∈ m.manifestSet.members := by
    intro a ha
    have : a.member ∈ ops.map (·.member C.prims) := hmap'.mem_iff.mp (List.mem_map_of_mem ha)
    obtain ⟨o, ho, he⟩ := List.mem_map.mp this
    exact he ▸ hmem o ho
  have hq : Quorum C.prims (m.hash C.prims) m.manifestSet as' := by
    refine ⟨hdist, fun a ha => hsig a (hperm'.mem_iff.mp ha), hlisted, hmap'.nodup_iff.mpr hnd, ?_⟩
    have := hmap'.length_eq
    simp only [List.length_map] at this
    rw [this]
    exact henough
  obtain ⟨f1, f2, f3⟩ := envelopeOf_fields as' m
  have hcheck : envelopeChecks { C with disk := d } dir mpath = .ok (envelopeOf as' m) := by
    refine envelope_complete { C with disk := d } dir mpath (envelopeOf as' m) ?_ ?_ f3 ?_ ?_
    · rw [f1]; exact hm
    · rw [f2]; exact hain
    · rw [f1, f2]; exact hq
    · rw [f2]
      intro a ha b hb hh
      exact hcol _ (hlisted a ha) _ (hlisted b hb) hh
  have hca : (envelopeOf as' m).checkApprovals C.prims = .ok () := by
    refine check_approvals_complete _ _ ?_ ?_
    · rw [f1, f2]; exact hq
    · rw [f2]
      intro a ha b hb hh
      exact hcol _ (hlisted a ha) _ (hlisted b hb) hh
  have hOk : (envelopeOf as' m).Ok := by
    have hao := approvalsIn_ok hain
    cases m with
    | v2 m => exact ⟨hok, hao, fun _ h => nomatch h⟩
    | v1 m => exact ⟨hok, hao, fun _ h => nomatch h⟩
    | v0 m => exact ⟨hok, hao, fun _ h => nomatch h⟩
  obtain ⟨b, hb, hback⟩ := storage_roundtrip _ hOk
  refine ⟨b, envelopeOf as' m, ?_, ?_, hback, f1, f3, hOk, by rw [f2]; exact hq, hca⟩
  all_goals
    unfold generateManifestEnvelope
    rw [Run.lift_ok hcheck, Run.lift_ok (a := b) (by rw [hb]; rfl)]
    unfold write
    rw [if_pos (hw _)]

/-! ## The toy deployment -/

/-- A toy member's key pair. -/
def toyPair (n : UInt8) : Pair :=
  match Pair.fromMasterSeed toyPrims (List.replicate 32 n) with
  | .ok k => k
  | .error _ => ⟨[], [], [], []⟩

theorem toyPair_ok (n : UInt8) (h : n ∈ [1, 2, 9]) : Pair.fromMasterSeed toyPrims (List.replicate 32 n) = .ok (toyPair n) := by
  have : ∀ n ∈ ([1, 2, 9] : List UInt8), okAnd (fun _ => true) (Pair.fromMasterSeed toyPrims (List.replicate 32 n)) = true := by
    decide +kernel
  obtain ⟨k, hk, _⟩ := of_okAnd (this n h)
  unfold toyPair
  rw [hk]

theorem toyPair_pub (n : UInt8) (h : n ∈ [1, 2, 9]) : ((toyPair n).publicKey toyPrims).toBytes = (toyMember n).pubKey := by
  have hk := toyPair_ok n h
  unfold toyMember
  rw [hk]

/-- The toy disk with one more file. -/
def toyDiskWith (path : String) (c : Bytes) : Disk := { toyDisk with file := fun q => if q = path then some c else toyFile q }

theorem toyDiskWith_extends (path : String) (c : Bytes) (h : toyFile path = none) : toyDisk.Extends (toyDiskWith path c) := by
  refine ⟨fun q b hq => ?_, fun _ _ h => h⟩
  have hq : toyFile q = some b := hq
  show (if q = path then some c else toyFile q) = some b
  rw [if_neg]
  · exact hq
  · rintro rfl
    rw [h] at hq
    cases hq

/-- A toy operator approving the manifest stored in `c`. -/
def toyOperator (n : UInt8) (c : Bytes) : Operator where
  seed := List.replicate 32 n
  pair := toyPair n
  disk := toyDiskWith "manifest" c
  args := ⟨"manifest", "approvals", "release", "role", "pivot.hash", "quorum.pub", "set", "set", none, (toyMember n).aliasName,
    false⟩
  input := List.replicate 8 "yes"

theorem toyOperator_ready (n : UInt8) (hn : n ∈ [1, 2, 9]) (c : Bytes) (m : ManifestV2)
    (hc : VersionedManifest.tryFromSliceCompat c = some (.v2 m))
    (hm : LocalMatch toyPrims [1, 2] toyDisk toyGenerate.places (.v2 m)) :
    (toyOperator n c).Ready toyPrims [1, 2] (.v2 m) where
  key := toyPair_ok n hn
  manifest := ⟨c, rfl, hc⟩
  agrees := LocalMatch.mono (toyDiskWith_extends _ _ (by decide +kernel)) hm
  answers := Nat.le_refl 8
  yes := by
    intro l hl
    rw [List.eq_of_mem_replicate hl]
    show P256.trim "yes" ∈ _
    decide +kernel
  space := fun _ => rfl

theorem toyOperator_member (n : UInt8) (hn : n ∈ [1, 2, 9]) (c : Bytes) : (toyOperator n c).member toyPrims = toyMember n := by
  have h := toyPair_pub n hn
  have h1 : (toyOperator n c).args.memberAlias = (toyMember n).aliasName := by unfold toyOperator; rfl
  have h2 : (toyOperator n c).pair = toyPair n := by unfold toyOperator; rfl
  unfold Operator.member
  rw [h1, h2, h]

theorem toy_distinct : DistinctMembers toyPrims [toyMember 1, toyMember 2] where
  keys := by
    have : ∀ m ∈ [toyMember 1, toyMember 2], m.pubKey.length = 130 ∧ toyPrims.pointOk (m.pubKey.take 65) = true ∧
      toyPrims.pointOk (m.pubKey.drop 65) = true := by decide +kernel
    exact this
  aliases := by decide +kernel
  signing := by decide +kernel
  encryption := by decide +kernel

theorem toy_no_collision : ∀ a ∈ [toyMember 1, toyMember 2], ∀ b ∈ [toyMember 1, toyMember 2],
    a.hash toyPrims = b.hash toyPrims → a = b := by decide +kernel

/-- A directory with the collected approvals. -/
def toyCollected (f1 f2 c : Bytes) : Disk where
  file q := if q = "a/b.approval" then some f1 else if q = "a/c.approval" then some f2 else if q = "manifest" then some c else none
  dir q := if q = "a" then some ["c.approval", "x", "b.approval"] else none
  writable _ := true

theorem toyNames : (["c.approval", "x", "b.approval"].filter fun n => @decide (IsApprovalName n) (Classical.propDecidable _)) =
    ["c.approval", "b.approval"] := by
  have hx : ∀ n, (isApprovalFile n && !(['.', '_'].isPrefixOf n.toList)) = true ↔ IsApprovalName n := approvalName_iff
  rw [List.filter_cons_of_pos (by simpa using (hx "c.approval").mp (by decide +kernel)),
    List.filter_cons_of_neg (by
      intro h
      have := (hx "x").mpr (by simpa using h)
      revert this
      decide +kernel),
    List.filter_cons_of_pos (by simpa using (hx "b.approval").mp (by decide +kernel)), List.filter_nil]

theorem toyCollected_files (f1 f2 c : Bytes) :
    List.Forall₂ (fun n x => (toyCollected f1 f2 c).file (pathJoin "a" n) = some x) ["c.approval", "b.approval"] [f2, f1] := by
  have p1 : pathJoin "a" "c.approval" = "a/c.approval" := by decide +kernel
  have p2 : pathJoin "a" "b.approval" = "a/b.approval" := by decide +kernel
  refine .cons ?_ (.cons ?_ .nil)
  · rw [p1]; simp [toyCollected]
  · rw [p2]; simp [toyCollected]

/-- The whole chain on concrete files: a manifest is generated, two members approve it, the envelope is assembled. -/
theorem toy_deployment : ∃ c m f1 f2,
    (generateManifestV2 toySetting toyGenerate ()).events = [.wrote "manifest" c] ∧
    VersionedManifest.tryFromSliceCompat c = some (.v2 m) ∧
    (toyOperator 1 c).Approves toySetting () f1 ∧ (toyOperator 2 c).Approves toySetting () f2 ∧
    ∃ b e, (generateManifestEnvelope { toySetting with disk := toyCollected f1 f2 c } "a" "manifest" none ()).events =
        [.wrote "a/manifest_envelope" b] ∧
      Envelope.tryFromSliceCompat b = some e ∧ e.manifest = .v2 m ∧ e.checkApprovals toyPrims = .ok () := by
  obtain ⟨c, m, hgen, hread, hmatch, _, hok⟩ := toy_generated
  have hset : (VersionedManifest.v2 m).manifestSet = ⟨2, [toyMember 1, toyMember 2]⟩ := by
    have h1 := (set_exact _ _ _ _).mpr hmatch.manifestSet
    have h2 := (set_exact _ _ _ _).mpr toySet_in
    have h1 : getSet toyPrims toyDisk "set" = .ok (VersionedManifest.v2 m).manifestSet := h1
    rw [h1] at h2
    exact Except.ok.inj h2
  have hm1 := toyOperator_member 1 (by decide) c
  have hm2 := toyOperator_member 2 (by decide) c
  obtain ⟨files, hfiles, hrest⟩ := approvals_make_envelope toySetting toyLaws () (.v2 m) hok
    (by rw [hset]; exact toy_distinct)
    (by rw [hset]; exact toy_no_collision)
    [toyOperator 1 c, toyOperator 2 c]
    (by
      intro o ho
      rcases List.mem_cons.mp ho with rfl | ho
      · exact toyOperator_ready 1 (by decide) c m hread hmatch
      · rw [List.mem_singleton.mp ho]
        exact toyOperator_ready 2 (by decide) c m hread hmatch)
    (by
      intro o ho
      rw [hset]
      rcases List.mem_cons.mp ho with rfl | ho
      · rw [show toySetting.prims = toyPrims from rfl, hm1]; exact List.mem_cons_self ..
      · rw [List.mem_singleton.mp ho, show toySetting.prims = toyPrims from rfl, hm2]
        exact List.mem_cons_of_mem _ (List.mem_cons_self ..))
    (by
      rw [show toySetting.prims = toyPrims from rfl, List.map_cons, List.map_cons, List.map_nil, hm1, hm2]
      decide +kernel)
    (by rw [hset]; exact Nat.le_refl 2)
  have p3 : pathJoin "a" "manifest_envelope" = "a/manifest_envelope" := by decide +kernel
  cases hfiles with
  | @cons _ f1 _ _ h1 ht =>
    cases ht with
    | @cons _ f2 _ _ h2 ht =>
      cases ht
      obtain ⟨b, e, _, k2, k3, k4, _, _, _, k8⟩ := hrest (toyCollected f1 f2 c) "a" "manifest" none
        ["c.approval", "x", "b.approval"] [f2, f1] (List.Perm.swap ..) (by simp [toyCollected])
        (by rw [toyNames]; exact toyCollected_files f1 f2 c) ⟨c, by simp [toyCollected], hread⟩ (fun _ => rfl)
      rw [Option.getD_none, p3] at k2
      exact ⟨c, m, f1, f2, hgen, hread, h1, h2, b, e, k2, k3, k4, k8⟩

end Qos.Client
