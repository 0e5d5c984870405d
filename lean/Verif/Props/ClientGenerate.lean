import Verif.Props.ClientApprove
/-!
# C45: generating a manifest

Concrete cases: `toy_generated` (`Props/ClientToy.lean`, V2) and `toy_generated_v1` (`Props/ClientToyV1.lean`).
-/
namespace Qos.Client
open P256 (Pair Public)
variable {S : Type}

theorem readInputsV1_ok {C : Setting S} {a : GenerateManifestArgs} {i : ManifestInputs} :
    readInputsV1 C a = .ok i ↔ a.dnsResolvers = none ∧ NitroIn C.prims C.awsRoot C.disk a.releaseDir a.pcr3Path i.enclave ∧
      PivotHashIn C.disk a.pivotHashPath i.pivotHash ∧ SetIn C.prims C.disk a.manifestSetDir i.manifestSet ∧
      SetIn C.prims C.disk a.shareSetDir i.shareSet ∧
      (∃ dir ps, a.patchSetDir = some dir ∧ i.patchSet = some ps ∧ PatchSetIn C.prims C.disk dir ps) ∧
      publicFromFile C.prims C.disk a.quorumKeyPath = some i.quorumKey := by
  unfold readInputsV1
  simp only [ebind_ok, epure_ok, orStop_ok, guardStop_ok, nitro_exact, pivot_hash_exact, set_exact, patch_set_exact,
    Option.isNone_iff_eq_none]
  constructor
  · rintro ⟨_, h1, n, h2, ph, h3, ms, h4, ss, h5, dir, h6, ps, h7, k, h8, rfl⟩
    exact ⟨h1, h2, h3, h4, h5, ⟨dir, ps, h6, rfl, h7⟩, h8⟩
  · rintro ⟨h1, h2, h3, h4, h5, ⟨dir, ps, h6, h7, h8⟩, h9⟩
    refine ⟨(), h1, _, h2, _, h3, _, h4, _, h5, dir, h6, ps, h8, _, h9, ?_⟩
    rw [← h7]

theorem readInputsV2_ok {C : Setting S} {a : GenerateManifestArgs} {i : ManifestInputs} :
    readInputsV2 C a = .ok i ↔ a.patchSetDir = none ∧ NitroIn C.prims C.awsRoot C.disk a.releaseDir a.pcr3Path i.enclave ∧
      PivotHashIn C.disk a.pivotHashPath i.pivotHash ∧ SetIn C.prims C.disk a.manifestSetDir i.manifestSet ∧
      SetIn C.prims C.disk a.shareSetDir i.shareSet ∧ i.patchSet = none ∧
      publicFromFile C.prims C.disk a.quorumKeyPath = some i.quorumKey := by
  unfold readInputsV2
  simp only [ebind_ok, epure_ok, orStop_ok, guardStop_ok, nitro_exact, pivot_hash_exact, set_exact,
    Option.isNone_iff_eq_none]
  constructor
  · rintro ⟨_, h1, n, h2, ph, h3, ms, h4, ss, h5, k, h8, rfl⟩
    exact ⟨h1, h2, h3, h4, h5, rfl, h8⟩
  · rintro ⟨h1, h2, h3, h4, h5, h7, h9⟩
    refine ⟨(), h1, _, h2, _, h3, _, h4, _, h5, _, h9, ?_⟩
    rw [← h7]

theorem hash256_ok {h x : Bytes} : hash256 h = .ok x ↔ h.length = 32 ∧ x = h := by
  unfold hash256
  simp only [ebind_ok, guardStop_ok, epure_ok, decide_eq_true_eq]
  constructor
  · rintro ⟨_, h1, h2⟩; exact ⟨h1, h2.symm⟩
  · rintro ⟨h1, h2⟩; exact ⟨(), h1, h2.symm⟩

/-- C45: `generate-manifest` produces exactly the V1 manifest that agrees with the local files and the command line. -/
theorem generate_v1_exact (C : Setting S) (a : GenerateManifestArgs) (x : VersionedManifest) :
    manifestV1 C a = .ok x ↔ ∃ m, x = .v1 m ∧ LocalMatch C.prims C.awsRoot C.disk a.places x ∧ Requested a x ∧
      m.pivot.hash.length = 32 := by
  unfold manifestV1
  simp only [ebind_ok, mapStop_ok, readInputsV1_ok, hash256_ok]
  constructor
  · rintro ⟨i, ⟨h1, h2, h3, h4, h5, ⟨dir, ps, h6, h7, h8⟩, h9⟩, h, ⟨h10, rfl⟩, hb⟩
    rw [h7] at hb
    have hm : x = .v1 ⟨⟨a.namespaceName, a.nonce, i.quorumKey.toBytes⟩,
        ⟨i.pivotHash, a.restartPolicy, a.bridgeConfig, a.debugMode, a.pivotArgs⟩, i.manifestSet, i.shareSet, i.enclave, ps⟩ := by
      cases hb; rfl
    subst hm
    refine ⟨_, rfl, ⟨h4, h5, ?_, ?_, h2, h3, (publicFromFile_iff _ _ _ _).mp ⟨_, h9, rfl⟩⟩, ⟨rfl, rfl, rfl, rfl, rfl, rfl, ?_⟩, h10⟩
    · intro s hs
      cases hs
      exact ⟨dir, h6, h8⟩
    · intro h; cases h
    · rw [h1]; rfl
  · rintro ⟨m, rfl, hl, hr, h32⟩
    obtain ⟨dir, hd, hps⟩ := hl.patchSet _ rfl
    obtain ⟨k, hk, hq⟩ := (publicFromFile_iff _ _ _ _).mpr hl.quorumKey
    have hdns : a.dnsResolvers = none := by
      have := hr.dns
      cases h : a.dnsResolvers with
      | none => rfl
      | some r => rw [h] at this; cases this
    refine ⟨⟨m.enclave, m.pivot.hash, m.manifestSet, m.shareSet, some m.patchSet, k⟩,
      ⟨hdns, hl.enclave, hl.pivotHash, hl.manifestSet, hl.shareSet, ⟨dir, _, hd, rfl, hps⟩, hk⟩, _, ⟨h32, rfl⟩, ?_⟩
    rw [Builder.build_v1_iff]
    have h1 := hr.name
    have h2 := hr.nonce
    constructor
    all_goals first
      | rfl
      | exact hr.restart
      | exact hr.args
      | exact hr.bridges
      | exact hr.debug
      | skip
    show some (Namespace.mk a.namespaceName a.nonce k.toBytes) = _
    rw [← h1, ← h2, hq]
    rfl

/-- C45: `generate-manifest` for V2 produces exactly the V2 manifest that agrees with the local files and the command
line and has an empty environment. -/
theorem generate_v2_exact (C : Setting S) (a : GenerateManifestArgs) (x : VersionedManifest) :
    manifestV2 C a = .ok x ↔ ∃ m, x = .v2 m ∧ LocalMatch C.prims C.awsRoot C.disk a.places x ∧ Requested a x ∧
      m.version = .v2 ∧ m.pivot.env = [] ∧ m.pivot.hash.length = 32 := by
  unfold manifestV2
  simp only [ebind_ok, mapStop_ok, readInputsV2_ok, hash256_ok]
  constructor
  · rintro ⟨i, ⟨h1, h2, h3, h4, h5, h7, h9⟩, h, ⟨h10, rfl⟩, hb⟩
    have hm : x = .v2 ⟨.v2, ⟨a.namespaceName, a.nonce, i.quorumKey.toBytes⟩,
        ⟨i.pivotHash, a.restartPolicy, a.bridgeConfig, a.debugMode, a.pivotArgs, []⟩, i.manifestSet, i.shareSet, i.enclave,
        a.dnsResolvers.map DnsConfig.mk⟩ := by
      cases hd : a.dnsResolvers with
      | none => rw [hd] at hb; cases hb; rfl
      | some r => rw [hd] at hb; cases hb; rfl
    subst hm
    refine ⟨_, rfl, ⟨h4, h5, ?_, ?_, h2, h3, (publicFromFile_iff _ _ _ _).mp ⟨_, h9, rfl⟩⟩,
      ⟨rfl, rfl, rfl, rfl, rfl, rfl, rfl⟩, rfl, rfl, h10⟩
    · intro s hs; cases hs
    · intro _; exact h1
  · rintro ⟨m, rfl, hl, hr, hv, he, h32⟩
    obtain ⟨k, hk, hq⟩ := (publicFromFile_iff _ _ _ _).mpr hl.quorumKey
    refine ⟨⟨m.enclave, m.pivot.hash, m.manifestSet, m.shareSet, none, k⟩,
      ⟨hl.noPatchSet rfl, hl.enclave, hl.pivotHash, hl.manifestSet, hl.shareSet, rfl, hk⟩, _, ⟨h32, rfl⟩, ?_⟩
    rw [Builder.build_v2_iff]
    have h1 := hr.name
    have h2 := hr.nonce
    have h3 : m.dns = a.dnsResolvers.map DnsConfig.mk := hr.dns
    have hns : some (Namespace.mk a.namespaceName a.nonce k.toBytes) = some m.namespace := by
      rw [← h1, ← h2, hq]
      rfl
    cases hd : a.dnsResolvers with
    | none =>
      rw [hd] at h3
      exact ⟨.inl rfl, rfl, hv, hns, rfl, rfl, rfl, rfl, hr.restart, hr.bridges, hr.debug, hr.args, he, h3⟩
    | some r =>
      rw [hd] at h3
      exact ⟨.inl rfl, rfl, hv, hns, rfl, rfl, rfl, rfl, hr.restart, hr.bridges, hr.debug, hr.args, he, h3⟩

/-! ## The file can be read back -/

theorem decoded_small {s b : Bytes} (h : Hex.decode s = .ok b) : 2 * b.length < 256 * 1024 * 1024 := by
  have key : ∀ {t r : Bytes}, Hex.Text t r → 2 * r.length = t.length := by
    intro t r h
    induction h with
    | nil => rfl
    | cons _ _ ih => simp only [List.length_cons]; omega
  rcases (Hex.hex_decode_accepts_iff s b).mp h with ⟨_, rfl⟩ | ⟨_, body, h1, h2, _⟩
  · decide
  · have := key h2
    omega

theorem keyText_length {p : Prims} {c k : Bytes} (h : KeyText p c k) : k.length = 130 := by
  obtain ⟨_, _, _, h, _⟩ := h
  exact h

theorem listed_keys {p : Prims} {d : Disk} {dir : String} {ms : List QuorumMember} (h : Listed p d dir ms) :
    ∀ m ∈ ms, m.pubKey.length = 130 := by
  obtain ⟨names, _, h⟩ := h
  revert h
  generalize names.filter _ = l
  intro h
  induction h with
  | nil => simp
  | cons h _ ih =>
    intro m hm
    rcases List.mem_cons.mp hm with rfl | hm
    · obtain ⟨_, c, _, hc⟩ := h
      exact keyText_length hc
    · exact ih m hm

theorem setOk {p : Prims} {d : Disk} {dir : String} {s : QuorumSet} (h : SetIn p d dir s) : JCodec.quorumSet.ok s := by
  obtain ⟨ms, hl, hp⟩ := h.members
  simp only [JCodec.quorumSet, JCodec.quorumMember, JCodec.struct, Fields.imap, Fields.both, Fields.req, JCodec.hexVec,
    JCodec.string, Hex.strMaxLength, JCodec.vec, JCodec.u32, JCodec.imap, JCodec.stringOrNumeric, true_and]
  refine ⟨UInt32.toNat_lt _, ?_⟩
  intro m hm
  rw [listed_keys hl m (hp.mem_iff.mp hm)]
  decide

theorem patchSetOk {p : Prims} {d : Disk} {dir : String} {s : PatchSet} (h : PatchSetIn p d dir s) :
    JCodec.patchSet.ok s := by
  obtain ⟨ms, hl, hp⟩ := h.members
  simp only [JCodec.patchSet, JCodec.struct, Fields.imap, Fields.both, Fields.req, JCodec.hexVec,
    JCodec.string, Hex.strMaxLength, JCodec.vec, JCodec.u32, JCodec.imap, JCodec.stringOrNumeric, true_and]
  refine ⟨UInt32.toNat_lt _, ?_⟩
  intro k hk
  obtain ⟨m, hm, rfl⟩ := List.mem_map.mp (hp.mem_iff.mp hk)
  rw [listed_keys hl m hm]
  decide

theorem nitroOk {p : Prims} (hp : p.Laws) {r : Bytes} (hr : 2 * r.length < 256 * 1024 * 1024) {d : Disk} {x y : String}
    {n : NitroConfig} (h : NitroIn p r d x y n) : JCodec.nitroConfig.ok n := by
  obtain ⟨_, _, _, _, _, _, _, _, _, _, _, _, _, _, h0, h1, h2⟩ := h.pcrs
  obtain ⟨role, _, h3⟩ := h.role
  have g0 := decoded_small h0
  have g1 := decoded_small h1
  have g2 := decoded_small h2
  have g3 : n.pcr3.length = 48 := by rw [h3]; exact hp.sha384_length _
  have g4 := h.root
  simp only [JCodec.nitroConfig, JCodec.struct, Fields.imap, Fields.both, Fields.req, JCodec.hexVec,
    JCodec.string, Hex.strMaxLength, true_and, and_true]
  rw [g4, g3]
  refine ⟨?_, ?_, ?_, ?_, ?_⟩ <;> omega

theorem bridgeOk (b : BridgeConfig) : JCodec.bridgeConfig.ok b := by
  cases b with
  | server port host => exact ⟨UInt16.toNat_lt _, trivial⟩
  | client port host =>
    refine ⟨UInt16.toNat_lt _, ?_⟩
    cases host <;> trivial

theorem restartOk (r : RestartPolicy) : JCodec.restartPolicy.ok r := by
  cases r <;> simp [JCodec.restartPolicy, JCodec.unitEnum]

theorem namespaceOk {n : Namespace} (h : n.quorumKey.length = 130) : JCodec.namespace.ok n := by
  simp only [JCodec.namespace, JCodec.struct, Fields.imap, Fields.both, Fields.req, JCodec.hexVec,
    JCodec.string, Hex.strMaxLength, JCodec.u32, JCodec.imap, JCodec.stringOrNumeric, true_and]
  refine ⟨UInt32.toNat_lt _, ?_⟩
  rw [h]; decide

theorem v1Ok {p : Prims} (hp : p.Laws) {r : Bytes} (hr : 2 * r.length < 256 * 1024 * 1024) {d : Disk} {w : Places}
    {m : Manifest} (h : LocalMatch p r d w (.v1 m)) (h32 : m.pivot.hash.length = 32) : (VersionedManifest.v1 m).Ok := by
  obtain ⟨x, _, hps⟩ := h.patchSet _ rfl
  obtain ⟨c, _, hk⟩ := h.quorumKey
  have hk : m.namespace.quorumKey.length = 130 := keyText_length hk
  exact ⟨namespaceOk hk, ⟨h32, restartOk _, fun b _ => bridgeOk b, trivial, fun _ _ => trivial⟩, setOk h.manifestSet,
    setOk h.shareSet, nitroOk hp hr h.enclave, patchSetOk hps⟩

theorem v2Ok {p : Prims} (hp : p.Laws) {r : Bytes} (hr : 2 * r.length < 256 * 1024 * 1024) {d : Disk} {w : Places}
    {m : ManifestV2} (h : LocalMatch p r d w (.v2 m)) (h32 : m.pivot.hash.length = 32) (hv : m.version = .v2)
    (he : m.pivot.env = []) : (VersionedManifest.v2 m).Ok := by
  obtain ⟨c, _, hk⟩ := h.quorumKey
  have hk : m.namespace.quorumKey.length = 130 := keyText_length hk
  refine ⟨hv, namespaceOk hk, ⟨h32, restartOk _, fun b _ => bridgeOk b, trivial, fun _ _ => trivial, ?_⟩,
    setOk h.manifestSet, setOk h.shareSet, nitroOk hp hr h.enclave, ?_⟩
  · show Env.decode m.pivot.env = some m.pivot.env
    rw [he]; rfl
  · show (Fields.opt "dns" JCodec.dnsConfig).ok m.dns
    cases m.dns with
    | none => trivial
    | some a => exact fun _ _ => trivial

/-- C45: the file written by `generate-manifest` reads back as the manifest that agrees with the local files and the
command line, and can be stored and read again (`Ok`); so `approve-manifest` with the same files accepts it. -/
theorem generate_v1_written (C : Setting S) (hp : C.prims.Laws) (hr : 2 * C.awsRoot.length < 256 * 1024 * 1024)
    (a : GenerateManifestArgs) (s : S) (path : String) (c : Bytes)
    (h : .wrote path c ∈ (generateManifest C a s).events) :
    path = a.manifestPath ∧ ∃ m, VersionedManifest.tryFromSliceCompat c = some (.v1 m) ∧
      LocalMatch C.prims C.awsRoot C.disk a.places (.v1 m) ∧ Requested a (.v1 m) ∧ (VersionedManifest.v1 m).Ok := by
  unfold generateManifest at h
  rcases Run.lift_cases (manifestV1 C a) _ s with ⟨e, he, hrun⟩ | ⟨x, hx, hrun⟩
  · rw [hrun] at h
    cases h
  · rw [hrun] at h
    obtain ⟨m, rfl, hl, hreq, h32⟩ := (generate_v1_exact C a x).mp hx
    obtain ⟨b, hb, hback⟩ := storage_roundtrip_manifest (.v1 m) (v1Ok hp hr hl h32)
    rw [Run.lift_ok (a := b) (by rw [hb]; rfl)] at h
    unfold write at h
    split at h
    · simp only [List.mem_singleton, Event.wrote.injEq] at h
      obtain ⟨rfl, rfl⟩ := h
      exact ⟨rfl, m, hback, hl, hreq, v1Ok hp hr hl h32⟩
    · cases h

/-- C45: likewise for V2. -/
theorem generate_v2_written (C : Setting S) (hp : C.prims.Laws) (hr : 2 * C.awsRoot.length < 256 * 1024 * 1024)
    (a : GenerateManifestArgs) (s : S) (path : String) (c : Bytes)
    (h : .wrote path c ∈ (generateManifestV2 C a s).events) :
    path = a.manifestPath ∧ ∃ m, VersionedManifest.tryFromSliceCompat c = some (.v2 m) ∧
      LocalMatch C.prims C.awsRoot C.disk a.places (.v2 m) ∧ Requested a (.v2 m) ∧ m.pivot.env = [] ∧
      (VersionedManifest.v2 m).Ok := by
  unfold generateManifestV2 at h
  rcases Run.lift_cases (manifestV2 C a) _ s with ⟨e, he, hrun⟩ | ⟨x, hx, hrun⟩
  · rw [hrun] at h
    cases h
  · rw [hrun] at h
    obtain ⟨m, rfl, hl, hreq, hv, henv, h32⟩ := (generate_v2_exact C a x).mp hx
    obtain ⟨b, hb, hback⟩ := storage_roundtrip_manifest (.v2 m) (v2Ok hp hr hl h32 hv henv)
    rw [Run.lift_ok (a := b) (by rw [hb]; rfl)] at h
    unfold write at h
    split at h
    · simp only [List.mem_singleton, Event.wrote.injEq] at h
      obtain ⟨rfl, rfl⟩ := h
      exact ⟨rfl, m, hback, hl, hreq, henv, v2Ok hp hr hl h32 hv henv⟩
    · cases h

/-- C45: when the local files describe a manifest, it is written. -/
theorem generate_complete (C : Setting S) (hp : C.prims.Laws) (hr : 2 * C.awsRoot.length < 256 * 1024 * 1024)
    (a : GenerateManifestArgs) (s : S) (hw : C.disk.writable a.manifestPath = true) :
    (∀ m : Manifest, LocalMatch C.prims C.awsRoot C.disk a.places (.v1 m) → Requested a (.v1 m) →
      m.pivot.hash.length = 32 → ∃ c, (generateManifest C a s).events = [.wrote a.manifestPath c]) ∧
    (∀ m : ManifestV2, LocalMatch C.prims C.awsRoot C.disk a.places (.v2 m) → Requested a (.v2 m) →
      m.version = .v2 → m.pivot.env = [] → m.pivot.hash.length = 32 →
      ∃ c, (generateManifestV2 C a s).events = [.wrote a.manifestPath c]) := by
  constructor
  · intro m hl hreq h32
    obtain ⟨b, hb, _⟩ := storage_roundtrip_manifest (.v1 m) (v1Ok hp hr hl h32)
    refine ⟨b, ?_⟩
    unfold generateManifest
    rw [Run.lift_ok ((generate_v1_exact C a _).mpr ⟨m, rfl, hl, hreq, h32⟩), Run.lift_ok (a := b) (by rw [hb]; rfl)]
    unfold write
    rw [if_pos hw]
  · intro m hl hreq hv henv h32
    obtain ⟨b, hb, _⟩ := storage_roundtrip_manifest (.v2 m) (v2Ok hp hr hl h32 hv henv)
    refine ⟨b, ?_⟩
    unfold generateManifestV2
    rw [Run.lift_ok ((generate_v2_exact C a _).mpr ⟨m, rfl, hl, hreq, hv, henv, h32⟩), Run.lift_ok (a := b) (by rw [hb]; rfl)]
    unfold write
    rw [if_pos hw]

end Qos.Client
