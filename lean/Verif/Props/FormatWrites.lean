import Verif.Props.FormatBytes
import Verif.Props.Scenario
/-!
# C73: the documents that are written and hashed
-/
namespace Qos.Format
open Json

theorem byte_digits (x : UInt8) : (Hex.byteChars x).map (fun y => Char.ofNat y.toNat) = [digit (x.toNat / 16), digit (x.toNat % 16)] := by
  have key : ∀ n : Fin 256, (Hex.byteChars (UInt8.ofNat n.val)).map (fun y => Char.ofNat y.toNat) =
      [digit ((UInt8.ofNat n.val).toNat / 16), digit ((UInt8.ofNat n.val).toNat % 16)] := by decide +kernel
  simpa using key ⟨x.toNat, x.toNat_lt⟩

theorem hex_text (b : Bytes) : JCodec.bytesText (Hex.encode b) =
    String.ofList (b.flatMap fun x => [digit (x.toNat / 16), digit (x.toNat % 16)]) := by
  unfold JCodec.bytesText Hex.encode
  congr 1
  rw [List.map_flatMap]
  congr 1
  funext x
  exact byte_digits x

theorem hexVec_enc (b : Bytes) : JCodec.hexVec.enc b = hex b := by simp only [JCodec.hexVec, hex, hex_text]
theorem hexArray_enc (b : Bytes) : (JCodec.hexArray 32).enc b = hex b := by simp only [JCodec.hexArray, hex, hex_text]
theorem vec_write {α : Type} {c : JCodec α} {f : α → Json} (h : ∀ a, c.enc a = f a) (l : List α) : (JCodec.vec c).enc l = list f l := by
  simp [JCodec.vec, list, h]
theorem texts_write (l : List String) : (JCodec.vec JCodec.string).enc l = list .str l := vec_write (fun _ => rfl) l

theorem restart_write (r : RestartPolicy) : JCodec.restartPolicy.enc r = restartJson r := by cases r <;> rfl

theorem nitro_write (n : NitroConfig) : JCodec.nitroConfig.enc n = nitroJson n := by
  simp [JCodec.nitroConfig, JCodec.struct, Fields.imap, Fields.both, Fields.req, hexVec_enc, JCodec.string, nitroJson]

theorem bridge_write (b : BridgeConfig) : JCodec.bridgeConfig.enc b = bridgeJson b := by
  rcases b with ⟨p, h⟩ | ⟨p, _ | h⟩ <;> rfl

theorem member_write (m : QuorumMember) : JCodec.quorumMember.enc m = memberJson m := by
  simp [JCodec.quorumMember, JCodec.struct, Fields.imap, Fields.both, Fields.req, hexVec_enc, JCodec.string, memberJson]

theorem u32_write (n : UInt32) : JCodec.u32.enc n = .int n.toNat := rfl

theorem set_write (m : QuorumSet) : JCodec.quorumSet.enc m = setJson m := by
  simp [JCodec.quorumSet, JCodec.struct, Fields.imap, Fields.both, Fields.req, u32_write, vec_write member_write, setJson]

theorem patchSet_write (m : PatchSet) : JCodec.patchSet.enc m = patchSetJson m := by
  have : ∀ b, (JCodec.struct false (.req "pubKey" JCodec.hexVec)).enc b = .obj [("pubKey", hex b)] := by
    intro b; simp [JCodec.struct, Fields.req, hexVec_enc]
  simp [JCodec.patchSet, JCodec.struct, Fields.imap, Fields.both, Fields.req, u32_write, patchSetJson]
  exact vec_write this m.members

theorem namespace_write (n : Namespace) : JCodec.namespace.enc n = namespaceJson n := by
  simp [JCodec.namespace, JCodec.struct, Fields.imap, Fields.both, Fields.req, u32_write, hexVec_enc, JCodec.string, namespaceJson]

theorem dns_write (d : DnsConfig) : JCodec.dnsConfig.enc d = dnsJson d := by
  simp [JCodec.dnsConfig, JCodec.struct, Fields.imap, Fields.req, dnsJson]
  exact vec_write (fun _ => rfl) d.resolvers

theorem pivotV0_write (p : PivotConfigV0) : JCodec.pivotConfigV0.enc p = pivotJsonV0 p := by
  simp [JCodec.pivotConfigV0, JCodec.struct, Fields.imap, Fields.both, Fields.req, hexArray_enc, restart_write, texts_write, pivotJsonV0]

theorem pivotV1_write (p : PivotConfig) : JCodec.pivotConfig.enc p = pivotJsonV1 p := by
  simp [JCodec.pivotConfig, JCodec.struct, Fields.imap, Fields.both, Fields.req, hexArray_enc, restart_write, texts_write,
    vec_write bridge_write, JCodec.bool, pivotJsonV1]

theorem env_write (m : Env.Map) : JCodec.pivotEnv.enc m = envJson m := rfl

theorem pivotV2_write (p : PivotConfigV2) : JCodec.pivotConfigV2.enc p = pivotJsonV2 p := by
  simp [JCodec.pivotConfigV2, JCodec.struct, Fields.imap, Fields.both, Fields.req, Fields.orEmpty, hexArray_enc, restart_write,
    texts_write, vec_write bridge_write, JCodec.bool, env_write, pivotJsonV2]

theorem manifestV1_write (m : Manifest) : JCodec.manifest.enc m = manifestJsonV1 m := by
  simp [JCodec.manifest, JCodec.struct, Fields.imap, Fields.both, Fields.req, namespace_write, pivotV1_write, set_write,
    nitro_write, patchSet_write, manifestJsonV1]

theorem manifestV0_write (m : ManifestV0) : JCodec.manifestV0.enc m = manifestJsonV0 m := by
  simp [JCodec.manifestV0, JCodec.struct, Fields.imap, Fields.both, Fields.req, namespace_write, pivotV0_write, set_write,
    nitro_write, patchSet_write, manifestJsonV0]

theorem manifestV2_write (m : ManifestV2) : JCodec.manifestV2.enc m = manifestJsonV2 m := by
  obtain ⟨ver, ns, pv, ms, ss, en, dns⟩ := m
  cases ver <;> cases dns <;>
    simp [JCodec.manifestV2, JCodec.struct, Fields.imap, Fields.both, Fields.req, Fields.opt, JCodec.v2Version, JCodec.versionName,
      namespace_write, pivotV2_write, set_write, nitro_write, dns_write, manifestJsonV2]

theorem approval_write (a : Approval) : JCodec.approval.enc a = approvalJson a := by
  simp [JCodec.approval, JCodec.struct, Fields.imap, Fields.both, Fields.req, hexVec_enc, member_write, approvalJson]

/-- C73: the document an envelope is written as. -/
theorem envelope_document (e : Envelope) : e.encUntagged = envelopeJson e := by
  cases e <;>
    simp [Envelope.encUntagged, JCodec.envelopeV2, JCodec.envelopeV1, JCodec.envelopeV0, JCodec.envelopeFields, JCodec.struct,
      Fields.imap, Fields.both, Fields.req, vec_write approval_write, manifestV2_write, manifestV1_write, manifestV0_write,
      envelopeJson]

/-- C73: a stored envelope is this document: canonical text for V2, compact text for V1 and V0. -/
theorem envelope_stored (e : Envelope) : e.toStorageVec =
    match e with
    | .v2 _ => Json.canonBytes (envelopeJson e)
    | .v1 _ => some (Json.writeBytes (envelopeJson e))
    | .v0 _ => some (Json.writeBytes (envelopeJson e)) := by
  rw [← envelope_document]
  cases e <;> rfl

/-- C73: the same for a manifest. -/
theorem manifest_stored (m : VersionedManifest) : m.toStorageVec =
    match m with
    | .v2 _ => Json.canonBytes (manifestJson m)
    | .v1 _ => some (Json.writeBytes (manifestJson m))
    | .v0 _ => some (Json.writeBytes (manifestJson m)) := by
  cases m <;> simp [VersionedManifest.toStorageVec, manifestJson, manifestV2_write, manifestV1_write, manifestV0_write]

/-- C73: the hash that approvals sign is the SHA-256 of the canonical text of this document for V2. -/
theorem hashed_v2 (p : Prims) (m : ManifestV2) (hm : (VersionedManifest.v2 m).Ok) :
    ∃ b, Json.canonBytes (manifestJsonV2 m) = some b ∧ (VersionedManifest.v2 m).hash p = p.sha256 b := by
  obtain ⟨b, hb, -⟩ := storage_roundtrip_manifest (.v2 m) hm
  have hb' : Json.canonBytes (JCodec.manifestV2.enc m) = some b := hb
  refine ⟨b, ?_, ?_⟩
  · rw [← manifestV2_write]; exact hb'
  · simp only [VersionedManifest.hash, VersionedManifest.hashInput, hb', Option.getD_some]

/-- C73: and of the Borsh bytes for V1. -/
theorem hashed_v1 (p : Prims) (m : Manifest) : (VersionedManifest.v1 m).hash p = p.sha256 (manifestBytesV1 m) := by
  simp [VersionedManifest.hash, VersionedManifest.hashInput, manifestV1_enc]

/-- C73: and for V0. -/
theorem hashed_v0 (p : Prims) (m : ManifestV0) : (VersionedManifest.v0 m).hash p = p.sha256 (manifestBytesV0 m) := by
  simp [VersionedManifest.hash, VersionedManifest.hashInput, manifestV0_enc]

/-- C73: the older reader of a manifest: V0 JSON, or Borsh of exactly one version; a V0 manifest becomes a V1 manifest without
bridges, not in debug mode, and otherwise unchanged. -/
theorem legacy_manifest_read (buf : Bytes) (m : Manifest) : Manifest.tryFromSliceCompat buf = some m ↔
    (∃ m0, JsonOf ManifestDocV0 buf m0 ∧ m = ⟨m0.namespace, ⟨m0.pivot.hash, m0.pivot.restart, [], false, m0.pivot.args⟩,
      m0.manifestSet, m0.shareSet, m0.enclave, m0.patchSet⟩) ∨
    ((¬ ∃ m0, JsonOf ManifestDocV0 buf m0) ∧ ((BorshV1 buf m ∧ ¬ ∃ m0, BorshV0 buf m0) ∨
      ((¬ ∃ m1, BorshV1 buf m1) ∧ ∃ m0, BorshV0 buf m0 ∧ m = ⟨m0.namespace,
        ⟨m0.pivot.hash, m0.pivot.restart, [], false, m0.pivot.args⟩, m0.manifestSet, m0.shareSet, m0.enclave, m0.patchSet⟩))) := by
  have h0 := fun a => json_iff manifest_v0_read (buf := buf) (a := a)
  unfold Manifest.tryFromSliceCompat
  cases e0 : fromJsonSlice JCodec.manifestV0 buf with
  | some b =>
    have qb : ∀ a', JsonOf ManifestDocV0 buf a' ↔ a' = b := fun a' => by rw [← h0, e0]; simp [eq_comm]
    simp [qb, ManifestV0.upgrade, PivotConfigV0.upgrade, eq_comm]
  | none =>
    have qb : ∀ a', ¬ JsonOf ManifestDocV0 buf a' := fun a' => by rw [← h0, e0]; simp
    simp only [decodeBorsh_iff (borsh_v1_read buf) (borsh_v0_read buf), qb, id]
    constructor
    · rintro (⟨a, rfl, h1, h2⟩ | ⟨b, rfl, h1, h2⟩)
      · exact .inr ⟨by simp, .inl ⟨h1, h2⟩⟩
      · exact .inr ⟨by simp, .inr ⟨h2, b, h1, rfl⟩⟩
    · rintro (⟨_, h, -⟩ | ⟨-, ⟨h1, h2⟩ | ⟨h2, b, h1, rfl⟩⟩)
      · exact h.elim
      · exact .inl ⟨m, rfl, h1, h2⟩
      · exact .inr ⟨b, rfl, h1, h2⟩

/-- C73: the older reader of an envelope: Borsh of exactly one version. -/
theorem legacy_envelope_read (buf : Bytes) (e : EnvelopeOf Manifest) : ManifestEnvelope.tryFromSliceCompat buf = some e ↔
    (BorshEnvelopeV1 buf e ∧ ¬ ∃ e0, BorshEnvelopeV0 buf e0) ∨
      ((¬ ∃ e1, BorshEnvelopeV1 buf e1) ∧ ∃ e0, BorshEnvelopeV0 buf e0 ∧
        e = ⟨⟨e0.manifest.namespace, ⟨e0.manifest.pivot.hash, e0.manifest.pivot.restart, [], false, e0.manifest.pivot.args⟩,
          e0.manifest.manifestSet, e0.manifest.shareSet, e0.manifest.enclave, e0.manifest.patchSet⟩,
          e0.manifestSetApprovals, e0.shareSetApprovals⟩) := by
  unfold ManifestEnvelope.tryFromSliceCompat
  rw [decodeBorsh_iff (borsh_envelope_v1_read buf) (borsh_envelope_v0_read buf)]
  simp only [id]
  constructor
  · rintro (⟨a, rfl, h1, h2⟩ | ⟨b, rfl, h1, h2⟩)
    · exact .inl ⟨h1, h2⟩
    · exact .inr ⟨h2, b, h1, rfl⟩
  · rintro (⟨h1, h2⟩ | ⟨h2, b, h1, rfl⟩)
    · exact .inl ⟨e, rfl, h1, h2⟩
    · exact .inr ⟨b, rfl, h1, h2⟩

/-! ### Concrete documents -/

/-- A V2 manifest with bridges, variables and resolvers. -/
def sample : ManifestV2 :=
  { version := .v2
    «namespace» := ⟨"ns", 7, [1, 171]⟩
    pivot := ⟨List.replicate 32 5, .always, [.server 3000 "0.0.0.0", .client 53 none], false, ["--x"], [("A", "1"), ("B", "2")]⟩
    manifestSet := ⟨2, [⟨"a", [1]⟩, ⟨"b", [2]⟩]⟩
    shareSet := ⟨1, [⟨"c", [3]⟩]⟩
    enclave := ⟨[0], [1], [2], [3], [4], "commit"⟩
    dns := some ⟨[.v4 ⟨1, 1, 1, 1⟩]⟩ }

/-- A document that says so: members in another order, numbers as texts, capital digits, a repeated variable, and a bridge as
an array. -/
def sampleDoc : Json :=
  .obj [("pivot", .obj [("hash", .str "0x0505050505050505050505050505050505050505050505050505050505050505"),
      ("restart", .str "Always"), ("debugMode", .bool false), ("args", .arr [.str "--x"]),
      ("bridgeConfig", .arr [.obj [("port", .str "3000"), ("type", .str "server"), ("host", .str "0.0.0.0")],
        .arr [.str "client", .int 53]]),
      ("env", .obj [("B", .obj [("plain", .obj [("value", .str "0")])]), ("A", .obj [("plain", .obj [("value", .str "1")])]),
        ("B", .obj [("plain", .obj [("value", .str "2")])])])]),
    ("version", .str "v2"),
    ("namespace", .obj [("quorumKey", .str "01AB"), ("nonce", .int 7), ("name", .str "ns"), ("comment", .null)]),
    ("manifestSet", .obj [("threshold", .str "2"), ("members", .arr [.obj [("alias", .str "a"), ("pubKey", .str "01")],
      .obj [("pubKey", .str "0x02"), ("alias", .str "b")]])]),
    ("shareSet", .arr [.int 1, .arr [.arr [.str "c", .str "03"]]]),
    ("enclave", .obj [("pcr0", .str "00"), ("pcr1", .str "01"), ("pcr2", .str "02"), ("pcr3", .str "03"),
      ("awsRootCertificate", .str "04"), ("qosCommit", .str "commit")]),
    ("dns", .obj [("resolvers", .arr [.str "1.1.1.1"])])]

/-- The document says that manifest. -/
theorem sample_read : ManifestDocV2 sampleDoc sample := (manifest_v2_read _ _).mp (by decide +kernel)

/-- The manifest is written as another document, which says the same. -/
theorem sample_written : manifestJsonV2 sample ≠ sampleDoc ∧ ManifestDocV2 (manifestJsonV2 sample) sample := by
  constructor
  · intro h
    have := congrArg (fun v => v.get "pivot" = none ∨ (match v with | .obj ((k, _) :: _) => k | _ => "") = "version") h
    simp [manifestJsonV2, sampleDoc, Json.get, lookup] at this
  · rw [← manifest_v2_read]; decide +kernel

/-- One member that V2 does not know, and it is not a V2 manifest. -/
example : ¬ ∃ m, ManifestDocV2 (match sampleDoc with | .obj kvs => .obj (("patchSet", .null) :: kvs) | v => v) m := by
  rintro ⟨m, hm⟩
  rw [← manifest_v2_read] at hm
  have : (JCodec.manifestV2.dec (match sampleDoc with | .obj kvs => .obj (("patchSet", .null) :: kvs) | v => v)).isSome = false := by
    decide +kernel
  rw [hm] at this
  cases this

/-- C73: inside a V2 manifest the parts that V2 shares with V1 do ignore unknown members: a misspelt `host` is dropped. -/
theorem nested_unknown_ignored : (∃ v : Json, v = .obj [("type", .str "client"), ("port", .int 53), ("Host", .str "h")] ∧
    BridgeDoc v (.client 53 none)) ∧ ∃ v : Json, v = .obj [("alias", .str "a"), ("pubKey", .str "01"), ("weight", .int 2)] ∧
    MemberDoc v ⟨"a", [1]⟩ :=
  ⟨⟨_, rfl, bridge_iff.mp (by decide +kernel)⟩, ⟨_, rfl, member_iff.mp (by decide +kernel)⟩⟩

/-- The V1 envelope of the other examples, as a file. -/
example : ∃ b, EnvelopeRead b toyEnvelope := by
  obtain ⟨b, -, h⟩ := storage_roundtrip toyEnvelope toyEnvelope_ok
  exact ⟨b, (envelope_read b toyEnvelope).mp h⟩

/-- Its manifest's bytes are the Borsh form that is hashed. -/
example : BorshV1 (manifestBytesV1 toyManifest) toyManifest ∧
    (VersionedManifest.v1 toyManifest).hash toyPrims = toyPrims.sha256 (manifestBytesV1 toyManifest) :=
  ⟨(borsh_v1_read _ _).mp (by decide +kernel), hashed_v1 toyPrims toyManifest⟩

/-- `hashed_v2` applies to the sample. -/
example : ∃ b, Json.canonBytes (manifestJsonV2 sample) = some b ∧ (VersionedManifest.v2 sample).hash toyPrims = toyPrims.sha256 b :=
  hashed_v2 toyPrims sample (JCodec.lawful_manifestV2.dec_ok sampleDoc sample ((manifest_v2_read _ _).mpr sample_read))

/-- The start of a Borsh form, byte by byte. -/
example : (manifestBytesV0 (Borsh.sampleV0 ["--x"])).take 17 = [2, 0, 0, 0, 110, 115, 7, 0, 0, 0, 2, 0, 0, 0, 1, 2, 5] := by decide +kernel

/-- A V0 file, read by the older reader too. -/
example : ∃ m, Manifest.tryFromSliceCompat (manifestBytesV0 (Borsh.sampleV0 ["--x"])) = some m ∧ m.pivot.args = ["--x"] ∧
    m.pivot.debugMode = false := by
  refine ⟨(Borsh.sampleV0 ["--x"]).upgrade, ?_, rfl, rfl⟩
  decide +kernel

end Qos.Format
