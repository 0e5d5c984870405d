import Verif.Conformance.Services
/-!
# Replay of the tests of the versioned manifest

The tests of qos_core/src/protocol/services/boot/manifest.rs:513-886, run on the model (the last one, lines 888-918, is in
`Encodings.lean`). Evaluated by Lean's interpreter; the build stops if one differs. Checks of the model against the
program's own tests, not properties.
-/
namespace Qos.Conformance

/-- `sample_member` (manifest.rs:525-530). -/
def versionedMember : QuorumMember := ⟨"member-1", testPub 41⟩

/-- The enclave of the samples. -/
def versionedEnclave : NitroConfig :=
  ⟨List.replicate 48 0, List.replicate 48 1, List.replicate 48 2, List.replicate 48 3, [], "commit"⟩

/-- `sample_v2_manifest` (manifest.rs:532-565), with these resolvers. -/
def versionedV2 (dns : Option DnsConfig) : ManifestV2 where
  version := .v2
  «namespace» := ⟨"test-namespace", 42, List.replicate 33 7⟩
  pivot := ⟨List.replicate 32 9, .never, [], false, ["--foo"], []⟩
  manifestSet := ⟨1, [versionedMember]⟩
  shareSet := ⟨1, [versionedMember]⟩
  enclave := versionedEnclave
  dns := dns

/-- `sample_v1_manifest` (manifest.rs:567-600). -/
def versionedV1 : Manifest where
  «namespace» := ⟨"test-namespace", 42, List.replicate 33 7⟩
  pivot := ⟨List.replicate 32 9, .never, [], false, ["--foo"]⟩
  manifestSet := ⟨1, [versionedMember]⟩
  shareSet := ⟨1, [versionedMember]⟩
  enclave := versionedEnclave
  patchSet := ⟨1, [versionedMember.pubKey]⟩

/-- `sample_v0_manifest` (manifest.rs:602-633). -/
def versionedV0 : ManifestV0 where
  «namespace» := ⟨"test-namespace", 42, List.replicate 33 7⟩
  pivot := ⟨List.replicate 32 9, .never, ["--foo"]⟩
  manifestSet := ⟨1, [versionedMember]⟩
  shareSet := ⟨1, [versionedMember]⟩
  enclave := versionedEnclave
  patchSet := ⟨1, [versionedMember.pubKey]⟩

/-- `value[key] = new` of the tests. -/
def setKey (key : String) (new : Json) : Json → Json
  | .obj kvs => .obj (kvs.filter (fun kv => kv.1 != key) ++ [(key, new)])
  | v => v

/-- The same, one level down: `value["manifest"][key] = new`. -/
def setInner (outer key : String) (new : Json) (v : Json) : Json :=
  match v.get outer with
  | some m => setKey outer (setKey key new m) v
  | none => v

/-- The JSON tree of the V2 sample. -/
def treeV2 (dns : Option DnsConfig) : Json := JCodec.manifestV2.enc (versionedV2 dns)

/-- The resolvers of the tests, read from their text. -/
def twoResolvers : Option DnsConfig :=
  match Ip.parse "1.1.1.1", Ip.parse "2606:4700:4700::1111" with
  | some a, some b => some ⟨[a, b]⟩
  | _, _ => none

/-! `v2_manifest_omits_dns_when_absent`. -/
#eval check ((treeV2 none).get "dns").isNone

/-! `v2_manifest_round_trips_dns_resolvers`. -/
#eval check (twoResolvers.isSome &&
  ((treeV2 twoResolvers).get "dns").any (fun d => (d.get "resolvers").any
    (Json.beq (.arr [.str "1.1.1.1", .str "2606:4700:4700::1111"]))) &&
  (JCodec.manifestV2.dec (treeV2 twoResolvers)).map (·.dns) == some twoResolvers)

/-! `v2_manifest_rejects_invalid_dns_resolver`. -/
#eval check (JCodec.manifestV2.dec (setKey "dns" (.obj [("resolvers", .arr [.str "not-an-ip"])]) (treeV2 none))).isNone
#eval check (JCodec.manifestV2.dec (setKey "dns" (.obj [("resolvers", .arr [.str "1.1.1.1"])]) (treeV2 none))).isSome

/-! `v2_manifest_rejects_a_version_other_than_v2`. -/
#eval check ([Json.str "v1", .str "v3", .int 2].all fun v => (JCodec.manifestV2.dec (setKey "version" v (treeV2 none))).isNone)
#eval check (JCodec.manifestV2.dec (setKey "version" (.str "v2") (treeV2 none)) == some (versionedV2 none))

/-- Reads the text of a JSON tree as a manifest of any version. -/
def readsManifest (v : Json) : Option VersionedManifest := VersionedManifest.tryFromSliceCompat (Json.writeBytes v)

/-- The same, as an envelope. -/
def readsEnvelope (v : Json) : Option Envelope := Envelope.tryFromSliceCompat (Json.writeBytes v)

/-! `declared_version_never_falls_back_to_an_older_schema`. -/
#eval check (readsManifest (setKey "version" (.str "v2") (JCodec.manifest.enc versionedV1))).isNone
#eval check (readsManifest (setKey "version" (.str "v1") (JCodec.manifestV0.enc versionedV0))).isNone
#eval check (readsManifest (JCodec.manifest.enc versionedV1) == some (.v1 versionedV1))
#eval check (readsManifest (JCodec.manifestV0.enc versionedV0) == some (.v0 versionedV0))

/-! `enveloped_declared_version_never_falls_back_to_an_older_schema`. -/
#eval check (readsEnvelope (setInner "manifest" "version" (.str "v2") (JCodec.envelopeV1.enc ⟨versionedV1, [], []⟩))).isNone
#eval check (readsEnvelope (JCodec.envelopeV1.enc ⟨versionedV1, [], []⟩) == some (.v1 ⟨versionedV1, [], []⟩))

/-! `versioned_manifest_dns_config_is_v2_only`. -/
#eval check ((VersionedManifest.v2 (versionedV2 twoResolvers)).dnsConfig == twoResolvers &&
  (VersionedManifest.v1 versionedV1).dnsConfig.isNone && (VersionedManifest.v0 versionedV0).dnsConfig.isNone)

/-- `canonical_json_hash` (manifest.rs:20-30) of a V2 manifest. -/
def canonicalHash (m : ManifestV2) : Option Bytes := (Json.canonBytes (JCodec.manifestV2.enc m)).map sha256

/-! `v2_manifest_decode_and_hash_uses_canonical_json`. -/
#eval check ((Json.canonBytes (treeV2 none)).bind VersionedManifest.tryFromSliceCompat == some (.v2 (versionedV2 none)) &&
  some ((VersionedManifest.v2 (versionedV2 none)).hash realPrims) == canonicalHash (versionedV2 none))

/-- The V2 envelope of the next test. -/
def approvedV2 : EnvelopeOf ManifestV2 :=
  ⟨versionedV2 none, [⟨(testPair 41).sign realPrims ((canonicalHash (versionedV2 none)).getD []), versionedMember⟩], []⟩

/-- Why an envelope is refused. -/
def approvalError (e : Envelope) : Option ProtocolError :=
  match e.checkApprovals realPrims with
  | .ok _ => none
  | .error x => some x

/-! `v2_envelope_decode_and_approval_verification_uses_json_hash`. -/
#eval check ((Json.canonBytes (JCodec.envelopeV2.enc approvedV2)).bind Envelope.tryFromSliceCompat == some (.v2 approvedV2) &&
  some ((Envelope.v2 approvedV2).manifest.hash realPrims) == canonicalHash (versionedV2 none) &&
  (approvalError (.v2 approvedV2)).isNone)

/-- The manifest of the next test: one key under two names. -/
def twoNames : ManifestV2 :=
  { versionedV2 none with manifestSet := ⟨2, [⟨"alias-a", testPub 41⟩, ⟨"alias-b", testPub 41⟩]⟩ }

/-! `versioned_check_approvals_rejects_same_key_under_different_aliases`. -/
#eval check (approvalError (.v2 ⟨twoNames, ["alias-a", "alias-b"].map fun n =>
  ⟨(testPair 41).sign realPrims ((canonicalHash twoNames).getD []), ⟨n, testPub 41⟩⟩, []⟩) == some .duplicateQuorumMember)

/-! `hash_dispatch_uses_borsh_for_v1_v0`. -/
#eval check ((VersionedManifest.v1 versionedV1).hash realPrims == sha256 (Borsh.manifest.enc versionedV1) &&
  (VersionedManifest.v0 versionedV0).hash realPrims == sha256 (Borsh.manifestV0.enc versionedV0))

/-! `borsh_serialization_rejects_v2_variants`. -/
#eval check ((Borsh.encodeManifest (.v2 (versionedV2 none))).isNone &&
  (Borsh.encodeEnvelope (.v2 ⟨versionedV2 none, [], []⟩)).isNone &&
  (Borsh.encodeManifest (.v1 versionedV1)).isSome && (Borsh.encodeManifest (.v0 versionedV0)).isSome)

end Qos.Conformance
