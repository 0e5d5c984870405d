import Verif.Props.Approvals
import Verif.Props.Attest
import Verif.Props.Storage
import Verif.Props.P256
import Verif.Props.Nsm
import Verif.Props.NChooseK
import Verif.Props.Pool
import Verif.Props.Launcher
import Verif.Props.Env
/-!
# Concrete cases, part A

Theorems with several hypotheses, each applied to a concrete case that meets all of them.
-/
namespace Qos

open P256 (toyPrims toyLaws)

/-! ## Approvals -/

/-- The toy envelope with the manifest-set threshold taken to zero and no approval at all. -/
def looseManifest : Manifest := { toyManifest with manifestSet := ⟨0, [toyMember 1, toyMember 2, toyMember 3]⟩ }

example : (Envelope.v1 ⟨looseManifest, [], []⟩).checkApprovals toyPrims = .ok () :=
  zero_threshold_needs_no_approval toyPrims (.v1 ⟨looseManifest, [], []⟩)
    ((unique_members_iff toyPrims [toyMember 1, toyMember 2, toyMember 3]).mp (by decide +kernel)) rfl rfl

/-- Two different keys signed the toy envelope. -/
example : ∃ keys : List Bytes, keys.Nodup ∧ 2 ≤ keys.length :=
  let ⟨keys, h1, h2, _⟩ := check_approvals_distinct_signers toyPrims toyEnvelope (by decide +kernel)
  ⟨keys, h1, h2⟩

example : ensureUniqueMembers toyPrims [toyMember 2, toyMember 1] = .ok () :=
  (unique_members_perm toyPrims [toyMember 1, toyMember 2] [toyMember 2, toyMember 1] (List.Perm.swap _ _ _)).mp (by decide +kernel)

/-! ## Attestation -/

/-- A hash that collides everywhere: what `setup_live_not_interchangeable` excludes for any other. -/
def flatPrims : Prims := { toyPrims with sha384 := fun _ => List.replicate 48 0 }

theorem flatLaws : flatPrims.Laws := { toyLaws with sha384_length := fun _ => List.length_replicate }

example : ∃ x y, x ≠ y ∧ flatPrims.sha384 x = flatPrims.sha384 y :=
  Attest.setup_live_not_interchangeable flatPrims flatLaws (Attest.goodDoc flatPrims [7] [8]) ⟨[7], [0], [1], [2], [3]⟩
    ⟨[7], [0], [1], [2], [3]⟩ (Attest.goodDoc_matches flatPrims .setup [7] [8]) (Attest.goodDoc_matches flatPrims .live [7] [8])
    (by decide +kernel)

example : ((Attest.goodDoc toyPrims [7] [8]).publicKey = (Attest.goodDoc toyPrims [7] [8]).publicKey ∧ ([7] : Bytes) = [7]) ∨
    ∃ x y, x ≠ y ∧ toyPrims.sha384 x = toyPrims.sha384 y :=
  Attest.attested_key_unique toyPrims toyLaws .live (Attest.goodDoc toyPrims [7] [8]) (Attest.goodDoc toyPrims [7] [8])
    ⟨[7], [0], [1], [2], [3]⟩ ⟨[7], [0], [1], [2], [3]⟩ (Attest.goodDoc_matches toyPrims .live [7] [8])
    (Attest.goodDoc_matches toyPrims .live [7] [8]) rfl

example : 1 ≤ Attest.sampleDoc.cabundle.length := Attest.validateDoc_cabundle Attest.sampleDoc (by decide +kernel)

/-! ## Storage -/

theorem sampleV2_ok : (Envelope.v2 sampleV2).Ok :=
  JCodec.lawful_envelopeV2.dec_ok (JCodec.envelopeV2.enc sampleV2) sampleV2 (by decide +kernel)

/-- The sample with an approval of a share holder. -/
def sampleShared : EnvelopeOf ManifestV2 := { sampleV2 with shareSetApprovals := [⟨[1], ⟨"a", [1]⟩⟩] }

theorem sampleShared_ok : (Envelope.v2 sampleShared).Ok :=
  JCodec.lawful_envelopeV2.dec_ok (JCodec.envelopeV2.enc sampleShared) sampleShared (by decide +kernel)

/-- It makes a different file. -/
example : (Envelope.v2 sampleV2).toStorageVec ≠ (Envelope.v2 sampleShared).toStorageVec := fun h => by
  have := storage_injective _ _ sampleV2_ok sampleShared_ok h
  simp only [Envelope.v2.injEq] at this
  exact absurd (congrArg (fun e => e.shareSetApprovals.length) this) (by decide)

example : Envelope.decUntagged (Envelope.v2 sampleV2).encUntagged = some (.v2 sampleV2) :=
  wire_envelope_roundtrip _ sampleV2_ok

theorem declared_reads {buf : Bytes} {v m ver : Json} {e : EnvelopeOf ManifestV2} (hp : Json.parse buf = some v)
    (hm : v.get "manifest" = some m) (hv : m.get "version" = some ver) (hd : JCodec.envelopeV2.dec v = some e) :
    Envelope.tryFromSliceCompat buf = some (.v2 e) := by
  unfold Envelope.tryFromSliceCompat
  rw [if_pos (by simp [envelopeDeclaresVersion, hp, hm, hv])]
  simp [fromJsonSlice, hp, hd]

/-- The text of the sample envelope declares its version, and is read as V2. -/
example : (Envelope.v2 sampleV2).manifest.versionLabel = "v2" := by
  have hp : Json.parse (Json.writeBytes (JCodec.envelopeV2.enc sampleV2)) = some (JCodec.envelopeV2.enc sampleV2) :=
    Json.parse_writeBytes _ (JCodec.lawful_envelopeV2.plain _ sampleV2_ok) (by decide +kernel)
  have hm : (JCodec.envelopeV2.enc sampleV2).get "manifest" = some (JCodec.manifestV2.enc sampleV2.manifest) := by decide +kernel
  have hv : (JCodec.manifestV2.enc sampleV2.manifest).get "version" = some (.str "v2") := by decide +kernel
  have hd : JCodec.envelopeV2.dec (JCodec.envelopeV2.enc sampleV2) = some sampleV2 :=
    JCodec.lawful_envelopeV2.dec_enc sampleV2 sampleV2_ok
  exact (declared_version_never_downgraded _ _ _ _ _ hp hm hv (declared_reads hp hm hv hd)).1

/-- A member the envelope does not have, beside a manifest that declares its version. -/
example : ∃ buf, Envelope.tryFromSliceCompat buf = none := by
  have hp : Json.parse (Json.writeBytes (.obj [("manifest", .obj [("version", .str "v2")]), ("approvals", .arr [])])) =
      some (.obj [("manifest", .obj [("version", .str "v2")]), ("approvals", .arr [])]) :=
    Json.parse_writeBytes _ (by simp [Json.Plain, Json.PlainObj, Json.PlainArr]) (by decide +kernel)
  exact ⟨_, declared_version_unknown_envelope_field_rejected _ _ (.obj [("version", .str "v2")]) (.str "v2") hp (by decide +kernel)
    (by decide +kernel) "approvals" (by decide +kernel) (by decide +kernel)⟩

/-! ## Keys -/

namespace P256

example : List.replicate 130 4 = (List.replicate 130 4 : Bytes) :=
  public_fromBytes_injective toyPrims (List.replicate 130 4) (List.replicate 130 4) ⟨List.replicate 65 4, List.replicate 65 4⟩
    (by decide +kernel) (by decide +kernel)

/-- The same bytes cut at another place are another pair of keys. -/
example : ∀ a, aad [1] [2, 3] = .ok a → aad [1, 2] [3] ≠ .ok a := fun a h h' =>
  absurd (aad_injective [1] [2, 3] [1, 2] [3] a h h').1 (by decide)

example : (∃ a, aad [1] [2, 3] = .ok a) ∧ ∃ a, aad [1, 2] [3] = .ok a := ⟨⟨_, rfl⟩, ⟨_, rfl⟩⟩

example : kdfPreImage (List.replicate 65 1) (List.replicate 65 2) [3] ≠ kdfPreImage (List.replicate 65 2) (List.replicate 65 1) [3] :=
  fun h => absurd (kdf_injective _ _ _ _ _ _ List.length_replicate List.length_replicate List.length_replicate
    List.length_replicate h).1 (by decide)

example : ∃ a, aad (List.replicate 65 1) (List.replicate 65 2) = .ok a ∧ a ≠ symTag :=
  aad_domain_separated _ _ List.length_replicate List.length_replicate

/-- What the toy key decrypts is an envelope. -/
example : ∃ k ct, Pair.fromMasterSeed toyPrims (List.replicate 32 7) = .ok k ∧
    (k.publicKey toyPrims).encrypt toyPrims ⟨List.replicate 32 9, List.replicate 12 1⟩ [1, 2, 3] = .ok ct ∧
    ∃ nonce sender : Bytes, nonce.length = 12 ∧ sender.length = 65 ∧ nonce ++ sender <+: ct := by
  obtain ⟨k, hk⟩ : ∃ k, Pair.fromMasterSeed toyPrims (List.replicate 32 7) = .ok k := ⟨_, rfl⟩
  have hpub := (public_of_pair toyPrims toyLaws _ k hk).1
  have hr : SealRandom.Ok toyPrims ⟨List.replicate 32 9, List.replicate 12 1⟩ := ⟨rfl, rfl⟩
  obtain ⟨ct, hct⟩ := encrypt_total toyPrims toyLaws _ [1, 2, 3] (k.publicKey toyPrims) _ hpub hr (by decide)
  obtain ⟨nonce, sender, body, ad, h1, h2, -, rfl, -⟩ :=
    decrypt_only_envelopes toyPrims k ct [1, 2, 3] (decrypt_encrypt toyPrims toyLaws _ _ ct k _ hk hr hct)
  exact ⟨k, _, hk, hct, nonce, sender, h1, h2, List.prefix_append _ _⟩

/-- The layout of a ciphertext, for the toy primitives. -/
example : ∃ k ct, (Public.mk (List.replicate 65 4) (List.replicate 65 4)).encrypt toyPrims ⟨List.replicate 32 9, List.replicate 12 1⟩ [1, 2] = .ok ct ∧
    ct = k ∧ ∃ body : Bytes, body.length < 2 ^ 32 := by
  have hk : Public.fromBytes toyPrims (List.replicate 130 4) = .ok ⟨List.replicate 65 4, List.replicate 65 4⟩ := by decide +kernel
  have hr : SealRandom.Ok toyPrims ⟨List.replicate 32 9, List.replicate 12 1⟩ := ⟨rfl, rfl⟩
  obtain ⟨ct, hct⟩ := encrypt_total toyPrims toyLaws _ [1, 2] _ _ hk hr (by decide)
  obtain ⟨body, -, hb, -⟩ := (ciphertext_format toyPrims toyLaws _ _ ct _ _ hk hr).mp hct
  exact ⟨ct, ct, hct, rfl, body, hb⟩

end P256

end Qos
