import Verif.Props.ClientForwardToy
import Verif.Props.ClientCommandToy
import Verif.Props.ClientCeremonyToy
import Verif.Props.ClientTools
import Verif.Props.Genesis
import Verif.Props.FormatMsgWire
/-!
# Concrete cases, part B: the tools, the ceremony, the export
-/
namespace Qos.Client

open P256 StateMachine Services ClientCli

/-- What is encrypted to the toy member's public key is decrypted with its seed. -/
example : ∃ es es', p256Encrypt { toySetting with disk := seedDisk [] } "role" "role.enc" "set/b.pub" () = ⟨.ok (), (), es⟩ ∧
    p256Decrypt { toySetting with disk := (seedDisk []).after es } "role.dec" "role.enc" "seed" false () = ⟨.ok (), (), es'⟩ ∧
    es' = [.wrote "role.dec" (ascii "arn:aws:iam::1:role/qos\n")] := by
  have hpair := toyPair_ok 1 (by decide)
  have hseed : SeedIn toyPrims (seedDisk []) "seed" (toyPair 1) := by
    refine ⟨(toyPair 1).toMasterSeedHex, rfl, seedText_iff.mp ?_⟩
    have hs : (toyPair 1).seed = List.replicate 32 1 := P256.pair_seed _ _ _ hpair
    rw [P256.hex_file_roundtrip _ _ (by rw [hs]; rfl), hs]
    exact hpair
  have hkey : KeyIn toyPrims (seedDisk []) "set/b.pub" (toyMember 1).pubKey := ⟨_, by rfl, toyMember_key 1 (by simp)⟩
  have hrole : (seedDisk []).file "role" = some (ascii "arn:aws:iam::1:role/qos\n") := by decide +kernel
  obtain ⟨ct, h⟩ := encrypt_succeeds { toySetting with disk := seedDisk [] } P256.toyLaws toyRand_ok "role" "role.enc" "set/b.pub"
    (key := (toyMember 1).pubKey) hkey (plaintext := ascii "arn:aws:iam::1:role/qos\n") hrole (by decide +kernel) rfl ()
  obtain ⟨pt, h1, h2⟩ := encrypted_decrypts { toySetting with disk := seedDisk [] } P256.toyLaws toyRand_ok "role" "role.enc"
    "set/b.pub" h (pair := toyPair 1) (by rw [show ((toyPair 1).publicKey toySetting.prims).toBytes = _ from toyPair_pub 1 (by decide)]; exact hkey)
    { toySetting with disk := (seedDisk []).after [.wrote "role.enc" ct] } rfl "role.dec" "role.enc" "seed" false
    (by
      obtain ⟨c, hc, ht⟩ := hseed
      refine ⟨c, ?_, ht⟩
      show ((seedDisk []).after [.wrote "role.enc" ct]).file "seed" = some c
      simp only [Disk.after]
      simp only [lastWrite, if_neg (show ¬ ("role.enc" = "seed") by decide), Option.none_or]
      exact hc) rfl rfl ()
  have : pt = ascii "arn:aws:iam::1:role/qos\n" := Option.some.inj (h1.symm.trans hrole)
  subst this
  exact ⟨_, _, h, h2, rfl⟩

theorem manifest_of_envelope {e : Envelope} {x : EnvelopeOf Manifest} (h : e.Ok) (he : e = .v1 x) :
    (VersionedManifest.v1 x.manifest).Ok := by
  subst he; exact h.1

/-- The toy manifest as a file is converted; the converted file has the hash that was approved. -/
example : ∃ (C : Setting Unit) (b : Bytes), jsonToBorsh C .manifest "manifest" "out" () = ⟨.ok (), (), [.wrote "out" b]⟩ ∧
    toyPrims.sha256 b = toyEnvelope.manifest.hash toyPrims := by
  have hok : (VersionedManifest.v1 toyManifest).Ok := (manifest_of_envelope toyEnvelope_ok rfl : _)
  obtain ⟨c, -, hc⟩ := storage_roundtrip_manifest (.v1 toyManifest) hok
  obtain ⟨b, h1, h2, -⟩ := convert_v1_manifest { toySetting with disk := seedDisk c } "manifest" "out" (m := toyManifest)
    ⟨c, rfl, hc⟩ rfl ()
  exact ⟨_, b, h1, h2⟩

/-- Two ceremonies, the same request, possibly different devices: the outputs agree or the hash collides. -/
example : ∃ resp out, (handle toyEnv (.bootGenesisRequest toySet (some (toyMember 9).pubKey)) (St.initial noFiles)).1 =
      .bootGenesisResponse resp out ∧ (out = out ∨ ∃ x y, x ≠ y ∧ toyEnv.prims.sha256 x = toyEnv.prims.sha256 y) := by
  obtain ⟨resp, out, -, -, h, -⟩ := toy_ceremony
  have hok : genesisSetCodec.ok toySet := set_ok toySet_request (by decide +kernel)
  exact ⟨resp, out, h, genesis_hash_binds toyEnv_ok toyEnv_ok (s := St.initial noFiles) (s' := St.initial noFiles) rfl rfl rfl
    hok hok h h rfl⟩

/-- The export of the toy forwarding: the new manifest has a quorum of the old manifest set. -/
example : ∃ (E : Env) (e new : Envelope), e.manifest = toyEnvelope.manifest ∧ new.manifest = nextEnvelope.manifest ∧
    Quorum E.prims (new.manifest.hash E.prims) e.manifest.manifestSet new.manifestSetApprovals := by
  obtain ⟨_, _, _, _, _, _, _, _, _, _, _, _, hf, _⟩ := toy_forwarding
  obtain ⟨E, fs0, h, s, e, new, pivot, der, ct, sig, h1, h2, h3, h4, h5, h6, h7⟩ := hf
  exact ⟨E, e, new, h5, h6, export_needs_old_quorum h2 h3 h4 new der ct sig h7⟩

end Qos.Client
