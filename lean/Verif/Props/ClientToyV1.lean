import Verif.Props.ClientToy
/-!
# C43–C45 on a V1 manifest: the theorems apply

`generate-manifest` with a patch set, on the toy operator's disk.
-/
namespace Qos.Client
open P256 (toyPrims toyLaws)

/-- The same request for `generate-manifest`: a patch set, no resolvers. -/
def toyGenerateV1 : GenerateManifestArgs := { toyGenerate with patchSetDir := some "set", dnsResolvers := none }

theorem toyPatchSet_in : PatchSetIn toyPrims toyDisk "set" ⟨2, [(toyMember 1).pubKey, (toyMember 2).pubKey]⟩ := by
  obtain ⟨⟨ms, h1, h2⟩, -, h3⟩ := toySet_in
  refine ⟨⟨ms, h1, ?_⟩, ?_, h3⟩
  · exact h2.map (·.pubKey)
  · exact List.pairwise_pair.mpr (by decide +kernel)

/-- The V1 manifest the request asks for. -/
def toyManifestV1 : Manifest where
  «namespace» := ⟨"prod/x", 3, (toyMember 9).pubKey⟩
  pivot := ⟨toyPrims.sha256 [7, 7], .always, [], false, ["--a"]⟩
  manifestSet := ⟨2, [toyMember 1, toyMember 2]⟩
  shareSet := ⟨2, [toyMember 1, toyMember 2]⟩
  enclave := toyNitro
  patchSet := ⟨2, [(toyMember 1).pubKey, (toyMember 2).pubKey]⟩

theorem toy_match_v1 : LocalMatch toyPrims [1, 2] toyDisk toyGenerateV1.places (.v1 toyManifestV1) where
  manifestSet := toySet_in
  shareSet := toySet_in
  patchSet := fun ps h => ⟨"set", rfl, by cases h; exact toyPatchSet_in⟩
  noPatchSet := fun h => nomatch h
  enclave := toyNitro_in
  pivotHash := toy_match.pivotHash
  quorumKey := toy_match.quorumKey

/-- `generate-manifest` runs. -/
theorem toy_generated_v1 : ∃ c m, (generateManifest toySetting toyGenerateV1 ()).events = [.wrote "manifest" c] ∧
    VersionedManifest.tryFromSliceCompat c = some (.v1 m) ∧ LocalMatch toyPrims [1, 2] toyDisk toyGenerateV1.places (.v1 m) ∧
    Requested toyGenerateV1 (.v1 m) ∧ (VersionedManifest.v1 m).Ok := by
  obtain ⟨c, hc⟩ := (generate_complete toySetting toyLaws (by decide) toyGenerateV1 () rfl).1 toyManifestV1 toy_match_v1
    ⟨rfl, rfl, rfl, rfl, rfl, rfl, rfl⟩ (by decide)
  obtain ⟨_, m', k1, k2, k3, k4⟩ := generate_v1_written toySetting toyLaws (by decide) toyGenerateV1 () "manifest" c
    (by rw [hc]; exact List.mem_singleton.mpr rfl)
  exact ⟨c, m', hc, k1, k2, k3, k4⟩
end Qos.Client
