import Verif.Props.EnclaveCli
import Verif.Props.ClientCeremonyToy
/-!
# C72: a release file that both the client and the enclave read
-/
namespace Qos.EnclaveCli
open P256 Client
open HostCli (Number)

theorem seedLine_of {cs v : List Char} {k : Nat} {x : Bytes} (h1 : splitWhitespace cs = [v, 'P' :: 'C' :: 'R' :: [Char.ofNat (48 + k)]])
    (hk : k < 10) (h2 : Hex.decode (utf8 (String.ofList v)) = .ok x) (h3 : x.length ∈ [32, 48, 64]) :
    SeedLine (String.ofList cs) (UInt16.ofNat k) x := by
  have hn : (UInt16.ofNat k).toNat = k := UInt16.toNat_ofNat_of_lt' (Nat.lt_trans hk (by decide))
  refine ⟨String.ofList v, String.ofList [Char.ofNat (48 + k)], ?_, ?_, ?_, h2, h3⟩
  · have := split_two.mp h1
    rw [show "PCR" ++ String.ofList [Char.ofNat (48 + k)] = String.ofList ('P' :: 'C' :: 'R' :: [Char.ofNat (48 + k)]) by
      rw [← String.toList_inj, String.toList_append, String.toList_ofList, String.toList_ofList]; simp]
    exact this
  · rw [hn]; exact digit_number k hk
  · rw [UInt16.lt_iff_toNat_lt, hn]
    show k < 32
    omega

/-- Lower-case hex. -/
def hexChars (b : Bytes) : List Char := (Hex.encode b).map fun x => Char.ofNat x.toNat

/-- The lines of the file. -/
def releaseLines : List (List Char) :=
  [hexChars (List.replicate 48 1) ++ " PCR0".toList, hexChars (List.replicate 48 2) ++ " PCR1".toList,
   hexChars (List.replicate 48 3) ++ " PCR2".toList, hexChars (rolePcr3 toyPrims deployRole) ++ " PCR3".toList]

/-- The text of the file. -/
def releaseText : List Char := releaseLines.flatMap fun l => l ++ ['\n']

/-- What it gives. -/
def releaseSeeds : List (UInt16 × Bytes) :=
  [(0, List.replicate 48 1), (1, List.replicate 48 2), (2, List.replicate 48 3), (3, rolePcr3 toyPrims deployRole)]

/-- The device seeded with it. -/
def releaseDevice : MockNsm.State := releaseSeeds.foldl set MockNsm.initial

theorem release_text : TextFile (bytesOf releaseText) (releaseLines.map String.ofList) := by
  refine text_file.mpr ⟨String.ofList releaseText, ?_, ?_⟩
  · have := utf8Decode_utf8 (String.ofList releaseText)
    unfold utf8 at this
    rwa [String.toList_ofList] at this
  · rw [String.toList_ofList, List.map_map]
    have : String.toList ∘ String.ofList = id := funext fun l => String.toList_ofList
    rw [this, List.map_id]
    decide +kernel

theorem release_line (k : Fin 4) : SeedLine (String.ofList (releaseLines[k]'(by decide +revert))) (UInt16.ofNat k)
    ((releaseSeeds[k]'(by decide +revert)).2) := by
  have h : ∀ k : Fin 4, splitWhitespace (releaseLines[k]'(by decide +revert)) =
      [hexChars ((releaseSeeds[k]'(by decide +revert)).2), 'P' :: 'C' :: 'R' :: [Char.ofNat (48 + k)]] ∧
      okAnd (fun x => decide (x = (releaseSeeds[k]'(by decide +revert)).2))
        (Hex.decode (utf8 (String.ofList (hexChars ((releaseSeeds[k]'(by decide +revert)).2))))) = true ∧
      (releaseSeeds[k]'(by decide +revert)).2.length ∈ [32, 48, 64] := by decide +kernel
  obtain ⟨h1, h2, h3⟩ := h k
  obtain ⟨x, hx, e⟩ := of_okAnd h2
  rw [of_decide_eq_true e] at hx
  exact seedLine_of h1 (by omega) hx h3

theorem release_lines : SeedLines (releaseLines.map String.ofList) releaseSeeds :=
  .entry (release_line 0) (.entry (release_line 1) (.entry (release_line 2) (.entry (release_line 3) .done)))

theorem release_device : SeededDevice releaseSeeds releaseDevice := seeded_iff.mpr rfl

/-- The disk of a client with this release. -/
def releaseDisk : Disk := deployDisk [("rel/aws-x86_64.pcrs", bytesOf releaseText)]

theorem release_nitro : NitroIn toyPrims [] releaseDisk "rel" "role" deployEnvelope.manifest.enclave where
  pcrs := by
    have h0 : okAnd (fun q => decide (q.pcr0 = List.replicate 48 1 ∧ q.pcr1 = List.replicate 48 2 ∧ q.pcr2 = List.replicate 48 3))
        (extractQosPcrs releaseDisk "rel") = true := by decide +kernel
    obtain ⟨q, hq, he⟩ := of_okAnd h0
    obtain ⟨e0, e1, e2⟩ := of_decide_eq_true he
    have := (release_pcrs_exact _ _ _).mp hq
    rw [e0, e1, e2] at this
    exact this
  role := ⟨deployRole, deploy_role _ (by
    intro x hx
    rw [List.mem_singleton.mp hx]
    decide +kernel), rfl⟩
  root := rfl
  commit := rfl

/-- The enclave started with `--mock --mock-pcrs` and this file gets a device as the deployment theorems assume it, measured as
the manifest that the client generates from the same file and the role demands. -/
theorem toy_release : seedMockPcrs releaseDisk.file MockNsm.initial "rel/aws-x86_64.pcrs" = some releaseDevice ∧
    releaseDevice.Started ∧ Measured releaseDevice deployEnvelope.manifest := by
  have hf : releaseDisk.file (pathJoin "rel" "aws-x86_64.pcrs") = some (bytesOf releaseText) := by decide +kernel
  have hp : pathJoin "rel" "aws-x86_64.pcrs" = "rel/aws-x86_64.pcrs" := by decide +kernel
  have hr := release_measured (file := releaseDisk.file) (path := "rel/aws-x86_64.pcrs") release_nitro (role := deployRole)
    (deploy_role _ (by
      intro x hx
      rw [List.mem_singleton.mp hx]
      decide +kernel)) hf (hp ▸ hf) release_text release_lines (by decide) (by simp [releaseSeeds]) release_device
  refine ⟨hr.1, seeded_started release_device ?_ ?_, hr.2⟩
  · decide +kernel
  · decide +kernel

/-- The two readers differ: a line of white space at the end is fine for the enclave and a panic of the client. -/
theorem readers_differ :
    ((releaseLines ++ [[]]).foldlM seedLine MockNsm.initial).isSome = true ∧
    okAnd (fun _ => true) (extractQosPcrs (deployDisk [("rel/aws-x86_64.pcrs", bytesOf (releaseText ++ ['\n']))]) "rel") = false := by
  constructor <;> decide +kernel

/-- And a value that is no hash's length is fine for the client and a panic of the enclave. -/
theorem short_value_differs :
    okAnd (fun q => decide (q.pcr0 = [1])) (extractQosPcrs (deployDisk [("rel/aws-x86_64.pcrs", ascii "01 PCR0\n02 PCR1\n03 PCR2\n")]) "rel") = true ∧
    (["01 PCR0", "02 PCR1", "03 PCR2"].map String.toList).foldlM seedLine MockNsm.initial = none := by
  constructor
  · decide +kernel
  · rfl

end Qos.EnclaveCli
