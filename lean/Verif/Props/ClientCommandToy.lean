import Verif.Props.ClientCommand
import Verif.Props.ClientDeployToy
import Verif.Props.ClientPipeline
/-!
# C58: the hypotheses are met

The toy deployment of `ClientDeployToy.lean` and the toy operator of `ClientPipeline.lean`, through their command lines.
-/
namespace Qos.ClientCli
open Parser HostCli
open Client
open P256 (Pair toyPrims)

/-- `boot_standard_command_boots` and `boot_standard_command_safe` apply: a toy enclave behind `http://10.0.0.1:3000`. -/
theorem toy_boot_command : ∃ (C : Setting St) (o : Outside St) (s : St) (es : List Client.Event),
    program C o ["qos_client", "boot-standard", "--host-ip", "10.0.0.1", "--host-port", "3000", "--pivot-path", "pivot",
      "--manifest-envelope-path", "envelope", "--pcr3-preimage-path", "role"] (St.initial noFiles) = ⟨.ok .nothing, s, es⟩ ∧
    s.phase = .waitingForQuorumShards := by
  obtain ⟨eb, -, heb⟩ := storage_roundtrip deployEnvelope deploy_ok
  obtain ⟨setup, h0⟩ := toy_pair (toyEnv.seedAt 0)
  obtain ⟨live, h1⟩ := toy_pair (toyEnv.seedAt 1)
  obtain ⟨b, hb, hbl⟩ := deploy_wire
  obtain ⟨s', r, g1, -, g2, -⟩ := boot_standard_command_boots (prog := "qos_client")
    (C := deploySetting [("envelope", eb), ("pivot", [1, 2, 3])]) (E := deployEnv) (fs0 := noFiles)
    (o := ⟨fun _ => Host.http (Host.enclaveCall deployEnv), fun _ s => (s, none), [], [], fun _ _ => 0, ⟨[], fun _ _ => 0, ⟨[], []⟩, ⟨[], []⟩⟩⟩)
    (host := "10.0.0.1") (port := "3000") (pivotPath := "pivot") (envelopePath := "envelope") (rolePath := "role")
    (by decide +kernel) (by decide +kernel) (by decide +kernel) (by decide +kernel) (by decide +kernel) rfl
    (deploy_vouched _) (History.start deployEnv_ok (fun _ _ => rfl)) rfl deploy_device (fun _ => rfl) h0 h1
    (e := deployEnvelope) (pivot := [1, 2, 3]) ⟨eb, rfl, heb⟩ deploy_ok rfl
    deploy_approved rfl rfl deploy_measured (role := deployRole) (deploy_role _ (deploy_boot_names eb)) rfl hb hbl
  exact ⟨_, _, s', _, g1, g2⟩

/-- The toy operator's disk with the manifest and its seed. -/
def seedDisk (c : Bytes) : Disk :=
  { toyDisk with file := fun q => if q = "manifest" then some c else if q = "seed" then some (toyPair 1).toMasterSeedHex else toyFile q }

theorem seedDisk_extends (c : Bytes) : toyDisk.Extends (seedDisk c) := by
  refine ⟨fun q b hq => ?_, fun _ _ h => h⟩
  have hq : toyFile q = some b := hq
  have n1 : toyFile "manifest" = none := by decide +kernel
  have n2 : toyFile "seed" = none := by decide +kernel
  show (if q = "manifest" then some c else if q = "seed" then some (toyPair 1).toMasterSeedHex else toyFile q) = some b
  rw [if_neg, if_neg]
  · exact hq
  · rintro rfl
    rw [n2] at hq
    cases hq
  · rintro rfl
    rw [n1] at hq
    cases hq

/-- `approve_command_complete` and `approve_command_safe` apply: the toy manifest is approved through the command line. -/
theorem toy_approve_command : ∃ (C : Setting Unit) (o : Outside Unit) (path : String) (contents : Bytes),
    .wrote path contents ∈ (program C o ["qos_client", "approve-manifest", "--secret-path", "seed", "--manifest-path",
      "manifest", "--manifest-approvals-dir", "approvals", "--qos-release-dir", "release", "--pcr3-preimage-path", "role",
      "--pivot-hash-path", "pivot.hash", "--alias", "me", "--quorum-key-path", "quorum.pub", "--manifest-set-dir", "set",
      "--share-set-dir", "set"] ()).events := by
  obtain ⟨c, m, -, hread, hmatch, -, -⟩ := toy_generated
  have hpair := toyPair_ok 1 (by decide)
  have hseed : SeedIn toyPrims (seedDisk c) "seed" (toyPair 1) := by
    refine ⟨(toyPair 1).toMasterSeedHex, rfl, seedText_iff.mp ?_⟩
    have hs : (toyPair 1).seed = List.replicate 32 1 := P256.pair_seed _ _ _ hpair
    rw [P256.hex_file_roundtrip _ _ (by rw [hs]; rfl), hs]
    exact hpair
  obtain ⟨-, path, b, hb⟩ := approve_command_complete (prog := "qos_client")
    { toySetting with disk := seedDisk c }
    ⟨fun _ s _ => (s, none), fun _ s => (s, none), List.replicate 8 "yes", [], fun _ _ => 0, ⟨[], fun _ _ => 0, ⟨[], []⟩, ⟨[], []⟩⟩⟩
    () (secret := "seed")
    (a := ⟨"manifest", "approvals", "release", "role", "pivot.hash", "quorum.pub", "set", "set", none, "me", false⟩)
    ⟨rfl, rfl⟩ (by decide +kernel) (by decide +kernel) hseed ⟨c, rfl, hread⟩
    (LocalMatch.mono (seedDisk_extends c) hmatch) (Nat.le_refl 8)
    (by
      intro l hl
      rw [List.eq_of_mem_replicate hl]
      show P256.trim "yes" ∈ _
      decide +kernel)
    (fun _ => rfl)
  exact ⟨_, _, path, b, hb⟩

/-- `client_meets_host` applies: both are told `10.0.0.1`, `3000` and `v1`. -/
example : ∃ c x url, host ["qos_host", "--usock", "/tmp/e", "--host-ip", "10.0.0.1", "--host-port", "3000",
      "--endpoint-base-path", "v1"] = .runs c ∧
    client ["qos_client", "enclave-status", "--host-ip", "10.0.0.1", "--host-port", "3000", "--endpoint-base-path", "v1"] =
      .runs x ∧ x.goes = some (url, .message) ∧ url = "http://10.0.0.1:3000/v1/message" ∧
    Host.route c.basePath .post "/v1/message" = .served .message := by
  refine ⟨⟨.unix "/tmp/e".toList, 20000, ⟨10, 0, 0, 1⟩, 3000, some "v1"⟩, .enclaveStatus "http://10.0.0.1:3000/v1/message", _,
    ?_, ?_, rfl, rfl, ?_⟩
  · exact of_started (by decide +kernel)
  · exact client_runs (c := .enclaveStatus) (items := [.value "host-ip" "10.0.0.1", .value "host-port" "3000",
      .value "endpoint-base-path" "v1"]) rfl
      (follows_of (by simp [Belongs, needs, may]) (by decide) (by decide) (by decide))
      ⟨"10.0.0.1", "3000", "v1", by simp [Says], by simp [Says], .inl (by simp [Says]), by decide +kernel⟩
  · exact (Host.route_exact _ _ _ _).mpr ⟨by decide +kernel, rfl⟩

instance (c : Command) (i : Item) : Decidable (Belongs c i) := by
  cases i <;> unfold Belongs <;> infer_instance

/-- `client_runs` applies to repeated options. -/
example : client ["qos_client", "shamir-reconstruct", "--share", "a", "--output-path", "out", "--share", "b"] =
    .runs (.shamirReconstruct ["a", "b"] "out") := by
  refine client_runs (c := .shamirReconstruct) (items := [.value "share" "a", .value "output-path" "out", .value "share" "b"]) rfl
    ⟨by decide +kernel, fun n hn => ?_, ?_, ?_⟩ ⟨by decide, by simp [Says]⟩
  · by_cases h : "output-path" = n
    · subst h
      decide +kernel
    · simp [List.filter_cons, Item.name, h, Ne.symm hn]
  · intro n hn
    simp only [needs, List.mem_cons, List.not_mem_nil, or_false] at hn
    rcases hn with rfl | rfl
    · exact ⟨_, List.mem_cons_self, rfl⟩
    · exact ⟨_, List.mem_cons_of_mem _ List.mem_cons_self, rfl⟩
  · rintro ⟨⟨i, hi, e⟩, -⟩
    revert e
    revert i
    decide +kernel

/-- `client_runs` applies to the largest command, with defaults, a bare option, a list and a number. -/
example : client ["qos_client", "generate-manifest", "--nonce", "7", "--namespace", "prod", "--restart-policy", "Never",
      "--pivot-hash-path", "h", "--qos-release-dir", "r", "--pcr3-preimage-path", "p", "--manifest-path", "m",
      "--manifest-set-dir", "ms", "--share-set-dir", "ss", "--quorum-key-path", "q", "--pivot-args", "[--a,b]",
      "--debug-mode", "--use-manifest-version", "2"] =
    .runs (.generateManifest true ⟨7, "prod", .never, "h", "r", "p", "ss", "ms", none, "q", "m", ["--a", "b"], [], none, false⟩) := by
  refine client_runs (c := .generateManifest) (items := [.value "nonce" "7", .value "namespace" "prod",
    .value "restart-policy" "Never", .value "pivot-hash-path" "h", .value "qos-release-dir" "r", .value "pcr3-preimage-path" "p",
    .value "manifest-path" "m", .value "manifest-set-dir" "ms", .value "share-set-dir" "ss", .value "quorum-key-path" "q",
    .value "pivot-args" "[--a,b]", .bare "debug-mode", .value "use-manifest-version" "2"]) rfl
    (follows_of (by decide +kernel) (by decide +kernel) (by decide +kernel) (by decide +kernel)) ?_
  have n7 : Number "7" 7 := .inl (.one 7 (by decide))
  have n2 : Number "2" 2 := .inl (.one 2 (by decide))
  refine ⟨⟨by decide, "7", by simp [Says], n7⟩, by simp [Says], ⟨"Never", by simp [Says], by show "Never".toLower = "never"; decide +kernel⟩, by simp [Says],
    by simp [Says], by simp [Says], by simp [Says], by simp [Says], by simp [SaysMaybe, Says], by simp [Says], by simp [Says],
    ⟨"[--a,b]", .inl (by simp [Says]), by decide +kernel, by decide, by decide +kernel⟩, .inl ⟨by simp [Silent], rfl⟩,
    by simp [SaysResolvers, Silent], .inr ⟨rfl, by simp [Silent]⟩, "2", .inl (by simp [Says]), n2⟩

end Qos.ClientCli
