import Verif.Spec.ClientWrites
import Verif.Lemmas.ClientWrites
import Verif.Props.ClientCommandToy
/-!
# C65: a command writes only files that its command line names as outputs
-/
namespace Qos.ClientCli
open Parser HostCli
open Client
open P256 (Pair Public toyPrims)

variable {S : Type} {items : List Item} {prog : String} {args : List String}

theorem slash_natText (n : Nat) : '/' ∉ (toString n).toList := by
  rw [Reaper.natText_toString]
  intro h
  have := natText_digits n '/' h
  revert this
  decide

/-- The name of an approval: the alias, then no separator. -/
theorem approval_inside {a : ApproveArgs} (m : VersionedManifest) (h : Says items "alias" a.memberAlias) :
    Inside items .approveManifest "manifest-approvals-dir" (approvalName a.memberAlias m) := by
  obtain ⟨ns, h1, h2⟩ := approvalName_for a.memberAlias m
  have : approvalName a.memberAlias m = a.memberAlias ++ "-" ++ (ns ++ "-" ++ toString m.namespaceOf.nonce.toNat) ++ ".approval" := by
    rw [h1]
    simp only [String.append_assoc]
  rw [this]
  refine .approval h ?_
  have hns : '/' ∉ ns.toList := by
    intro hc
    obtain ⟨i, hi, hg⟩ := List.getElem_of_mem hc
    have hd := h2.get (i := i) (by rw [h2.length_eq]; exact hi) hi
    simp only [List.get_eq_getElem, hg] at hd
    split at hd
    · cases hd
    · rename_i hne
      exact hne hd.symm
  have hd : '/' ∉ "-".toList := by decide
  simp only [String.toList_append, List.mem_append]
  rintro ((h | h) | h)
  · exact hns h
  · exact hd h
  · exact slash_natText _ h

theorem share_inside (i : Nat) : Inside items .shamirSplit "output-dir" (shareName i) := by
  have : shareName i = toString (i + 1) ++ ".share" := by
    unfold shareName
    rw [← Reaper.natText_toString, String.ofList_toList]
  rw [this]
  exact .share i

theorem file_output {c : Command} {n path : String} (hn : n ∈ outputs c) (h : Says items n path) : MayWrite c items path :=
  .inl ⟨n, hn, h⟩

theorem inside_output {c : Command} {opt name dir : String} (hi : Inside items c opt name) (h : Says items opt dir) :
    MayWrite c items (pathJoin dir name) := .inr ⟨opt, name, dir, hi, h, rfl⟩

/-- Each handler. -/
theorem execute_only (C : Setting S) (o : Outside S) (x : Call) (ha : Asks items x) :
    Only (MayWrite x.command items) (execute C o x) := by
  cases x with
  | hostHealth url =>
    intro s p b hm
    simp only [execute, hostHealth] at hm
    split at hm <;> cases hm
  | enclaveStatus url => exact Only.bind (Only.post _ _) fun _ => Only.lift _
  | enclaveVersion url => exact Only.bind (Only.post _ _) fun _ => Only.lift _
  | generateFileKey seedPath pubPath =>
    exact Only.quiet <| Only.bind (Only.lift _) fun _ => Only.bind (Only.write C _ (file_output (n := "master-seed-path") (by simp [outputs, Call.command]) ha.1)) fun _ =>
      Only.write C _ (file_output (n := "pub-path") (by simp [outputs, Call.command]) ha.2)
  | generateManifestEnvelope dir path out =>
    refine Only.quiet <| Only.bind (Only.lift _) fun _ => Only.bind (Only.lift _) fun _ => Only.write C _ ?_
    obtain ⟨h1, -, h3⟩ := ha
    cases out with
    | some p => exact file_output (n := "manifest-envelope-path") (by simp [outputs, Call.command]) ((h3 p).mp rfl)
    | none => exact inside_output (.envelope fun p hp => nomatch (h3 p).mpr hp) h1
  | bootGenesis url a =>
    have hd : ∀ name ∈ ["genesis_dr_artifacts", "genesis_attestation_doc", "genesis_output", "quorum_key.pub",
        "dr_wrapped_quorum_key"], MayWrite .bootGenesis items (pathJoin a.namespaceDir name) :=
      fun name hn => inside_output (.genesis hn) ha.2.1
    exact Only.quiet <| Only.bind (Only.lift _) fun _ => Only.bind (Only.lift _) fun _ => Only.bind (Only.postWire _ _ _) fun _ =>
      Only.bind (Only.lift _) fun _ => Only.bind (Only.lift _) fun _ => Only.bind (Only.write _ _ (hd _ (by decide))) fun _ =>
      Only.bind (Only.write _ _ (hd _ (by decide))) fun _ => Only.bind (Only.write _ _ (hd _ (by decide))) fun _ =>
      Only.bind (Only.write _ _ (hd _ (by decide))) fun _ => Only.writeOptional _ (hd _ (by decide)) _
  | afterGenesis sg a =>
    exact Only.bind (Only.lift _) fun _ => Only.quiet <| Only.bind (Only.lift _) fun _ =>
      Only.write C _ (file_output (n := "share-path") (by simp [outputs, Call.command]) ha.2.1)
  | verifyGenesis dir seed => exact Only.quiet (Only.lift _)
  | generateManifest v2 a =>
    have hw : MayWrite .generateManifest items a.manifestPath :=
      file_output (n := "manifest-path") (by simp [outputs, Call.command]) ha.2.2.2.2.2.2.2.2.2.2.1
    refine Only.quiet ?_
    cases v2 with
    | true => exact Only.bind (Only.lift _) fun _ => Only.bind (Only.lift _) fun _ => Only.write C _ hw
    | false => exact Only.bind (Only.lift _) fun _ => Only.bind (Only.lift _) fun _ => Only.write C _ hw
  | approveManifest sg a =>
    exact Only.bind (Only.lift _) fun _ => Only.quiet <| Only.bind (Only.lift _) fun m => Only.bind (Only.confirm _ _ _) fun _ =>
      Only.write C _ (inside_output (approval_inside m ha.2.2.2.2.2.2.2.2.2.2.1) ha.2.2.1)
  | bootStandard url a =>
    exact Only.quiet <| Only.bind (Only.lift _) fun _ => Only.bind (Only.lift _) fun _ =>
      Only.bind (Only.bootWithFallback _ _ _) fun _ => Only.lift _
  | getAttestationDoc url doc e =>
    exact Only.quiet <| Only.bind (Only.post _ _) fun _ => Only.bind (Only.lift _) fun _ =>
      Only.bind (Only.write _ _ (file_output (n := "attestation-doc-path") (by simp [outputs, Call.command]) ha.2.1)) fun _ =>
      Only.write _ _ (file_output (n := "manifest-envelope-path") (by simp [outputs, Call.command]) ha.2.2)
  | getEphemeralKeyHex doc key =>
    exact Only.quiet <| Only.bind (Only.lift _) fun _ => Only.bind (Only.lift _) fun _ => Only.bind (Only.lift _) fun _ =>
      Only.write _ _ (file_output (n := "ephemeral-key-path") (by simp [outputs, Call.command]) ha.2)
  | proxyReEncryptShare sg a =>
    exact Only.bind (Only.lift _) fun _ => Only.quiet <| Only.bind (Only.lift _) fun _ => Only.bind (Only.confirm _ _ _) fun _ =>
      Only.bind (Only.lift _) fun _ =>
      Only.bind (Only.write _ _ (file_output (n := "approval-path") (by simp [outputs, Call.command]) ha.2.2.2.1)) fun _ =>
      Only.write _ _ (file_output (n := "eph-wrapped-share-path") (by simp [outputs, Call.command]) ha.2.2.2.2.1)
  | postShare url wrapped approval =>
    exact Only.bind (Only.bind (Only.lift _) fun _ => Only.bind (Only.lift _) fun _ => Only.bind (Only.post _ _) fun _ =>
      Only.lift _) fun _ => Only.pure _
  | dangerousDevBoot url a =>
    have hd (C : Setting S) (t : Public) (r : P256.SealRandom) (share : Bytes) (ap : Approval) (b : Bool) :
        Only (MayWrite .dangerousDevBoot items) (devShare C t r share ap b) :=
      Only.bind (Only.lift _) fun _ => Only.bind (Only.post _ _) fun _ => Only.lift _
    exact Only.quiet <| Only.bind (Only.lift _) fun _ => Only.bind (Only.lift _) fun _ =>
      Only.bind (Only.bootWithFallback _ _ _) fun _ => Only.bind (Only.lift _) fun _ => Only.bind (Only.lift _) fun _ =>
      Only.bind (hd _ _ _ _ _ _) fun _ => hd _ _ _ _ _ _
  | provisionYubikey pub => exact Only.lift _
  | advancedProvisionYubikey seed pin => exact Only.lift _
  | pivotHash pivot out =>
    exact Only.quiet <| Only.bind (Only.lift _) fun _ => Only.write _ _ (file_output (n := "output-path") (by simp [outputs, Call.command]) ha.2)
  | shamirSplit path total threshold dir =>
    exact Only.quiet <| Only.bind (Only.lift _) fun _ => Only.bind (Only.lift _) fun _ =>
      Only.writeShares C dir (fun i => inside_output (share_inside i) ha.2.2.2) _ 0
  | shamirReconstruct shares out =>
    have hw : MayWrite .shamirReconstruct items out := file_output (n := "output-path") (by simp [outputs, Call.command]) ha.2
    exact Only.quiet <| Only.bind (Only.lift _) fun _ => Only.bind (Only.lift _) fun _ => Only.write _ _ hw
  | yubikeySign payload => exact Only.lift _
  | yubikeyPublic => exact Only.lift _
  | yubikeyPivReset => exact Only.lift _
  | yubikeyChangePin current new => exact Only.lift _
  | display type path json => exact Only.bind (Only.lift _) fun _ => Only.pure _
  | jsonToBorsh type path out =>
    have hw : MayWrite .jsonToBorsh items out := file_output (n := "output-path") (by simp [outputs, Call.command]) ha.2.2
    refine Only.quiet ?_
    cases type with
    | manifest => exact Only.bind (Only.lift _) fun _ => Only.writeOrError _ _ hw
    | manifestEnvelope => exact Only.bind (Only.lift _) fun _ => Only.writeOrError _ _ hw
    | genesisOutput => exact Only.lift _
  | bootKeyFwd url e pivot doc =>
    exact Only.quiet <| Only.bind (Only.lift _) fun _ => Only.bind (Only.lift _) fun _ => Only.bind (Only.postFallback _ _ _ _) fun _ =>
      Only.bind (Only.lift _) fun _ => Only.write _ _ (file_output (n := "attestation-doc-path") (by simp [outputs, Call.command]) ha.2.2.2)
  | exportKey url e doc out =>
    exact Only.quiet <| Only.bind (Only.lift _) fun _ => Only.bind (Only.lift _) fun _ => Only.bind (Only.postFallback _ _ _ _) fun _ =>
      Only.bind (Only.lift _) fun _ => Only.write _ _ (file_output (n := "encrypted-quorum-key-path") (by simp [outputs, Call.command]) ha.2.2.2)
  | injectKey url key =>
    exact Only.quiet <| Only.bind (Only.lift _) fun _ => Only.bind (Only.lift _) fun _ => Only.bind (Only.post _ _) fun _ =>
      Only.bind (Only.lift _) fun _ => Only.lift _
  | p256Verify payload sig pub => exact Only.quiet (Only.lift _)
  | p256Sign payload sig seed =>
    exact Only.quiet <| Only.bind (Only.lift _) fun _ => Only.bind (Only.lift _) fun _ =>
      Only.write _ _ (file_output (n := "signature-path") (by simp [outputs, Call.command]) ha.2.1)
  | p256AsymmetricEncrypt plain cipher pub =>
    exact Only.quiet <| Only.bind (Only.lift _) fun _ => Only.bind (Only.lift _) fun _ => Only.bind (Only.lift _) fun _ =>
      Only.write _ _ (file_output (n := "ciphertext-path") (by simp [outputs, Call.command]) ha.2.1)
  | p256AsymmetricDecrypt plain cipher seed hex =>
    exact Only.quiet <| Only.bind (Only.lift _) fun _ => Only.bind (Only.lift _) fun _ => Only.bind (Only.lift _) fun _ =>
      Only.write _ _ (file_output (n := "plaintext-path") (by simp [outputs, Call.command]) ha.1)

/-- C65: whatever the command, the enclave's answers and the files on disk: each file written is one that the command line
names as an output. -/
theorem writes_only (C : Setting S) (o : Outside S) (s : S) (c : Command) (path : String) (b : Bytes)
    (h : .wrote path b ∈ (program C o (prog :: c.name :: args) s).events) :
    ∃ items, args = words items ∧ Follows c items ∧ MayWrite c items path := by
  obtain ⟨x, hx, hr⟩ := program_runs (name := c.name) C o s h
  obtain ⟨hn, -, -, items, hw, hf, ha⟩ := (client_exact x).mp hx
  have hxc : x.command = c := name_inj hn.symm
  rw [hr] at h
  have := execute_only C o x ha s path b h
  rw [hxc] at this hf
  exact ⟨items, hw, hf, this⟩

/-- C65: the status, verification, display and posting commands write nothing at all. -/
theorem read_only_commands (C : Setting S) (o : Outside S) (s : S) (c : Command) (hc : c ∈ readOnly) (path : String) (b : Bytes) :
    .wrote path b ∉ (program C o (prog :: c.name :: args) s).events := by
  intro h
  obtain ⟨items, -, -, h | ⟨opt, name, dir, h, -, -⟩⟩ := writes_only C o s c path b h
  · obtain ⟨n, hn, -⟩ := h
    have : outputs c = [] := by
      revert hc
      cases c <;> decide
    rw [this] at hn
    cases hn
  · cases h <;> exact absurd hc (by decide)

/-- A path without a separator joined to a directory. -/
theorem directlyIn_join {dir name : String} (h : '/' ∉ name.toList) : DirectlyIn dir (pathJoin dir name) := by
  unfold pathJoin
  rw [if_neg (fun hh => h (List.mem_of_head? hh))]
  by_cases hd : dir.toList = [] ∨ dir.toList.getLast? = some '/'
  · rw [if_pos hd]; exact ⟨name, h, .inl rfl⟩
  · rw [if_neg hd]; exact ⟨name, h, .inr rfl⟩

/-- C65: no file outside the named files and directories, provided the alias of `approve-manifest` has no `/`. -/
theorem writes_inside (C : Setting S) (o : Outside S) (s : S) (c : Command) (path : String) (b : Bytes)
    (h : .wrote path b ∈ (program C o (prog :: c.name :: args) s).events) :
    ∃ items, args = words items ∧ ((∃ n ∈ outputs c, Says items n path) ∨
      ∃ opt dir, Says items opt dir ∧
        ((c = .approveManifest → ∀ a, Says items "alias" a → '/' ∉ a.toList) → DirectlyIn dir path)) := by
  obtain ⟨items, hw, hf, h | ⟨opt, name, dir, hi, hs, hp⟩⟩ := writes_only C o s c path b h
  · exact ⟨items, hw, .inl h⟩
  refine ⟨items, hw, .inr ⟨opt, dir, hs, fun ha => ?_⟩⟩
  rw [hp]
  refine directlyIn_join ?_
  cases hi with
  | genesis hn =>
    revert hn
    simp only [List.mem_cons, List.not_mem_nil, or_false]
    rintro (rfl | rfl | rfl | rfl | rfl) <;> decide
  | envelope _ => decide
  | approval hal hr =>
    have h1 : '/' ∉ "-".toList := by decide
    have h2 : '/' ∉ ".approval".toList := by decide
    simp only [String.toList_append, List.mem_append]
    rintro (((h' | h') | h') | h')
    · exact ha rfl _ hal h'
    · exact h1 h'
    · exact hr h'
    · exact h2 h'
  | share k =>
    have h2 : '/' ∉ ".share".toList := by decide
    simp only [String.toList_append, List.mem_append]
    rintro (h' | h')
    · exact slash_natText _ h'
    · exact h2 h'

/-- C65, why the alias matters: an alias that begins with `/` moves the approval out of the approvals directory. -/
theorem alias_escapes : ∃ (C : Setting Unit) (o : Outside Unit) (rest : String) (contents : Bytes),
    .wrote ("/etc/me-" ++ rest) contents ∈ (program C o ["qos_client", "approve-manifest", "--secret-path", "seed",
      "--manifest-path", "manifest", "--manifest-approvals-dir", "approvals", "--qos-release-dir", "release",
      "--pcr3-preimage-path", "role", "--pivot-hash-path", "pivot.hash", "--alias", "/etc/me", "--quorum-key-path",
      "quorum.pub", "--manifest-set-dir", "set", "--share-set-dir", "set"] ()).events := by
  obtain ⟨c, m, -, hread, hmatch, -, -⟩ := toy_generated
  have hpair := toyPair_ok 1 (by decide)
  have hseed : SeedIn toyPrims (seedDisk c) "seed" (toyPair 1) := by
    refine ⟨(toyPair 1).toMasterSeedHex, rfl, seedText_iff.mp ?_⟩
    have hs : (toyPair 1).seed = List.replicate 32 1 := P256.pair_seed _ _ _ hpair
    rw [P256.hex_file_roundtrip _ _ (by rw [hs]; rfl), hs]
    exact hpair
  obtain ⟨C, hC⟩ : ∃ C : Setting Unit, C = { toySetting with disk := seedDisk c } := ⟨_, rfl⟩
  obtain ⟨o, ho⟩ : ∃ o : Outside Unit, o = ⟨fun _ s _ => (s, none), fun _ s => (s, none), List.replicate 8 "yes", [],
    fun _ _ => 0, ⟨[], fun _ _ => 0, ⟨[], []⟩, ⟨[], []⟩⟩⟩ := ⟨_, rfl⟩
  have hp : C.prims = toyPrims := by rw [hC]; rfl
  have hd : C.disk = seedDisk c := by rw [hC]
  have hr : C.awsRoot = toySetting.awsRoot := by rw [hC]
  obtain ⟨a, ha⟩ : ∃ a : ApproveArgs, a = ⟨"manifest", "approvals", "release", "role", "pivot.hash", "quorum.pub", "set", "set",
    none, "/etc/me", false⟩ := ⟨_, rfl⟩
  obtain ⟨-, path, b, hb⟩ := approve_command_complete (prog := "qos_client") C o () (secret := "seed") (a := a)
    (by rw [ha]; exact ⟨rfl, rfl⟩) (by decide +kernel) (by rw [ha]; decide +kernel) (by rw [hp, hd]; exact hseed)
    (m := .v2 m) (by rw [hd, ha]; exact ⟨c, rfl, hread⟩)
    (by rw [hp, hd, hr, ha]; exact LocalMatch.mono (seedDisk_extends c) hmatch) (by rw [ho]; exact Nat.le_refl 8)
    (by
      intro l hl
      rw [ho] at hl
      rw [List.eq_of_mem_replicate hl]
      show P256.trim "yes" ∈ _
      decide +kernel)
    (by rw [hd]; exact fun _ => rfl)
  have hrun := approve_runs (prog := "qos_client") (secret := "seed") (a := a) (by rw [ha]; exact ⟨rfl, rfl⟩) (by decide +kernel)
    (by rw [ha]; decide +kernel)
  have hprog : program C o ("qos_client" :: "approve-manifest" :: words (approveItems "seed" a)) =
      execute C o (.approveManifest (.file "seed") a) := by
    unfold program
    rw [show "approve-manifest" = Command.approveManifest.name from rfl, hrun]
  have hwhere : Only (fun p => ∃ m, p = pathJoin a.approvalsDir (approvalName a.memberAlias m))
      (execute C o (.approveManifest (.file "seed") a)) :=
    Only.bind (Only.lift _) fun _ => Only.quiet <| Only.bind (Only.lift _) fun m => Only.bind (Only.confirm _ _ _) fun _ =>
      Only.write C _ ⟨m, rfl⟩
  obtain ⟨m', hpath⟩ := hwhere () path b (by rw [← hprog]; exact hb)
  have hname : ∃ rest, path = "/etc/me-" ++ rest := by
    refine ⟨dashed m'.namespaceOf.name ++ "-" ++ String.ofList (natText m'.namespaceOf.nonce.toNat) ++ ".approval", ?_⟩
    rw [hpath, ha]
    unfold pathJoin approvalName
    rw [if_pos (by simp only [String.toList_append]; rfl)]
    simp only [← String.append_assoc]
    rfl
  obtain ⟨rest, rfl⟩ := hname
  refine ⟨C, o, rest, b, ?_⟩
  have hwords : words (approveItems "seed" a) = ["--secret-path", "seed", "--manifest-path", "manifest",
      "--manifest-approvals-dir", "approvals", "--qos-release-dir", "release", "--pcr3-preimage-path", "role",
      "--pivot-hash-path", "pivot.hash", "--alias", "/etc/me", "--quorum-key-path", "quorum.pub", "--manifest-set-dir", "set",
      "--share-set-dir", "set"] := by
    rw [ha]
    decide +kernel
  rw [hwords] at hb
  exact hb

end Qos.ClientCli
