import Verif.Props.ClientCommandToy
/-!
# C58: `proxy-re-encrypt-share` from the command line

The other direction of `proxy_command_safe`, and a concrete share holder.
-/
namespace Qos.ClientCli
open P256 (Pair Public toyPrims toyLaws)
open Parser HostCli
open Client

variable {S : Type} {prog : String}

/-- The items of a `proxy-re-encrypt-share` command line with a seed file and no switches. -/
def proxyItems (secret : String) (a : ProxyArgs) : List Item :=
  [.value "secret-path" secret, .value "share-path" a.sharePath, .value "attestation-doc-path" a.docPath,
   .value "approval-path" a.approvalPath, .value "eph-wrapped-share-path" a.wrappedPath,
   .value "pcr3-preimage-path" a.pcr3Path, .value "manifest-envelope-path" a.envelopePath,
   .value "manifest-set-dir" a.manifestSetDir, .value "alias" a.memberAlias]

theorem proxy_runs {secret : String} {a : ProxyArgs}
    (h0 : a.unsafeSkip = false ∧ a.unsafeEphPath = none ∧ a.autoConfirm = false) (h1 : Plain secret)
    (h2 : ∀ v ∈ [a.sharePath, a.docPath, a.approvalPath, a.wrappedPath, a.pcr3Path, a.envelopePath, a.manifestSetDir,
      a.memberAlias], Plain v) :
    client (prog :: Command.proxyReEncryptShare.name :: words (proxyItems secret a)) =
      .runs (.proxyReEncryptShare (.file secret) a) := by
  refine client_runs rfl ?_ ?_
  · refine follows_of ?_ ?_ ?_ ?_
    · intro i hi
      simp only [List.mem_cons, List.not_mem_nil, or_false, forall_eq_or_imp, forall_eq] at h2
      obtain ⟨q1, q2, q3, q4, q5, q6, q7, q8⟩ := h2
      simp only [proxyItems, List.mem_cons, List.not_mem_nil, or_false] at hi
      rcases hi with rfl | rfl | rfl | rfl | rfl | rfl | rfl | rfl | rfl
      · exact ⟨by decide, h1⟩
      · exact ⟨by decide, q1⟩
      · exact ⟨by decide, q2⟩
      · exact ⟨by decide, q3⟩
      · exact ⟨by decide, q4⟩
      · exact ⟨by decide, q5⟩
      · exact ⟨by decide, q6⟩
      · exact ⟨by decide, q7⟩
      · exact ⟨by decide, q8⟩
    · show ["secret-path", "share-path", "attestation-doc-path", "approval-path", "eph-wrapped-share-path",
        "pcr3-preimage-path", "manifest-envelope-path", "manifest-set-dir", "alias"].Nodup
      decide
    · show ∀ n ∈ needs .proxyReEncryptShare, n ∈ ["secret-path", "share-path", "attestation-doc-path", "approval-path",
        "eph-wrapped-share-path", "pcr3-preimage-path", "manifest-envelope-path", "manifest-set-dir", "alias"]
      decide
    · show ¬ ("yubikey" ∈ ["secret-path", "share-path", "attestation-doc-path", "approval-path",
        "eph-wrapped-share-path", "pcr3-preimage-path", "manifest-envelope-path", "manifest-set-dir", "alias"] ∧ _)
      exact fun h => absurd h.1 (by decide)
  · simp [Asks, SaysSigner, Says, SaysMaybe, SaysFlag, proxyItems, h0.1, h0.2.1, h0.2.2]

/-- C58: a `proxy-re-encrypt-share` command line with a key file, the needed options and no switches runs as written: for a
genuine document of an enclave with the approved manifest in the envelope file, a share holder who says yes to everything gets
the approval and the share re-encrypted to the enclave's key. -/
theorem proxy_command_complete (C : Setting S) (o : Outside S) (hp : C.prims.Laws) (hrand : C.rand.Ok C.prims) (s : S)
    {secret : String} {a : ProxyArgs} (h0 : a.unsafeSkip = false ∧ a.unsafeEphPath = none ∧ a.autoConfirm = false)
    (h1 : Plain secret)
    (h2 : ∀ v ∈ [a.sharePath, a.docPath, a.approvalPath, a.wrappedPath, a.pcr3Path, a.envelopePath, a.manifestSetDir,
      a.memberAlias], Plain v)
    {pair : Pair} (hk : SeedIn C.prims C.disk secret pair)
    {e : Envelope} {der enc share key : Bytes} {role : String} {target : Public}
    (he : EnvelopeIn C.disk a.envelopePath e) (hsh : C.disk.file a.sharePath = some enc)
    (hdec : pair.decrypt C.prims enc = .ok share) (hlen : share.length < 2 ^ 31)
    (hder : C.disk.file a.docPath = some der) (hg : GenuineDoc C der a.pcr3Path role e.manifest key)
    (hkey : Public.fromBytes C.prims key = .ok target) (hc : e.checkApprovals C.prims = .ok ())
    (hset : SetIn C.prims C.disk a.manifestSetDir e.manifest.manifestSet)
    (hmem : ⟨a.memberAlias, (pair.publicKey C.prims).toBytes⟩ ∈ e.manifest.shareSet.members)
    (hi : 4 ≤ o.input.length) (hy : ∀ l ∈ o.input, IsYes l) (hw : ∀ path, C.disk.writable path = true) :
    (program C o (prog :: "proxy-re-encrypt-share" :: words (proxyItems secret a)) s).result = .ok .nothing ∧
    ∃ w1 w2, .wrote a.approvalPath w1 ∈ (program C o (prog :: "proxy-re-encrypt-share" :: words (proxyItems secret a)) s).events ∧
      .wrote a.wrappedPath w2 ∈ (program C o (prog :: "proxy-re-encrypt-share" :: words (proxyItems secret a)) s).events := by
  have hrun := proxy_runs (prog := prog) h0 h1 h2
  unfold program
  rw [show "proxy-re-encrypt-share" = Command.proxyReEncryptShare.name from rfl, hrun]
  show (execute C o (.proxyReEncryptShare (.file secret) a) s).result = _ ∧
    ∃ w1 w2, _ ∈ (execute C o (.proxyReEncryptShare (.file secret) a) s).events ∧
      _ ∈ (execute C o (.proxyReEncryptShare (.file secret) a) s).events
  rw [execute_proxy, Run.lift_ok (x := openSigner C (.file secret)) (pairFromFile_ok.mpr hk), quiet_events]
  obtain ⟨g1, g2⟩ := proxy_complete C hp hrand pair a o.input s h0.1 h0.2.1 e der enc share role key target he hsh hdec hlen
    hder hg hkey hc hset hmem hi hy hw
  refine ⟨?_, g2⟩
  unfold quiet
  rw [Run.bind_result, g1]
  rfl

/-- A genuine document and the envelope of the toy enclave, as `get-attestation-doc` writes them. -/
theorem toy_document : ∃ (setup : Pair) (der env : Bytes),
    Pair.fromMasterSeed toyPrims (toyEnv.seedAt 0) = .ok setup ∧ Envelope.tryFromSliceCompat env = some deployEnvelope ∧
    ∀ {S : Type} (C : Setting S) (path role : String), Vouched C deployEnv MockNsm.toyPki deployStart → RoleIn C.disk path role →
      deployEnvelope.manifest.enclave.pcr3 = rolePcr3 C.prims role →
      GenuineDoc C der path role deployEnvelope.manifest (setup.publicKey toyPrims).toBytes := by
  obtain ⟨eb, -, heb⟩ := storage_roundtrip deployEnvelope deploy_ok
  obtain ⟨setup, h0⟩ := toy_pair (toyEnv.seedAt 0)
  obtain ⟨live, h1⟩ := toy_pair (toyEnv.seedAt 1)
  obtain ⟨b, hb, hbl⟩ := deploy_wire
  obtain ⟨s1, r1, b1, H1, p1, i1, e1⟩ := boot_standard_boots
    (C := deploySetting [("envelope", eb), ("pivot", [1, 2, 3])]) (E := deployEnv) (fs0 := noFiles) rfl
    (deploy_vouched _) (History.start deployEnv_ok (fun _ _ => rfl)) rfl deploy_device (fun _ => rfl) h0 h1
    ⟨"pivot", "envelope", "role", false⟩ (e := deployEnvelope) (pivot := [1, 2, 3]) ⟨eb, rfl, heb⟩ deploy_ok rfl
    deploy_approved rfl rfl deploy_measured (role := deployRole) (deploy_role _ (deploy_boot_names eb)) rfl hb hbl rfl
  obtain ⟨s2, der, env, r2, b', b2, H2, p2, f2, henv, hg⟩ := get_attestation_doc_genuine
    (C := deploySetting [("envelope", eb), ("pivot", [1, 2, 3])]) rfl H1 p1 deploy_device (fun _ => rfl) h0
    (deploy_vouched [("envelope", eb), ("pivot", [1, 2, 3])]).size i1 deploy_fits "doc" "env" (fun _ => rfl)
  exact ⟨setup, der, env, h0, henv, fun {_} C path role hv hr h3 => hg C path role hv deploy_measured hr h3⟩

/-- A share holder's setting, with nobody at the other end. -/
noncomputable def holderSetting (S : Type) (der env enc : Bytes) : Setting S where
  prims := toyPrims
  pki := (deploySetting []).pki
  awsRoot := [1, 2]
  now := 0
  rand := toySetting.rand
  disk := deployDisk [("doc", der), ("env", env), ("share", enc), ("seed", (toyPair 1).toMasterSeedHex)]
  net s _ := (s, none)

/-- What the holder is asked to do. -/
def holderArgs : ProxyArgs := ⟨"share", "doc", "approval", "wrapped", "role", "env", "set", "b", false, none, false⟩

/-- The hypotheses of `proxy_complete`, of a concrete holder. -/
structure HolderReady (S : Type) (setup : Pair) (der env enc : Bytes) : Prop where
  seed : SeedIn toyPrims (holderSetting S der env enc).disk "seed" (toyPair 1)
  share : (toyPair 1).decrypt toyPrims enc = .ok [1, 2, 3]
  envelope : EnvelopeIn (holderSetting S der env enc).disk "env" deployEnvelope
  genuine : GenuineDoc (holderSetting S der env enc) der "role" deployRole deployEnvelope.manifest (setup.publicKey toyPrims).toBytes
  key : Public.fromBytes toyPrims (setup.publicKey toyPrims).toBytes = .ok (setup.publicKey toyPrims)
  set : SetIn toyPrims (holderSetting S der env enc).disk "set" deployEnvelope.manifest.manifestSet
  member : (⟨"b", ((toyPair 1).publicKey toyPrims).toBytes⟩ : QuorumMember) ∈ deployEnvelope.manifest.shareSet.members

theorem toy_holder (S : Type) : ∃ setup der env enc, HolderReady S setup der env enc := by
  obtain ⟨setup, der, env, h0, henv, hg⟩ := toy_document
  obtain ⟨enc, hdec⟩ := toy_encrypt (toyPair_ok 1 (by decide)) (share := [1, 2, 3]) (by decide)
  have hpair := toyPair_ok 1 (by decide)
  have hseed : SeedIn toyPrims (holderSetting S der env enc).disk "seed" (toyPair 1) := by
    refine ⟨(toyPair 1).toMasterSeedHex, rfl, seedText_iff.mp ?_⟩
    have hs : (toyPair 1).seed = List.replicate 32 1 := P256.pair_seed _ _ _ hpair
    rw [P256.hex_file_roundtrip _ _ (by rw [hs]; rfl), hs]
    exact hpair
  have hnames : ∀ x ∈ [("doc", der), ("env", env), ("share", enc), ("seed", (toyPair 1).toMasterSeedHex)], toyFile x.1 = none := by
    have h4 : toyFile "seed" = none := by decide +kernel
    intro x hx
    rcases List.mem_append.mp (show x ∈ [("doc", der), ("env", env), ("share", enc)] ++ [("seed", (toyPair 1).toMasterSeedHex)] from hx)
      with hx | hx
    · exact deploy_names der env enc x hx
    · rw [List.mem_singleton.mp hx]
      exact h4
  have hv : Vouched (holderSetting S der env enc) deployEnv MockNsm.toyPki deployStart :=
    let v := deploy_vouched []
    ⟨rfl, v.root, v.intermediate, v.chain, v.decode, v.signature, v.size⟩
  have hm : (⟨"b", ((toyPair 1).publicKey toyPrims).toBytes⟩ : QuorumMember) = toyMember 1 :=
    deployHolder_member 1 (by decide) der env enc []
  exact ⟨setup, der, env, enc, hseed, hdec, ⟨env, rfl, henv⟩, hg _ _ _ hv (deploy_role _ hnames) rfl,
    (P256.public_of_pair toyPrims toyLaws _ _ h0).1, toySet_in.mono (deployDisk_extends _ hnames), hm ▸ List.mem_cons_self ..⟩

theorem says_yes : ∀ l ∈ List.replicate 4 "yes", IsYes l := by
  intro l hl
  rw [List.eq_of_mem_replicate hl]
  show P256.trim "yes" ∈ _
  decide +kernel

/-- `proxy_command_complete` and `proxy_command_safe` apply: a holder of the toy share set hands over a share. -/
theorem toy_proxy_command : ∃ (C : Setting Unit) (o : Outside Unit) (w1 w2 : Bytes), C.prims = toyPrims ∧ C.rand.Ok C.prims ∧
    .wrote "wrapped" w2 ∈ (program C o ["qos_client", "proxy-re-encrypt-share", "--secret-path", "seed", "--share-path", "share",
      "--attestation-doc-path", "doc", "--approval-path", "approval", "--eph-wrapped-share-path", "wrapped",
      "--pcr3-preimage-path", "role", "--manifest-envelope-path", "env", "--manifest-set-dir", "set", "--alias", "b"] ()).events ∧
    .wrote "approval" w1 ∈ (program C o ["qos_client", "proxy-re-encrypt-share", "--secret-path", "seed", "--share-path", "share",
      "--attestation-doc-path", "doc", "--approval-path", "approval", "--eph-wrapped-share-path", "wrapped",
      "--pcr3-preimage-path", "role", "--manifest-envelope-path", "env", "--manifest-set-dir", "set", "--alias", "b"] ()).events := by
  obtain ⟨setup, der, env, enc, h⟩ := toy_holder Unit
  obtain ⟨-, w1, w2, g1, g2⟩ := proxy_command_complete (prog := "qos_client") (holderSetting Unit der env enc)
    ⟨fun _ s _ => (s, none), fun _ s => (s, none), List.replicate 4 "yes", [], fun _ _ => 0, ⟨[], fun _ _ => 0, ⟨[], []⟩, ⟨[], []⟩⟩⟩
    toyLaws toyRand_ok () (secret := "seed") (a := holderArgs) ⟨rfl, rfl, rfl⟩
    (by decide +kernel) (by decide +kernel) h.seed (e := deployEnvelope) (der := der) (enc := enc) (share := [1, 2, 3])
    (key := (setup.publicKey toyPrims).toBytes) (role := deployRole) (target := setup.publicKey toyPrims)
    h.envelope rfl h.share (by decide) rfl h.genuine h.key deploy_approved h.set h.member (Nat.le_refl 4) says_yes (fun _ => rfl)
  exact ⟨holderSetting Unit der env enc, _, w1, w2, rfl, toyRand_ok, g2, g1⟩

end Qos.ClientCli
