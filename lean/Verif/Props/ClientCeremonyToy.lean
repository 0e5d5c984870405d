import Verif.Props.ClientCeremony
import Verif.Props.ClientDeployToy
/-!
# A concrete ceremony

Every hypothesis of `ceremony_held` and `ceremony_provisions` is met: an operator holds a ceremony for the two toy members,
each collects its share, and both provision a second enclave with the key the first one made.
-/
namespace Qos.Client
open P256 (Pair Public toyPrims toyLaws)
open Wire Host StateMachine Lifecycle

/-- The enclave of the ceremony: its random seeds are all nines. -/
def ceremonyEnv : Env := { deployEnv with seedAt := fun _ => List.replicate 32 9 }

/-- The measurements of the release. -/
def releaseFile : Bytes :=
  Hex.encode (List.replicate 48 1) ++ ascii " PCR0\n" ++ Hex.encode (List.replicate 48 2) ++ ascii " PCR1\n" ++
    Hex.encode (List.replicate 48 3) ++ ascii " PCR2\n"

/-- An operator in front of that enclave. -/
noncomputable def ceremonySetting (l : List (String × Bytes)) : Setting St where
  prims := toyPrims
  pki := ⟨fun b => .ok (ceremonyDoc MockNsm.toyPki deployStart (b.take 32)), fun _ _ _ _ => .ok (), fun _ _ => .ok ()⟩
  awsRoot := [1, 2]
  now := 0
  rand := toySetting.rand
  disk := deployDisk l
  net := http (enclaveCall ceremonyEnv)

theorem ceremonyEnv_ok : ceremonyEnv.Ok := ⟨toyEnv_ok.laws, fun _ => by show (List.replicate 32 (9 : UInt8)).length = 32; rfl, toyEnv_ok.rands, toyEnv_ok.paths⟩

theorem ceremony_device : HonestDevice ceremonyEnv MockNsm.toyPki deployStart := ⟨deploy_started, rfl⟩

theorem ceremony_cose (hash : Bytes) (hh : hash.length = 32) :
    (MockNsm.toyPki.signDoc (ceremonyDoc MockNsm.toyPki deployStart hash)).take 32 = hash ∧
    (MockNsm.toyPki.signDoc (ceremonyDoc MockNsm.toyPki deployStart hash)).length = 128 := by
  have e : MockNsm.toyPki.signDoc (ceremonyDoc MockNsm.toyPki deployStart hash) =
      hash ++ (deployStart.value 16 ++ deployStart.value 17) := by
    show [] ++ hash ++ ((MockNsm.attestationDoc MockNsm.toyPki deployStart (some hash) none none).pcr 16).getD [] ++
      ((MockNsm.attestationDoc MockNsm.toyPki deployStart (some hash) none none).pcr 17).getD [] = _
    rw [MockNsm.doc_pcr _ _ _ _ 16 (by omega), MockNsm.doc_pcr _ _ _ _ 17 (by omega), List.append_assoc, List.append_assoc]
    rfl
  rw [e]
  refine ⟨List.take_left' hh, ?_⟩
  have l16 := deploy_started.sized 16
  have l17 := deploy_started.sized 17
  simp only [List.length_append]
  omega

theorem ceremony_vouched (l : List (String × Bytes)) (t : Nat) :
    CeremonyVouched (ceremonySetting l) ceremonyEnv MockNsm.toyPki deployStart t where
  prims := rfl
  root := by decide
  intermediate := by decide
  chain := rfl
  decode hash hh := by
    show Except.ok (ceremonyDoc MockNsm.toyPki deployStart
      ((MockNsm.toyPki.signDoc (ceremonyDoc MockNsm.toyPki deployStart hash)).take 32)) = _
    rw [(ceremony_cose hash hh).1]
  signature _ _ := rfl
  size hash hh := by rw [(ceremony_cose hash hh).2]; decide

theorem release_in (d : Disk) (h : d.file "rel/aws-x86_64.pcrs" = some releaseFile) :
    ReleasePcrs d "rel" (List.replicate 48 1) (List.replicate 48 2) (List.replicate 48 3) := by
  have h0 : okAnd (fun q => decide (q.pcr0 = List.replicate 48 1 ∧ q.pcr1 = List.replicate 48 2 ∧ q.pcr2 = List.replicate 48 3))
      (extractQosPcrs (deployDisk [("rel/aws-x86_64.pcrs", releaseFile)]) "rel") = true := by
    decide +kernel
  obtain ⟨q, hq, he⟩ := of_okAnd h0
  obtain ⟨e0, e1, e2⟩ := of_decide_eq_true he
  obtain ⟨c, v0, v1, v2, l0, l1, l2, rest, k1, k2⟩ := (release_pcrs_exact _ _ _).mp hq
  have hp : pathJoin "rel" "aws-x86_64.pcrs" = "rel/aws-x86_64.pcrs" := by decide +kernel
  rw [e0, e1, e2] at k2
  rw [hp] at k1
  refine ⟨c, v0, v1, v2, l0, l1, l2, rest, ?_, k2⟩
  rw [hp, h]
  exact k1

/-- What the operator of the ceremony has on its disk. -/
def ceremonyFiles : List (String × Bytes) := [("rel/aws-x86_64.pcrs", releaseFile)]

/-- What a member has on its disk afterwards. -/
def collectorFiles (cose output : Bytes) : List (String × Bytes) :=
  [("rel/aws-x86_64.pcrs", releaseFile), ("ns/genesis_attestation_doc", cose), ("ns/genesis_output", output)]

theorem ceremony_names : ∀ x ∈ ceremonyFiles, toyFile x.1 = none := by
  intro x hx
  rw [List.mem_singleton.mp hx]
  exact (by decide +kernel : toyFile "rel/aws-x86_64.pcrs" = none)

theorem collector_names (cose output : Bytes) : ∀ x ∈ collectorFiles cose output, toyFile x.1 = none := by
  have : toyFile "rel/aws-x86_64.pcrs" = none ∧ toyFile "ns/genesis_attestation_doc" = none ∧
      toyFile "ns/genesis_output" = none := by decide +kernel
  intro x hx
  simp only [collectorFiles, List.mem_cons, List.not_mem_nil, or_false] at hx
  rcases hx with rfl | rfl | rfl
  · exact this.1
  · exact this.2.1
  · exact this.2.2

theorem ceremony_release {S : Type} (C : Setting S) (l : List (String × Bytes)) (hp : C.prims = toyPrims)
    (hl : ∀ x ∈ l, toyFile x.1 = none) (hrel : l.lookup "rel/aws-x86_64.pcrs" = some releaseFile) :
    ReleaseOf { C with disk := deployDisk l } deployStart "rel" "role" := by
  refine ⟨release_in _ ?_, deployRole, deploy_role l hl, ?_⟩
  · show (match l.lookup "rel/aws-x86_64.pcrs" with | some c => some c | none => toyFile "rel/aws-x86_64.pcrs") = _
    rw [hrel]
  · show rolePcr3 toyPrims deployRole = rolePcr3 C.prims deployRole
    rw [hp]

/-- A member collecting its share. -/
def toyCollector (n : UInt8) (cose output : Bytes) : Collector where
  disk := deployDisk (collectorFiles cose output)
  pair := toyPair n
  args := ⟨"share", (toyMember n).aliasName, "ns", "rel", "role", false, none⟩

theorem toyCollector_ready (n : UInt8) (hn : n ∈ [1, 2, 9]) (cose output : Bytes) (l : List (String × Bytes)) :
    (toyCollector n cose output).Ready (ceremonySetting l) deployStart (toyMember n) cose output where
  name := rfl
  key := ⟨⟨_, toyPair_ok n hn⟩, toyPair_pub n hn⟩
  doc := by
    have hp : pathJoin "ns" "genesis_attestation_doc" = "ns/genesis_attestation_doc" := by decide +kernel
    have h1 : (toyCollector n cose output).args.namespaceDir = "ns" := by unfold toyCollector; rfl
    have h2 : (toyCollector n cose output).disk = deployDisk (collectorFiles cose output) := by unfold toyCollector; rfl
    rw [h1, h2, hp]
    rfl
  output := by
    have hp : pathJoin "ns" "genesis_output" = "ns/genesis_output" := by decide +kernel
    have h1 : (toyCollector n cose output).args.namespaceDir = "ns" := by unfold toyCollector; rfl
    have h2 : (toyCollector n cose output).disk = deployDisk (collectorFiles cose output) := by unfold toyCollector; rfl
    rw [h1, h2, hp]
    rfl
  release := ceremony_release (ceremonySetting l) (collectorFiles cose output) rfl (collector_names cose output) rfl
  space := rfl
  safe := rfl

theorem ceremony_request : CeremonyRequest ceremonyEnv.prims ⟨[toyMember 1, toyMember 2], 2⟩ (some (toyMember 9).pubKey) where
  members := toy_distinct
  two := by decide
  enough := by decide
  limit := by decide
  dr k h := by
    cases h
    exact ⟨by decide +kernel, by decide +kernel, by decide +kernel⟩

theorem forall₂_two {A B : Type} {R : A → B → Prop} {a b : A} {l : List B} (h : List.Forall₂ R [a, b] l) :
    ∃ x y, l = [x, y] ∧ R a x ∧ R b y := by
  cases h with
  | cons h1 h =>
  cases h with
  | cons h2 h =>
  cases h
  exact ⟨_, _, rfl, h1, h2⟩

theorem toy_share {dr : Option Bytes} {out : Services.GenesisOutput} {shares : List Bytes}
    (hc : Ceremony toyPrims ⟨[toyMember 1, toyMember 2], 2⟩ dr out (toyPair 9) shares) {w : Services.MemberOutput} {n : UInt8}
    (hn : n ∈ [1, 2, 9]) (hm : w ∈ out.memberOutputs) (hw : w.member = toyMember n) :
    ∃ x, (toyPair n).decrypt toyPrims w.encryptedShare = .ok x ∧ x.length = 33 := by
  obtain ⟨i, hi⟩ := List.mem_iff_getElem?.mp hm
  have h1 := congrArg List.length hc.hashes
  simp only [List.length_map] at h1
  have h2 : i < shares.length := by
    rw [← h1]
    exact (List.getElem?_eq_some_iff.mp hi).1
  refine ⟨shares[i], hc.opened i w _ _ hi (List.getElem?_eq_getElem h2) ⟨⟨_, toyPair_ok n hn⟩, ?_⟩,
    hc.shareSize _ (List.getElem_mem h2)⟩
  rw [hw]
  exact toyPair_pub n hn

/-- The second half: any correct ceremony for the two members and the key of the nines. -/
theorem toy_after_ceremony {dr : Option Bytes} {out : Services.GenesisOutput} {shares : List Bytes}
    (hc : Ceremony toyPrims ⟨[toyMember 1, toyMember 2], 2⟩ dr out (toyPair 9) shares) {w1 w2 : Services.MemberOutput}
    (m1 : w1 ∈ out.memberOutputs) (n1 : w1.member = toyMember 1) (m2 : w2 ∈ out.memberOutputs) (n2 : w2.member = toyMember 2) :
    ∃ (C' : Setting St) (s1 s2 s3 : St) (evs1 evs2 : List Event) (o1 o2 : Holder) (posters : List Poster),
      bootStandard C' ⟨"pivot", "envelope", "role", false⟩ (St.initial noFiles) = ⟨.ok (), s1, evs1⟩ ∧
      getAttestationDoc C' "doc" "env" s1 = ⟨.ok (), s2, evs2⟩ ∧
      o1.disk.file o1.args.sharePath = some w1.encryptedShare ∧ o2.disk.file o2.args.sharePath = some w2.encryptedShare ∧
      (∃ f1 f2 : Bytes × Bytes, o1.Hands C' s2 f1.1 f1.2 ∧ o2.Hands C' s2 f2.1 f2.2 ∧
        posters = [deployPoster f1, deployPoster f2]) ∧
      postAll C' posters s2 = ([.ok false, .ok true], s3) ∧ s3.phase = .quorumKeyProvisioned ∧
      Holds s3.files deployEnv.paths.quorum (Hex.encode (List.replicate 32 9)) := by
  obtain ⟨eb, -, heb⟩ := storage_roundtrip deployEnvelope deploy_ok
  obtain ⟨setup, h0⟩ := toy_pair (toyEnv.seedAt 0)
  obtain ⟨live, h1⟩ := toy_pair (toyEnv.seedAt 1)
  obtain ⟨b, hb, hbl⟩ := deploy_wire
  have hk := toyPair_ok 9 (by decide)
  have hname : deployEnvelope.manifest.namespaceOf.quorumKey = out.quorumKey := by
    rw [← deploy_quorum_key hk]
    exact hc.key.pub
  obtain ⟨s1, s2, der, env, b', g1, g2, g3⟩ := ceremony_provisions (E := deployEnv) (set := ⟨[toyMember 1, toyMember 2], 2⟩)
    (drKey := dr) (out := out) (quorum := toyPair 9) (shares := shares) hc
    (C := deploySetting [("envelope", eb), ("pivot", [1, 2, 3])]) (fs0 := noFiles) rfl
    (deploy_vouched _) deployEnv_ok (fun _ _ => rfl) deploy_device (fun _ => rfl) h0 h1
    (e := deployEnvelope) (pivot := [1, 2, 3]) ⟨"pivot", "envelope", "role", false⟩ ⟨eb, rfl, heb⟩ deploy_ok rfl
    deploy_approved rfl rfl deploy_measured (role := deployRole) (deploy_role _ (deploy_boot_names eb)) rfl hb hbl rfl
    (fun _ => rfl) deploy_fits hname rfl "doc" "env"
  obtain ⟨x1, d1, l1⟩ := toy_share hc (by decide) m1 n1
  obtain ⟨x2, d2, l2⟩ := toy_share hc (by decide) m2 n2
  have z1 : x1 ≠ [] := by rintro rfl; simp at l1
  have z2 : x2 ≠ [] := by rintro rfl; simp at l2
  have k1 := deployHolder_member 1 (by decide) der env w1.encryptedShare x1
  have k2 := deployHolder_member 2 (by decide) der env w2.encryptedShare x2
  have y1 := deployHolder_ready 1 (by decide) (List.mem_cons_self ..) (by decide +kernel) der env w1.encryptedShare x1 d1 z1 (by omega)
  have y2 := deployHolder_ready 2 (by decide) (List.mem_cons_of_mem _ (List.mem_cons_self ..)) (by decide +kernel) der env
    w2.encryptedShare x2 d2 z2 (by omega)
  have f1 : (deployHolder 1 der env w1.encryptedShare x1).disk.file (deployHolder 1 der env w1.encryptedShare x1).args.sharePath =
    some w1.encryptedShare := by unfold deployHolder; rfl
  have f2 : (deployHolder 2 der env w2.encryptedShare x2).disk.file (deployHolder 2 der env w2.encryptedShare x2).args.sharePath =
    some w2.encryptedShare := by unfold deployHolder; rfl
  generalize deployHolder 1 der env w1.encryptedShare x1 = o1 at k1 y1 f1
  generalize deployHolder 2 der env w2.encryptedShare x2 = o2 at k2 y2 f2
  obtain ⟨files, hf, hpost⟩ := g3 [o1, o2]
    (by
      intro o ho
      rcases List.mem_cons.mp ho with rfl | ho
      · exact y1
      · rw [List.mem_singleton.mp ho]
        exact y2)
    (by
      intro o ho
      rcases List.mem_cons.mp ho with rfl | ho
      · exact ⟨w1, m1, n1.trans k1.symm, f1⟩
      · rw [List.mem_singleton.mp ho]
        exact ⟨w2, m2, n2.trans k2.symm, f2⟩)
    (by
      show [o1.member toyPrims, o2.member toyPrims].Nodup
      rw [k1, k2]
      decide +kernel) rfl
  obtain ⟨p1, p2, p3⟩ := hpost (files.map deployPoster) (by
    clear hf hpost
    induction files with
    | nil => exact .nil
    | cons f fs ih => exact .cons ⟨rfl, rfl⟩ ih)
  have hseed := P256.pair_seed _ _ _ hk
  rw [hseed] at p3
  obtain ⟨g1', g2', hg, q1, q2⟩ := forall₂_two hf
  rw [hg] at p1 p2 p3
  exact ⟨deploySetting [("envelope", eb), ("pivot", [1, 2, 3])], s1, s2,
    (postAll (deploySetting [("envelope", eb), ("pivot", [1, 2, 3])]) [deployPoster g1', deployPoster g2'] s2).2, _, _,
    o1, o2, [deployPoster g1', deployPoster g2'], g1, g2, f1, f2, ⟨g1', g2', q1, q2, rfl⟩, Prod.ext p1 rfl, p2, p3⟩

/-- C70: `ceremony_held` and `ceremony_provisions` apply. An operator holds a ceremony for two members, with a disaster
recovery key; both collect their shares; a second enclave is booted with an envelope for the key of the ceremony and
provisioned by the two members with the shares they collected. It ends with the seed the first enclave drew. -/
theorem toy_ceremony_provisions :
    ∃ (C : Setting St) (s' : St) (evs evs1 evs2 : List Event) (c1 c2 : Collector) (e1 e2 : Bytes) (C' : Setting St)
      (s1 s2 s3 : St) (o1 o2 : Holder) (posters : List Poster),
      bootGenesis C ⟨"ns", "set", "rel", "role", false, some "quorum.pub"⟩ (St.initial noFiles) = ⟨.ok (), s', evs⟩ ∧
      evs.length = 6 ∧ c1.Collects C s' e1 ∧ c2.Collects C s' e2 ∧
      bootStandard C' ⟨"pivot", "envelope", "role", false⟩ (St.initial noFiles) = ⟨.ok (), s1, evs1⟩ ∧
      getAttestationDoc C' "doc" "env" s1 = ⟨.ok (), s2, evs2⟩ ∧
      o1.disk.file o1.args.sharePath = some e1 ∧ o2.disk.file o2.args.sharePath = some e2 ∧
      (∃ f1 f2 : Bytes × Bytes, o1.Hands C' s2 f1.1 f1.2 ∧ o2.Hands C' s2 f2.1 f2.2 ∧
        posters = [deployPoster f1, deployPoster f2]) ∧
      postAll C' posters s2 = ([.ok false, .ok true], s3) ∧ s3.phase = .quorumKeyProvisioned ∧
      Holds s3.files deployEnv.paths.quorum (Hex.encode (List.replicate 32 9)) := by
  obtain ⟨s', body, cose, out, shares, r1, -, -, hc, hpub, hcol⟩ := ceremony_held (C := ceremonySetting ceremonyFiles)
    (E := ceremonyEnv) (fs0 := noFiles) (pki := MockNsm.toyPki) (start := deployStart) rfl (ceremony_vouched _ _)
    (History.start ceremonyEnv_ok (fun _ _ => rfl)) rfl ceremony_device
    ⟨"ns", "set", "rel", "role", false, some "quorum.pub"⟩ rfl
    (set := ⟨[toyMember 1, toyMember 2], 2⟩) (drKey := some (toyMember 9).pubKey)
    (toySet_in.mono (deployDisk_extends _ ceremony_names)) ⟨_, rfl, _, rfl, toyMember_key 9 (by decide)⟩ ceremony_request
    (by decide +kernel) (toyPair_ok 9 (by decide)) (ceremony_release (ceremonySetting []) ceremonyFiles rfl ceremony_names rfl)
    (fun _ => rfl)
  have hl : (Event.sent body :: genesisFiles "ns" cose out).length = 6 := by
    have := hc.dr
    unfold DrCopy at this
    unfold genesisFiles
    cases hw : out.drKeyWrappedQuorumKey with
    | none => rw [hw] at this; exact this.elim
    | some b => rfl
  have r1 : bootGenesis (ceremonySetting ceremonyFiles) ⟨"ns", "set", "rel", "role", false, some "quorum.pub"⟩ (St.initial noFiles) =
    ⟨.ok (), s', .sent body :: genesisFiles "ns" cose out⟩ := r1
  generalize Event.sent body :: genesisFiles "ns" cose out = evs at r1 hl
  obtain ⟨files, hf, -⟩ := hcol (ceremonySetting ceremonyFiles)
    [(toyMember 1, toyCollector 1 cose (Services.genesisOutputCodec.enc out)),
     (toyMember 2, toyCollector 2 cose (Services.genesisOutputCodec.enc out))] s'
    (show ([toyMember 1, toyMember 2] : List QuorumMember).Nodup by decide +kernel)
    (by
      intro o ho
      rcases List.mem_cons.mp ho with rfl | ho
      · exact ⟨List.mem_cons_self .., ceremony_vouched _ _, toyCollector_ready 1 (by decide) ..⟩
      · rw [List.mem_singleton.mp ho]
        exact ⟨List.mem_cons_of_mem _ (List.mem_cons_self ..), ceremony_vouched _ _, toyCollector_ready 2 (by decide) ..⟩)
  obtain ⟨e1, e2, -, ⟨q1, -, w1, m1, n1, z1⟩, ⟨q2, -, w2, m2, n2, z2⟩⟩ := forall₂_two hf
  obtain ⟨C', s1, s2, s3, evs1, evs2, o1, o2, posters, h⟩ := toy_after_ceremony hc m1 n1 m2 n2
  rw [z1, z2] at h
  exact ⟨ceremonySetting ceremonyFiles, s', evs, evs1, evs2,
    toyCollector 1 cose (Services.genesisOutputCodec.enc out), toyCollector 2 cose (Services.genesisOutputCodec.enc out), e1.1, e2.1, C', s1, s2, s3, o1, o2, posters, r1,
    hl, q1, q2, h⟩

end Qos.Client
