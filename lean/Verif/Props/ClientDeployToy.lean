import Verif.Props.ClientDeploy
/-!
# A concrete deployment

Every hypothesis of `deployment_provisions` is met: two members, each holding one of two shares, provision the toy
enclave through the toy host.
-/
namespace Qos.Client
open P256 (Pair Public toyPrims toyLaws)
open Wire Host StateMachine Lifecycle

/-- The role in the toy operator's file. -/
def deployRole : String := "arn:aws:iam::1:role/qos"

/-- A manifest for the measured toy device. -/
def deployManifest : Manifest :=
  { toyManifest with
    manifestSet := ⟨2, [toyMember 1, toyMember 2]⟩
    shareSet := ⟨2, [toyMember 1, toyMember 2]⟩
    enclave := ⟨List.replicate 48 1, List.replicate 48 2, List.replicate 48 3, rolePcr3 toyPrims deployRole, [], ""⟩ }

/-- Its hash. -/
def deployHash : Bytes := (VersionedManifest.v1 deployManifest).hash toyPrims

/-- Approved by both members. -/
def deployEnvelope : Envelope := .v1 ⟨deployManifest, [toyApproval 1 deployHash, toyApproval 2 deployHash], []⟩

/-- The device at the start: measurements of the image and the role. -/
def deployStart : MockNsm.State :=
  ⟨32, fun i => if i = 0 then some (List.replicate 48 1) else if i = 1 then some (List.replicate 48 2)
    else if i = 2 then some (List.replicate 48 3) else if i = 3 then some (rolePcr3 toyPrims deployRole) else none,
    fun _ => false⟩

/-- The toy surrounding with this device. -/
def deployEnv : Env := { toyEnv with nsm := mockDevice toyPrims MockNsm.toyPki deployStart }

/-- Reads what `toyPki` signs on this device. -/
def deployDecode (b : Bytes) : Except AttestError AttestationDoc :=
  .ok (MockNsm.attestationDoc MockNsm.toyPki
    ⟨32, fun i => if i = 16 then some ((b.drop 162).take 48) else if i = 17 then some (b.drop 210)
      else some (deployStart.value i), fun _ => true⟩ (some ((b.drop 130).take 32)) none (some (b.take 130)))

/-- The toy disk with more files. -/
def deployDisk (l : List (String × Bytes)) : Disk :=
  { toyDisk with file := fun q => match l.lookup q with | some c => some c | none => toyFile q }

/-- An operator in front of the toy enclave. -/
noncomputable def deploySetting (l : List (String × Bytes)) : Setting St where
  prims := toyPrims
  pki := ⟨deployDecode, fun _ _ _ _ => .ok (), fun _ _ => .ok ()⟩
  awsRoot := [1, 2]
  now := 0
  rand := toySetting.rand
  disk := deployDisk l
  net := http (enclaveCall deployEnv)

theorem deployDisk_extends (l : List (String × Bytes)) (h : ∀ x ∈ l, toyFile x.1 = none) : toyDisk.Extends (deployDisk l) := by
  refine ⟨fun q b hq => ?_, fun _ _ h => h⟩
  have hq : toyFile q = some b := hq
  show (match l.lookup q with | some c => some c | none => toyFile q) = some b
  cases hl : l.lookup q with
  | none => exact hq
  | some c =>
    exfalso
    have : ∃ x ∈ l, x.1 = q := by
      clear h
      induction l with
      | nil => cases hl
      | cons x l ih =>
        rw [List.lookup_cons] at hl
        by_cases hx : q = x.1
        · exact ⟨x, List.mem_cons_self .., hx.symm⟩
        · rw [beq_false_of_ne hx] at hl
          obtain ⟨y, hy, e⟩ := ih hl
          exact ⟨y, List.mem_cons_of_mem _ hy, e⟩
    obtain ⟨x, hx, rfl⟩ := this
    rw [h x hx] at hq
    cases hq

theorem deploy_started : deployStart.Started where
  max := rfl
  unlocked _ := rfl
  setup := rfl
  live := rfl
  sized i := by
    unfold MockNsm.State.value deployStart
    simp only
    split
    · simp
    split
    · simp
    split
    · simp
    split
    · exact toyLaws.sha384_length _
    · decide

theorem deploy_device : HonestDevice deployEnv MockNsm.toyPki deployStart := ⟨deploy_started, rfl⟩

theorem deployEnv_ok : deployEnv.Ok := ⟨toyEnv_ok.laws, toyEnv_ok.seeds, toyEnv_ok.rands, toyEnv_ok.paths⟩

theorem deploy_measured : Measured deployStart deployEnvelope.manifest := ⟨rfl, rfl, rfl, rfl⟩

theorem doc_congr (pki : MockNsm.Pki) {d d' : MockNsm.State} (h : ∀ i : UInt16, i < 32 → d.value i = d'.value i)
    (u n k : Option Bytes) : MockNsm.attestationDoc pki d u n k = MockNsm.attestationDoc pki d' u n k := by
  unfold MockNsm.attestationDoc
  congr 1
  refine List.map_congr_left fun i hi => ?_
  rw [List.mem_range] at hi
  have hv : (UInt16.ofNat i).toNat = i := by simp [UInt16.toNat_ofNat]; omega
  rw [h _ (by rw [UInt16.lt_iff_toNat_lt, hv]; exact hi)]

theorem deploy_decode {doc : AttestationDoc} (h : IssuedDoc MockNsm.toyPki deployStart doc) :
    deployDecode (MockNsm.toyPki.signDoc doc) = .ok doc ∧ (MockNsm.toyPki.signDoc doc).length = 258 := by
  obtain ⟨d, hash, key, rfl, hs, hl, hh, hk⟩ := h.issued
  have l16 := hl 16 (by decide)
  have l17 := hl 17 (by decide)
  have e : MockNsm.toyPki.signDoc (MockNsm.attestationDoc MockNsm.toyPki d (some hash) none (some key)) =
      key ++ hash ++ d.value 16 ++ d.value 17 := by
    show key ++ hash ++ ((MockNsm.attestationDoc MockNsm.toyPki d (some hash) none (some key)).pcr 16).getD [] ++
      ((MockNsm.attestationDoc MockNsm.toyPki d (some hash) none (some key)).pcr 17).getD [] = _
    rw [MockNsm.doc_pcr _ _ _ _ 16 (by omega), MockNsm.doc_pcr _ _ _ _ 17 (by omega)]
    rfl
  rw [e]
  refine ⟨?_, by simp only [List.length_append]; omega⟩
  have t1 : (key ++ hash ++ d.value 16 ++ d.value 17).take 130 = key := by
    rw [List.append_assoc, List.append_assoc, List.take_left' hk]
  have t2 : ((key ++ hash ++ d.value 16 ++ d.value 17).drop 130).take 32 = hash := by
    rw [List.append_assoc, List.append_assoc, List.drop_left' hk, List.take_left' hh]
  have t3 : ((key ++ hash ++ d.value 16 ++ d.value 17).drop 162).take 48 = d.value 16 := by
    rw [List.append_assoc, List.drop_left' (by simp; omega), List.take_left' l16]
  have t4 : (key ++ hash ++ d.value 16 ++ d.value 17).drop 210 = d.value 17 := by
    rw [List.drop_left' (by simp; omega)]
  unfold deployDecode
  rw [t1, t2, t3, t4]
  congr 1
  refine doc_congr _ (fun i hi => ?_) _ _ _
  by_cases h16 : i = 16
  · subst h16; rfl
  by_cases h17 : i = 17
  · subst h17; rfl
  rw [hs i hi h16 h17]
  simp [MockNsm.State.value, h16, h17]

theorem deploy_vouched (l : List (String × Bytes)) : Vouched (deploySetting l) deployEnv MockNsm.toyPki deployStart where
  prims := rfl
  root := by decide
  intermediate := by decide
  chain := rfl
  decode _ h := (deploy_decode h).1
  signature _ _ := rfl
  size _ h := by rw [(deploy_decode h).2]; decide

theorem deploy_ok : deployEnvelope.Ok := by
  refine envelopeV1_ok ?_ (toyLaws.sha256_length _) rfl rfl ?_ ?_ ⟨?_, ?_, ?_, ?_, ?_⟩ rfl ?_ ?_
  · show (toyMember 9).pubKey.length ≤ 130
    rw [toyMember_length]
  · intro m hm
    have : m ∈ [toyMember 1, toyMember 2] := hm
    simp only [List.mem_cons, List.not_mem_nil, or_false] at this
    rcases this with rfl | rfl <;> exact toyMember_ok _
  · intro m hm
    have : m ∈ [toyMember 1, toyMember 2] := hm
    simp only [List.mem_cons, List.not_mem_nil, or_false] at this
    rcases this with rfl | rfl <;> exact toyMember_ok _
  · exact (by decide : (List.replicate 48 (1 : UInt8)).length ≤ 130)
  · exact (by decide : (List.replicate 48 (2 : UInt8)).length ≤ 130)
  · exact (by decide : (List.replicate 48 (3 : UInt8)).length ≤ 130)
  · show (toyPrims.sha384 _).length ≤ 130
    rw [toyLaws.sha384_length]
    decide
  · exact Nat.zero_le _
  · intro a ha
    simp only [List.mem_cons, List.not_mem_nil, or_false] at ha
    rcases ha with rfl | rfl <;> exact toyApproval_ok _ _
  · exact fun _ h => nomatch h

theorem deploy_size : Json.extent (JCodec.envelope.enc deployEnvelope) ≤ 100000 := by
  refine Nat.le_trans (Json.extent_envelope ⟨deployManifest, [toyApproval 1 deployHash, toyApproval 2 deployHash], []⟩
    (Json.extent_manifest _
      (Json.extent_namespace _ (by decide) (by decide +kernel) (Nat.le_of_eq (toyMember_length 9)))
      (Json.extent_pivot _ (Nat.le_trans (Nat.le_of_eq (toyLaws.sha256_length _)) (by decide)) (by decide +kernel) rfl rfl)
      (Nat.le_trans (Json.extent_set 2 [toyMember 1, toyMember 2] (by decide +kernel) (by simp)) (by decide))
      (Nat.le_trans (Json.extent_set 2 [toyMember 1, toyMember 2] (by decide +kernel) (by simp)) (by decide))
      (Json.extent_nitro _ (by decide) (by decide) (by decide) (Nat.le_of_eq (toyLaws.sha384_length _)) (by decide) (by decide))
      (by decide +kernel))
    (by
      intro a ha
      rcases List.mem_cons.mp ha with rfl | ha
      · exact ⟨1, deployHash, rfl⟩
      · rw [List.mem_singleton] at ha
        exact ⟨2, deployHash, ha⟩) (fun a ha => nomatch ha)) (show 60000 + 4001 * (2 + 0) ≤ 100000 by decide)

theorem deploy_fits (doc : Bytes) (hd : doc.length ≤ 1024 * 1024) :
    Fits (.liveAttestationDocResponse (.attestation doc) (some deployEnvelope)) := by
  refine fits_small (by rintro _ _ ⟨⟩) ⟨?_, deploy_ok⟩ (Nat.le_trans (Json.length_canonical _)
    (Nat.le_trans (Json.extent_liveResponse doc deployEnvelope) ?_))
  · show 2 * doc.length < Hex.strMaxLength
    rw [show Hex.strMaxLength = 256 * 1024 * 1024 from rfl]
    omega
  · have := deploy_size
    omega

/-- The Borsh boot request is small when its envelope and its pivot are. -/
theorem boot_wire (e : Envelope) (p : Bytes) (he : e.Ok) (hl : (Json.writeBytes e.encUntagged).length ≤ 100000) (hp : p.length ≤ 100000) :
    ∃ b, toWire (.bootStandardJsonEnvelopeRequest e p) .borsh = .ok b ∧ b.length ≤ 128 * 1024 * 1024 := by
  have hok : Borsh.msg.ok (.bootStandardJsonEnvelopeRequest e p) :=
    ⟨⟨he, show (Json.writeBytes e.encUntagged).length < 2 ^ 32 by omega⟩, show p.length < 2 ^ 32 by omega⟩
  refine ⟨Borsh.msg.enc (.bootStandardJsonEnvelopeRequest e p),
    by simp only [toWire, isGenesis, Bool.false_eq_true, if_false, toBorsh, hok, if_true, orErr], ?_⟩
  obtain ⟨t, ht⟩ : ∃ t : UInt8, Borsh.msg.enc (.bootStandardJsonEnvelopeRequest e p) = t ::
      ((leBytes 4 (Json.writeBytes e.encUntagged).length ++ Json.writeBytes e.encUntagged) ++
        (leBytes 4 p.length ++ p)) := ⟨_, rfl⟩
  rw [ht]
  simp only [List.length_cons, List.length_append, leBytes_length]
  omega

theorem deploy_wire : ∃ b, toWire (.bootStandardJsonEnvelopeRequest deployEnvelope [1, 2, 3]) .borsh = .ok b ∧
    b.length ≤ 128 * 1024 * 1024 :=
  boot_wire deployEnvelope [1, 2, 3] deploy_ok (Nat.le_trans (Json.length_writeBytes _) deploy_size) (by decide)

theorem deploy_signed (n : UInt8) (hash : Bytes) (hn : n ∈ [1, 2, 9]) :
    (toyMember n).Signed toyPrims hash (toyApproval n hash).signature := by
  have hk := toyPair_ok n hn
  have hs : (toyApproval n hash).signature = (toyPair n).sign toyPrims hash := by
    unfold toyApproval
    rw [hk]
  have hm : (toyApproval n hash).member = toyMember n := rfl
  rw [← hm]
  refine (approval_verify_iff ..).1 ?_
  unfold Approval.verify
  rw [hs, hm, ← toyPair_pub n hn, (P256.public_of_pair _ toyLaws _ _ hk).1]
  simp only [P256.pair_sign_verifies toyPrims toyLaws _ _ _ hk]

theorem deploy_approved : deployEnvelope.checkApprovals deployEnv.prims = .ok () := by
  have h1 := deploy_signed 1 deployHash (by decide)
  have h2 := deploy_signed 2 deployHash (by decide)
  have m1 : (toyApproval 1 deployHash).member = toyMember 1 := rfl
  have m2 : (toyApproval 2 deployHash).member = toyMember 2 := rfl
  have hl : ∀ a ∈ [toyApproval 1 deployHash, toyApproval 2 deployHash], a.member ∈ [toyMember 1, toyMember 2] ∧
      a.member.Signed toyPrims deployHash a.signature := by
    intro a ha
    rcases List.mem_cons.mp ha with rfl | ha
    · exact ⟨by rw [m1]; exact List.mem_cons_self .., h1⟩
    · rw [List.mem_singleton.mp ha]
      exact ⟨by rw [m2]; exact List.mem_cons_of_mem _ (List.mem_cons_self ..), h2⟩
  refine check_approvals_complete _ _ ⟨toy_distinct, fun a ha => (hl a ha).2, fun a ha => (hl a ha).1, ?_, Nat.le_refl 2⟩ ?_
  · show ([toyMember 1, toyMember 2] : List QuorumMember).Nodup
    decide +kernel
  · intro a ha b hb hh
    exact toy_no_collision _ (hl a ha).1 _ (hl b hb).1 hh

theorem deploy_role (l : List (String × Bytes)) (h : ∀ x ∈ l, toyFile x.1 = none) : RoleIn (deployDisk l) "role" deployRole := by
  obtain ⟨-, ⟨role, h2, h3⟩, -, -⟩ := toyNitro_in
  have hr : role = deployRole := by
    have h1 := (role_exact _ _ _).mpr h2
    have h : okAnd (fun t => decide (t = deployRole)) (findPcr3 toyDisk "role") = true := by decide +kernel
    obtain ⟨s, hs, he⟩ := of_okAnd h
    rw [hs] at h1
    rw [← of_decide_eq_true he]
    exact (Except.ok.inj h1).symm
  rw [← hr]
  exact h2.mono (deployDisk_extends l h)

/-- A toy member with an encrypted share and the fetched files. -/
def deployHolder (n : UInt8) (der env enc share : Bytes) : Holder where
  seed := List.replicate 32 n
  pair := toyPair n
  disk := deployDisk [("doc", der), ("env", env), ("share", enc)]
  rand := toySetting.rand
  args := ⟨"share", "doc", "approval", "wrapped", "role", "env", "set", (toyMember n).aliasName, false, none, false⟩
  input := List.replicate 4 "yes"
  share := share

theorem deployHolder_member (n : UInt8) (hn : n ∈ [1, 2, 9]) (der env enc share : Bytes) :
    (deployHolder n der env enc share).member toyPrims = toyMember n := by
  have h := toyPair_pub n hn
  have h1 : (deployHolder n der env enc share).args.memberAlias = (toyMember n).aliasName := by unfold deployHolder; rfl
  have h2 : (deployHolder n der env enc share).pair = toyPair n := by unfold deployHolder; rfl
  unfold Holder.member
  rw [h1, h2, h]

theorem toyRand_ok : P256.SealRandom.Ok toyPrims toySetting.rand := ⟨by decide +kernel, by decide⟩

theorem deploy_names (der env enc : Bytes) : ∀ x ∈ [("doc", der), ("env", env), ("share", enc)], toyFile x.1 = none := by
  have : toyFile "doc" = none ∧ toyFile "env" = none ∧ toyFile "share" = none := by decide +kernel
  intro x hx
  simp only [List.mem_cons, List.not_mem_nil, or_false] at hx
  rcases hx with rfl | rfl | rfl
  · exact this.1
  · exact this.2.1
  · exact this.2.2

theorem deployHolder_ready (n : UInt8) (hn : n ∈ [1, 2, 9]) (hm : toyMember n ∈ [toyMember 1, toyMember 2])
    (ha : (toyMember n).aliasName.toList.length ≤ 1024 * 1024) (der env enc share : Bytes)
    (henc : (toyPair n).decrypt toyPrims enc = .ok share) (h1 : share ≠ []) (h2 : share.length ≤ 1024 * 1024) :
    (deployHolder n der env enc share).Ready toyPrims deployEnvelope der env where
  key := toyPair_ok n hn
  rand := toyRand_ok
  doc := rfl
  envelope := rfl
  share := ⟨enc, rfl, henc⟩
  nonempty := h1
  small := ⟨h2, ha⟩
  role := ⟨deployRole, deploy_role _ (deploy_names der env enc), rfl⟩
  approvers := toySet_in.mono (deployDisk_extends _ (deploy_names der env enc))
  listed := by rw [deployHolder_member n hn]; exact hm
  answers := Nat.le_refl 4
  yes := by
    intro l hl
    rw [List.eq_of_mem_replicate hl]
    show P256.trim "yes" ∈ _
    decide +kernel
  space := fun _ => rfl
  safe := ⟨rfl, rfl, rfl⟩


theorem deploy_boot_names (b : Bytes) : ∀ x ∈ [("envelope", b), ("pivot", [1, 2, 3])], toyFile x.1 = none := by
  have : toyFile "envelope" = none ∧ toyFile "pivot" = none := by decide +kernel
  intro x hx
  simp only [List.mem_cons, List.not_mem_nil, or_false] at hx
  rcases hx with rfl | rfl
  · exact this.1
  · exact this.2

theorem deploy_quorum_key {k : Pair} (hk : Pair.fromMasterSeed toyPrims (List.replicate 32 9) = .ok k) :
    (k.publicKey toyPrims).toBytes = deployEnvelope.manifest.namespaceOf.quorumKey := toy_quorum_key hk

/-- The machine of a poster. -/
def deployPoster (f : Bytes × Bytes) : Poster := ⟨deployDisk [("wrapped", f.2), ("approval", f.1)], "wrapped", "approval"⟩

/-- C51: `deployment_provisions` applies. The toy enclave, served by the toy host, is booted by an operator with two files,
fetched from, and provisioned by two members of the share set, each with one of the two shares of the quorum key; the first
post is answered with "not yet", the second with "reconstructed". -/
theorem toy_provisioned :
    ∃ (C : Setting St) (a : BootArgs) (s1 s2 s3 : St) (evs1 evs2 : List Event) (posters : List Poster),
      bootStandard C a (St.initial noFiles) = ⟨.ok (), s1, evs1⟩ ∧
      getAttestationDoc C "doc" "env" s1 = ⟨.ok (), s2, evs2⟩ ∧
      postAll C posters s2 = ([.ok false, .ok true], s3) ∧ s3.phase = .quorumKeyProvisioned ∧
      Holds s3.files deployEnv.paths.quorum (Hex.encode (List.replicate 32 9)) := by
  obtain ⟨eb, -, heb⟩ := storage_roundtrip deployEnvelope deploy_ok
  obtain ⟨setup, h0⟩ := toy_pair (toyEnv.seedAt 0)
  obtain ⟨live, h1⟩ := toy_pair (toyEnv.seedAt 1)
  obtain ⟨b, hb, hbl⟩ := deploy_wire
  obtain ⟨s1, s2, der, env, b', g1, g2, g3⟩ := deployment_provisions
    (C := deploySetting [("envelope", eb), ("pivot", [1, 2, 3])]) (E := deployEnv) (fs0 := noFiles) rfl
    (deploy_vouched _) deployEnv_ok (fun _ _ => rfl) deploy_device (fun _ => rfl) h0 h1
    (e := deployEnvelope) (pivot := [1, 2, 3]) ⟨"pivot", "envelope", "role", false⟩ ⟨eb, rfl, heb⟩ deploy_ok rfl
    deploy_approved rfl rfl deploy_measured (role := deployRole) (deploy_role _ (deploy_boot_names eb)) rfl hb hbl rfl
    (fun _ => rfl) deploy_fits "doc" "env"
  obtain ⟨key, hkey⟩ := toy_pair (List.replicate 32 9)
  obtain ⟨all, hall⟩ := (Shamir.generate_iff (List.replicate 32 9) 2 2 (fun _ _ => 99)).2 (by decide)
  obtain ⟨k1, k2, k3⟩ := Shamir.shares_shape hall
  have hnd : all.Nodup := List.Nodup.of_map _ k2
  have hrec := Shamir.threshold_shares_reconstruct hall hnd (fun _ h => h) (by omega)
  match all, k1, k3, hrec with
  | [x1, x2], _, k3, hrec =>
    have l1 := (k3 x1 (by simp)).1
    have l2 := (k3 x2 (by simp)).1
    simp only [List.length_replicate] at l1 l2
    obtain ⟨c1, d1⟩ := toy_encrypt (toyPair_ok 1 (by decide)) (share := x1) (by omega)
    obtain ⟨c2, d2⟩ := toy_encrypt (toyPair_ok 2 (by decide)) (share := x2) (by omega)
    have n1 : x1 ≠ [] := by rintro rfl; simp at l1
    have n2 : x2 ≠ [] := by rintro rfl; simp at l2
    obtain ⟨files, hf, hpost⟩ := g3 [deployHolder 1 der env c1 x1, deployHolder 2 der env c2 x2] (List.replicate 32 9) key
      (by
        intro o ho
        rcases List.mem_cons.mp ho with rfl | ho
        · exact deployHolder_ready 1 (by decide) (List.mem_cons_self ..) (by decide +kernel) der env c1 x1 d1 n1 (by omega)
        · rw [List.mem_singleton.mp ho]
          exact deployHolder_ready 2 (by decide) (List.mem_cons_of_mem _ (List.mem_cons_self ..)) (by decide +kernel)
            der env c2 x2 d2 n2 (by omega))
      rfl hrec (by simp) hkey (deploy_quorum_key hkey)
    obtain ⟨p1, p2, p3⟩ := hpost (files.map deployPoster) (by
      clear hf hpost
      induction files with
      | nil => exact .nil
      | cons f fs ih => exact .cons ⟨rfl, rfl⟩ ih)
    exact ⟨deploySetting [("envelope", eb), ("pivot", [1, 2, 3])], ⟨"pivot", "envelope", "role", false⟩, s1, s2,
      (postAll (deploySetting [("envelope", eb), ("pivot", [1, 2, 3])]) (files.map deployPoster) s2).2, _, _,
      files.map deployPoster, g1, g2, Prod.ext p1 rfl, p2, p3⟩

end Qos.Client
