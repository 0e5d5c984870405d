import Verif.Spec.ClientCeremony
import Verif.Lemmas.CeremonySize
import Verif.Props.ClientGenesis
import Verif.Props.ClientDeploy
/-!
# C70: a key ceremony, from the members' key files to shares in the members' hands

Concrete cases: `Props/ClientCeremonyToy.lean` holds a whole ceremony.
-/
namespace Qos.Client
open P256 (Pair Public)
open Services (GenesisSet GenesisOutput MemberOutput)
open Wire Host StateMachine Lifecycle
variable {S : Type} {E : Env} {C : Setting St} {pki : MockNsm.Pki} {start : MockNsm.State} {fs0 : Files}
  {h : List (Msg × Msg)} {s : St}

theorem ceremonyDoc_wellFormed (hs : start.Started) (hr : 1 ≤ pki.root.length ∧ pki.root.length ≤ 1024)
    (hi : 1 ≤ pki.intermediate.length ∧ pki.intermediate.length ≤ 1024) {hash : Bytes} (hh : hash.length = 32) :
    Attest.WellFormed (ceremonyDoc pki start hash) := by
  unfold ceremonyDoc
  refine ⟨by simp [MockNsm.attestationDoc], rfl, ?_, ?_, by simp [MockNsm.attestationDoc], ?_, by simp [MockNsm.attestationDoc],
    trivial, ?_, trivial⟩
  · simp [MockNsm.attestationDoc]
  · intro i v hm
    simp only [MockNsm.attestationDoc, List.mem_map, List.mem_range, Prod.mk.injEq] at hm
    obtain ⟨j, hj, rfl, rfl⟩ := hm
    exact ⟨by omega, .inr (.inl (hs.sized _))⟩
  · intro c hc
    simp only [MockNsm.attestationDoc, List.mem_cons, List.not_mem_nil, or_false] at hc
    rcases hc with rfl | rfl
    · exact hr
    · exact hi
  · show hash.length ≤ 512
    omega

/-- What the device issues for an output vouches for it, to every operator with the right release and role files. -/
theorem ceremonyDoc_vouches {E : Env} (hp : E.prims.Laws) (C : Setting S) (hs : start.Started) {t : Nat}
    (hv : CeremonyVouched C E pki start t) {releaseDir rolePath : String} (hrel : ReleaseOf C start releaseDir rolePath)
    (out : GenesisOutput) :
    GenesisDoc C (pki.signDoc (ceremonyDoc pki start (E.prims.sha256 (Services.genesisOutputCodec.enc out)))) t releaseDir
      rolePath out := by
  obtain ⟨role, hr, h3⟩ := hrel.role
  have hl := hp.sha256_length (Services.genesisOutputCodec.enc out)
  refine ⟨ceremonyDoc pki start (E.prims.sha256 (Services.genesisOutputCodec.enc out)), _, _, _, role, hv.decode _ hl,
    ceremonyDoc_wellFormed hs hv.root hv.intermediate hl, hv.chain, hv.signature _ hl, hrel.pcrs, hr, ?_, rfl, ?_, ?_, ?_, ?_⟩
  · rw [hv.prims]; rfl
  · exact MockNsm.doc_pcr _ _ _ _ 0 (by omega)
  · exact MockNsm.doc_pcr _ _ _ _ 1 (by omega)
  · exact MockNsm.doc_pcr _ _ _ _ 2 (by omega)
  · rw [← h3]; exact MockNsm.doc_pcr _ _ _ _ 3 (by omega)

theorem ceremony_answers {p : Prims} (hp : p.Laws) {set : GenesisSet} {drKey : Option Bytes} {out : GenesisOutput} {quorum : Pair}
    {shares : List Bytes} (h : Ceremony p set drKey out quorum shares) :
    Answers p set drKey out ∧ Public.fromBytes p out.quorumKey = .ok (quorum.publicKey p) := by
  obtain ⟨⟨sd, hsd⟩, hpub⟩ := h.key
  have hq := (P256.public_of_pair p hp _ _ hsd).1
  rw [hpub] at hq
  obtain ⟨b1, b2, b3, _, _⟩ := (P256.public_fromBytes_iff _ _ _).mp hq
  refine ⟨⟨h.echoSet, h.echoDr, ⟨b1, b2, b3⟩, ?_, ?_⟩, hq⟩
  · have := congrArg List.length h.members
    rwa [List.length_map] at this
  · intro o ho
    rw [← h.members]
    exact List.mem_map_of_mem ho

theorem set_ok {p : Prims} {set : GenesisSet} {drKey : Option Bytes} (h : CeremonyRequest p set drKey)
    (hn : ∀ m ∈ set.members, m.aliasName.toList.length ≤ 1000) : Services.genesisSetCodec.ok set := by
  have hl := h.limit
  refine ⟨⟨show set.members.length < 2 ^ 32 by omega, ?_⟩, UInt32.toNat_lt set.threshold⟩
  intro m hm
  have h1 := (h.members.keys m hm).1
  have h2 := hn m hm
  refine ⟨?_, show m.pubKey.length < 2 ^ 32 by omega⟩
  have h3 : (utf8 m.aliasName).length ≤ 4 * m.aliasName.toList.length := Json.textBytes_le _
  show (utf8 m.aliasName).length < 2 ^ 32
  omega

/-- Different members of the request have different shares. -/
theorem share_inj {p : Prims} {set : GenesisSet} {drKey : Option Bytes} {out : GenesisOutput} {quorum : Pair}
    {shares : List Bytes} (h : Ceremony p set drKey out quorum shares) {i j : Nat} {o o' : MemberOutput} {x : Bytes}
    (hi : out.memberOutputs[i]? = some o) (hj : out.memberOutputs[j]? = some o') (hx : shares[i]? = some x)
    (hy : shares[j]? = some x) : o.member = o'.member := by
  obtain ⟨h1, h1'⟩ := List.getElem?_eq_some_iff.mp hx
  obtain ⟨h2, h2'⟩ := List.getElem?_eq_some_iff.mp hy
  have : i = j := (List.Nodup.getElem_inj_iff h.distinct).mp (h1'.trans h2'.symm)
  subst this
  rw [hi] at hj
  cases hj
  rfl

/-- The files that matter of a list of members, and what they open to. -/
theorem shares_of {α : Type} {p : Prims} {set : GenesisSet} {drKey : Option Bytes} {out : GenesisOutput} {quorum : Pair}
    {shares : List Bytes} (h : Ceremony p set drKey out quorum shares) (member : α → QuorumMember) (share : α → Bytes)
    (os : List α) (hn : (os.map member).Nodup)
    (hs : ∀ o ∈ os, ∃ (i : Nat) (own : MemberOutput), out.memberOutputs[i]? = some own ∧ own.member = member o ∧
      shares[i]? = some (share o)) (ht : set.threshold.toNat ≤ os.length) :
    Shamir.sharesReconstruct (os.map share) = .ok quorum.seed := by
  refine h.recover _ ?_ ?_ (by rw [List.length_map]; exact ht)
  · clear ht
    induction os with
    | nil => exact List.nodup_nil
    | cons o os ih =>
      simp only [List.map_cons, List.nodup_cons] at hn ⊢
      refine ⟨fun hmem => ?_, ih hn.2 fun o ho => hs o (List.mem_cons_of_mem _ ho)⟩
      obtain ⟨o', ho', he⟩ := List.mem_map.mp hmem
      obtain ⟨i, own, a1, a2, a3⟩ := hs o List.mem_cons_self
      obtain ⟨j, own', b1, b2, b3⟩ := hs o' (List.mem_cons_of_mem _ ho')
      rw [he] at b3
      have := share_inj h a1 b1 a3 b3
      rw [a2, b2] at this
      exact hn.1 (by rw [this]; exact List.mem_map_of_mem ho')
  · intro x hx
    obtain ⟨o, ho, rfl⟩ := List.mem_map.mp hx
    obtain ⟨i, own, _, _, a3⟩ := hs o ho
    exact List.mem_of_getElem? a3

/-! ## Property theorems -/

/-- C70: whoever answers, `boot-genesis` succeeds when the answer fits the request, the document vouches for it and the
directory is writable; it then writes exactly the files of the ceremony. -/
theorem boot_genesis_complete (C : Setting S) (a : BootGenesisArgs) (hs : a.unsafeSkip = false) (s : S) {set : GenesisSet}
    {drKey : Option Bytes} (hset : SetIn C.prims C.disk a.shareSetDir ⟨set.threshold, set.members⟩)
    (hdr : DrKeyIn C.prims C.disk a.drKeyPath drKey) {body : Bytes} (hb : toWire (.bootGenesisRequest set drKey) .json = .ok body)
    {cose : Bytes} {out : GenesisOutput}
    (ha : readAnswer (C.net s body).2 = some (.bootGenesisResponse (.attestation cose) out))
    (hans : Answers C.prims set drKey out) (hdoc : GenesisDoc C cose C.now a.releaseDir a.pcr3Path out)
    (hw : ∀ path, C.disk.writable path = true) :
    bootGenesis C a s = ⟨.ok (), (C.net s body).1, .sent body :: genesisFiles a.namespaceDir cose out⟩ := by
  obtain ⟨k, hk⟩ : ∃ k, Public.fromBytes C.prims out.quorumKey = .ok k :=
    ⟨_, (P256.public_fromBytes_iff C.prims out.quorumKey ⟨out.quorumKey.take 65, out.quorumKey.drop 65⟩).mpr
      ⟨hans.key.1, hans.key.2.1, hans.key.2.2, rfl, rfl⟩⟩
  have hbytes := P256.public_reencode _ _ _ hk
  have hc := (checkBootGenesis_ok (C := C) hs).mpr ⟨hans, hdoc, hbytes, hk⟩
  have e1 : drArtifacts out = (ascii "quorum_key_hash " ++ Hex.encode out.quorumKeyHash ++ ascii "\ntest_message_ciphertext " ++
       Hex.encode out.testMessageCiphertext ++ ascii "\ntest_message_signature " ++ Hex.encode out.testMessageSignature ++
       ascii "\ntest_message " ++ Hex.encode out.testMessage) := by
    unfold drArtifacts
    have a1 : ascii "\ntest_message_ciphertext " = ascii "\n" ++ ascii "test_message_ciphertext " := by decide
    have a2 : ascii "\ntest_message_signature " = ascii "\n" ++ ascii "test_message_signature " := by decide
    have a3 : ascii "\ntest_message " = ascii "\n" ++ ascii "test_message " := by decide
    rw [a1, a2, a3]
    simp only [List.append_assoc]
  unfold bootGenesis
  rw [Run.lift_ok ((set_exact _ _ _ _).mpr hset)]
  simp only
  rw [Run.lift_ok (readDrKey_ok.mpr hdr)]
  rcases postWire_cases C (.bootGenesisRequest set drKey) .json _ s with ⟨h0, -⟩ | ⟨body', hb', hr⟩
  · exact absurd hb (h0 body)
  rw [hb] at hb'
  cases hb'
  rw [hr, ha]
  rw [Run.lift_ok (x := orStop (genesisAnswer (some (.bootGenesisResponse (.attestation cose) out))) .panic) (a := (cose, out)) rfl]
  simp only
  rw [Run.lift_ok hc]
  unfold genesisFiles
  rw [← e1, ← hbytes]
  simp only [write_bind, hw, if_true]
  cases hwr : out.drKeyWrappedQuorumKey with
  | none => simp [writeOptional, pure, Run.pure]
  | some b => simp [hw, writeOptional, write]

/-- C70: an honest ceremony. On a waiting enclave over an honest device, `boot-genesis` for a set of members that a ceremony can be
held for (and a seed that yields a key) succeeds and writes exactly the files of a correct ceremony: the quorum key's public
half, the output, the document for it. The enclave ends in the genesis phase, its files untouched. Afterwards, any member
who takes two of these files to its own machine gets from `after-genesis` a file with its share, encrypted to its key; and
the shares of any threshold many members give back the secret of the quorum key. -/
theorem ceremony_held (hC : Facing C E) (hv : CeremonyVouched C E pki start C.now) (H : History E fs0 h s)
    (hs : s.phase = .waitingForBootInstruction) (hd : HonestDevice E pki start) (a : BootGenesisArgs) (hsafe : a.unsafeSkip = false)
    {set : GenesisSet} {drKey : Option Bytes} (hset : SetIn C.prims C.disk a.shareSetDir ⟨set.threshold, set.members⟩)
    (hdr : DrKeyIn C.prims C.disk a.drKeyPath drKey) (hreq : CeremonyRequest E.prims set drKey)
    (hn : ∀ m ∈ set.members, m.aliasName.toList.length ≤ 1000) {quorum : Pair}
    (hq : Pair.fromMasterSeed E.prims (E.seedAt s.seeds) = .ok quorum) (hrel : ReleaseOf C start a.releaseDir a.pcr3Path)
    (hw : ∀ path, C.disk.writable path = true) :
    ∃ (s' : St) (body cose : Bytes) (out : GenesisOutput) (shares : List Bytes),
      bootGenesis C a s = ⟨.ok (), s', .sent body :: genesisFiles a.namespaceDir cose out⟩ ∧
      s'.phase = .genesisBooted ∧ s'.files = s.files ∧ Ceremony E.prims set drKey out quorum shares ∧
      out.quorumKey = (quorum.publicKey E.prims).toBytes ∧
      ∀ {S : Type} (C' : Setting S) (os : List (QuorumMember × Collector)) (s'' : S), (os.map Prod.fst).Nodup →
        (∀ o ∈ os, o.1 ∈ set.members ∧ CeremonyVouched C' E pki start (o.2.args.timeOverride.getD C'.now) ∧
          o.2.Ready C' start o.1 cose (Services.genesisOutputCodec.enc out)) →
        ∃ files : List (Bytes × Bytes),
          List.Forall₂ (fun o f => o.2.Collects C' s'' f.1 ∧ o.2.pair.decrypt E.prims f.1 = .ok f.2 ∧
            ∃ own ∈ out.memberOutputs, own.member = o.1 ∧ own.encryptedShare = f.1) os files ∧
          (set.threshold.toNat ≤ os.length → Shamir.sharesReconstruct (files.map Prod.snd) = .ok quorum.seed) := by
  rcases bootGenesis_handled H.env hs set drKey with
    ⟨out, resp, q, shares, h1, h2, h3, -, h4, -, h5, h6, hc⟩ | ⟨-, -, -, -, h5⟩
  swap
  · exact absurd ⟨hreq, quorum, hq⟩ h5
  rw [hq, Except.ok.injEq] at h6
  subst h6
  rw [Idle.nsmHist H (H.idle hs), hd.nsm] at h4
  have h4 : resp = .attestation (pki.signDoc (ceremonyDoc pki start (E.prims.sha256 (Services.genesisOutputCodec.enc out)))) := h4
  subst h4
  have hlen := H.env.laws.sha256_length (Services.genesisOutputCodec.enc out)
  generalize hcose : pki.signDoc (ceremonyDoc pki start (E.prims.sha256 (Services.genesisOutputCodec.enc out))) = cose at h1
  have hsz : cose.length ≤ 1024 * 1024 := by rw [← hcose]; exact hv.size _ hlen
  have hvouch : ∀ {S : Type} (C' : Setting S) (t : Nat) (r p : String), CeremonyVouched C' E pki start t → ReleaseOf C' start r p →
      GenesisDoc C' cose t r p out := by
    intro S C' t r p hv' hr'
    rw [← hcose]
    exact ceremonyDoc_vouches H.env.laws C' hd.started hv' hr' out
  obtain ⟨hans, -⟩ := ceremony_answers H.env.laws hc
  have hf1 := Json.request_fits hreq hn
  have hf2 := Json.response_fits H.env.laws hreq hc hn cose hsz
  obtain ⟨body, hbody, -⟩ := fromWire_json _ hf1.1
  obtain ⟨r, hr1, hr2, hr3⟩ := net_json (C := C) hC hf1.1 hbody (hf1.2 _ hbody) (by rw [h1]; exact hf2.1)
  rw [if_pos (by rw [h1] at hr1; exact hf2.2 _ hr1), h1] at hr3
  have hrun := boot_genesis_complete C a hsafe s hset hdr hbody hr3 (by rw [hv.prims]; exact hans) (hvouch C _ _ _ hv hrel) hw
  rw [hr2] at hrun
  have hpub : out.quorumKey = (quorum.publicKey E.prims).toBytes := hc.key.pub.symm
  refine ⟨_, body, cose, out, shares, hrun, h2, h3, hc, hpub, ?_⟩
  intro S C' os s'' hnd hos
  have hout : Borsh.tryFromSlice Services.genesisOutputCodec (Services.genesisOutputCodec.enc out) = some out :=
    Borsh.tryFromSlice_enc lawful_genesisOutput (h5 (set_ok hreq hn))
  have hone : ∀ o ∈ os, ∃ (i : Nat) (own : MemberOutput) (x : Bytes), out.memberOutputs[i]? = some own ∧ own.member = o.1 ∧
      shares[i]? = some x ∧ o.2.Collects C' s'' own.encryptedShare ∧ o.2.pair.decrypt E.prims own.encryptedShare = .ok x := by
    intro o ho
    obtain ⟨hmem, hv', hready⟩ := hos o ho
    obtain ⟨m, o⟩ := o
    simp only at hmem hv' hready ⊢
    have hv'' : CeremonyVouched { C' with disk := o.disk } E pki start (o.args.timeOverride.getD C'.now) :=
      ⟨hv'.prims, hv'.root, hv'.intermediate, hv'.chain, hv'.decode, hv'.signature, hv'.size⟩
    obtain ⟨i, own, x, k1, k2, k3, k4, k5⟩ := after_genesis_complete { C' with disk := o.disk } o.pair o.args hready.safe s''
      (by show Ceremony C'.prims set drKey out quorum shares; rw [hv'.prims]; exact hc) hready.key
      (by rw [hready.name]; exact hmem) hready.doc ⟨_, hready.output, hout⟩ (hvouch _ _ _ _ hv'' hready.release) hready.space
    refine ⟨i, own, x, k1, ?_, k3, k5, ?_⟩
    · rw [k2, hready.name]
    · rw [← hv'.prims]; exact k4
  have hch : ∃ files : List (Bytes × Bytes), List.Forall₂ (fun o f => (o.2.Collects C' s'' f.1 ∧ o.2.pair.decrypt E.prims f.1 = .ok f.2 ∧
        ∃ own ∈ out.memberOutputs, own.member = o.1 ∧ own.encryptedShare = f.1) ∧
      ∃ (i : Nat) (own : MemberOutput), out.memberOutputs[i]? = some own ∧ own.member = o.1 ∧ shares[i]? = some f.2) os files := by
    clear hnd hos
    induction os with
    | nil => exact ⟨[], .nil⟩
    | cons o os ih =>
      obtain ⟨files, hfl⟩ := ih fun o ho => hone o (List.mem_cons_of_mem _ ho)
      obtain ⟨i, own, x, k1, k2, k3, k4, k5⟩ := hone o List.mem_cons_self
      exact ⟨(own.encryptedShare, x) :: files, .cons ⟨⟨k4, k5, own, List.mem_of_getElem? k1, k2, rfl⟩, i, own, k1, k2, k3⟩ hfl⟩
  obtain ⟨files, hfl⟩ := hch
  refine ⟨files, hfl.imp fun _ _ q => q.1, fun hthr => ?_⟩
  have hz : ∀ (l : List (QuorumMember × Collector)) (fl : List (Bytes × Bytes)),
      List.Forall₂ (fun o f => (o.2.Collects C' s'' f.1 ∧ o.2.pair.decrypt E.prims f.1 = .ok f.2 ∧
        ∃ own ∈ out.memberOutputs, own.member = o.1 ∧ own.encryptedShare = f.1) ∧
        ∃ (i : Nat) (own : MemberOutput), out.memberOutputs[i]? = some own ∧ own.member = o.1 ∧ shares[i]? = some f.2) l fl →
      ∃ z : List (QuorumMember × Bytes), z.map Prod.fst = l.map Prod.fst ∧ z.map Prod.snd = fl.map Prod.snd ∧
        ∀ o ∈ z, ∃ (i : Nat) (own : MemberOutput), out.memberOutputs[i]? = some own ∧ own.member = o.1 ∧ shares[i]? = some o.2 := by
    intro l fl hlf
    induction hlf with
    | nil => exact ⟨[], rfl, rfl, fun _ h => nomatch h⟩
    | @cons o f l fl q _ ih =>
      obtain ⟨z, z1, z2, z3⟩ := ih
      refine ⟨(o.1, f.2) :: z, by simp [z1], by simp [z2], ?_⟩
      intro o' ho'
      rcases List.mem_cons.mp ho' with rfl | ho'
      · exact q.2
      · exact z3 o' ho'
  obtain ⟨z, z1, z2, z3⟩ := hz os files hfl
  rw [← z2]
  refine shares_of hc Prod.fst Prod.snd z (by rw [z1]; exact hnd) z3 ?_
  have := congrArg List.length z1
  simp only [List.length_map] at this
  omega

/-- C70: from the ceremony to a running enclave. Take the output of a correct ceremony and an approved envelope that names its
quorum key and its threshold, on a freshly started enclave over an honest device. Then `boot-standard` and
`get-attestation-doc` succeed, and as many different members as the threshold says, each holding the file `after-genesis` gave
it, provision the enclave with exactly the secret made at the ceremony. -/
theorem ceremony_provisions {set : GenesisSet} {drKey : Option Bytes} {out : GenesisOutput} {quorum : Pair}
    {shares : List Bytes} (hc : Ceremony E.prims set drKey out quorum shares) (hC : Facing C E) (hv : Vouched C E pki start)
    (hE : E.Ok) (hf : Fresh E.paths fs0)
    (hd : HonestDevice E pki start) (hio : ReliableFiles E) {setup live : Pair}
    (h0 : Pair.fromMasterSeed E.prims (E.seedAt 0) = .ok setup) (h1 : Pair.fromMasterSeed E.prims (E.seedAt 1) = .ok live)
    {e : Envelope} {pivot : Bytes} (a : BootArgs) (hin : EnvelopeIn C.disk a.envelopePath e) (he : e.Ok)
    (hp : C.disk.file a.pivotPath = some pivot) (ha : e.checkApprovals E.prims = .ok ()) (hn : e.shareSetApprovals = [])
    (hh : E.prims.sha256 pivot = e.manifest.pivotHash) (hm : Measured start e.manifest) {role : String}
    (hr : RoleIn C.disk a.pcr3Path role) (h3 : e.manifest.enclave.pcr3 = rolePcr3 C.prims role) {b : Bytes}
    (hwire : toWire (.bootStandardJsonEnvelopeRequest e pivot) .borsh = .ok b) (hb : b.length ≤ 128 * 1024 * 1024)
    (hsafe : a.unsafeSkip = false) (hspace : ∀ path, C.disk.writable path = true)
    (hfits : ∀ doc : Bytes, doc.length ≤ 1024 * 1024 → Fits (.liveAttestationDocResponse (.attestation doc) (some e)))
    (hname : e.manifest.namespaceOf.quorumKey = out.quorumKey) (hthr : e.manifest.shareSet.threshold = set.threshold)
    (docPath envelopePath : String) :
    ∃ s1 s2 der env b', bootStandard C a (St.initial fs0) = ⟨.ok (), s1, [.sent b]⟩ ∧
      getAttestationDoc C docPath envelopePath s1 =
        ⟨.ok (), s2, [.sent b', .wrote docPath der, .wrote envelopePath env]⟩ ∧
      ∀ (holders : List Holder), (∀ o ∈ holders, o.Ready E.prims e der env) →
        (∀ o ∈ holders, ∃ own ∈ out.memberOutputs, own.member = o.member E.prims ∧
          o.disk.file o.args.sharePath = some own.encryptedShare) →
        (holders.map (Holder.member E.prims)).Nodup → holders.length = set.threshold.toNat →
        ∃ files : List (Bytes × Bytes), List.Forall₂ (fun o f => o.Hands C s2 f.1 f.2) holders files ∧
          ∀ posters : List Poster, List.Forall₂ (fun o f => Poster.Has f.1 f.2 o) posters files →
            (postAll C posters s2).1 = List.replicate (holders.length - 1) (.ok false) ++ [.ok true] ∧
            (postAll C posters s2).2.phase = .quorumKeyProvisioned ∧
            Holds (postAll C posters s2).2.files E.paths.quorum (Hex.encode quorum.seed) := by
  obtain ⟨s1, s2, der, env, b', g1, g2, g3⟩ := deployment_provisions hC hv hE hf hd hio h0 h1 a hin he hp ha hn hh hm hr h3 hwire hb
    hsafe hspace hfits docPath envelopePath
  refine ⟨s1, s2, der, env, b', g1, g2, ?_⟩
  intro holders hready hown hnd hlen
  obtain ⟨⟨sd, hsd⟩, hpub⟩ := hc.key
  have hseed := P256.pair_seed _ _ _ hsd
  refine g3 holders quorum.seed quorum hready (by rw [hthr]; have := hc.threshold.1; omega) ?_ hc.seed (by rw [hseed]; exact hsd)
    (by rw [hpub, hname])
  refine shares_of hc (Holder.member E.prims) (·.share) holders hnd ?_ (by omega)
  intro o ho
  obtain ⟨own, hmem, k1, k2⟩ := hown o ho
  obtain ⟨i, hi⟩ := List.mem_iff_getElem?.mp hmem
  have hR := hready o ho
  have hl : out.memberOutputs.length = shares.length := by
    have := congrArg List.length hc.members
    rw [List.length_map] at this
    rw [this, hc.count]
  have hlt : i < shares.length := by
    rw [← hl]
    exact (List.getElem?_eq_some_iff.mp hi).1
  have hx : shares[i]? = some shares[i] := List.getElem?_eq_getElem hlt
  have hopen := hc.opened i own shares[i] o.pair hi hx ⟨⟨_, hR.key⟩, by rw [k1]; rfl⟩
  obtain ⟨enc, e1, e2⟩ := hR.share
  rw [k2] at e1
  cases e1
  rw [hopen, Except.ok.injEq] at e2
  exact ⟨i, own, hi, k1, by rw [hx, e2]⟩

end Qos.Client
