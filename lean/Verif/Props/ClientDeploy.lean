import Verif.Props.ClientEnclave
import Verif.Props.ClientProxy
import Verif.Props.ClientPipeline
import Verif.Props.BootDoc
/-!
# C51: from an approved envelope to a provisioned enclave

The operators' commands run against the modelled host and enclave: boot, fetching the attestation document,
re-encrypting the shares, posting them.

Concrete cases: `toy_provisioned` in `Props/ClientDeployToy.lean` meets all hypotheses at once.
-/
namespace Qos.Client
open P256 (Pair Public)
open Wire Host StateMachine Lifecycle
variable {S : Type} {E : Env} {C : Setting St} {pki : MockNsm.Pki} {start : MockNsm.State} {fs0 : Files}
  {h : List (Msg × Msg)} {s : St}

theorem issued_wellFormed {doc : AttestationDoc} (h : IssuedDoc pki start doc)
    (hr : 1 ≤ pki.root.length ∧ pki.root.length ≤ 1024)
    (hi : 1 ≤ pki.intermediate.length ∧ pki.intermediate.length ≤ 1024) : Attest.WellFormed doc := by
  obtain ⟨d, hash, key, rfl, -, hl, hh, hk⟩ := h.issued
  refine ⟨by simp [MockNsm.attestationDoc], rfl, ?_, ?_, by simp [MockNsm.attestationDoc], ?_, by simp [MockNsm.attestationDoc], ?_, ?_, trivial⟩
  · simp [MockNsm.attestationDoc]
  · intro i v hm
    simp only [MockNsm.attestationDoc, List.mem_map, List.mem_range, Prod.mk.injEq] at hm
    obtain ⟨j, hj, rfl, rfl⟩ := hm
    have hv : (UInt16.ofNat j).toNat = j := by simp [UInt16.toNat_ofNat]; omega
    exact ⟨by omega, .inr (.inl (hl _ (by rw [UInt16.lt_iff_toNat_lt, hv]; exact hj)))⟩
  · intro c hc
    simp only [MockNsm.attestationDoc, List.mem_cons, List.not_mem_nil, or_false] at hc
    rcases hc with rfl | rfl
    · exact hr
    · exact hi
  · show 1 ≤ key.length ∧ key.length ≤ 1024
    omega
  · show hash.length ≤ 512
    omega

/-- What the device issues for a manifest is genuine for every operator with the right role file. -/
theorem issued_genuine {E : Env} (C : Setting S) (hv : Vouched C E pki start) {doc : AttestationDoc} (hi : IssuedDoc pki start doc)
    {m : VersionedManifest} (hm : Measured start m)
    (hpcr : ∀ i, i < 32 → i ≠ 16 → i ≠ 17 → doc.pcr i = some (start.value (UInt16.ofNat i)))
    (hver : ∀ i : Attest.Input, i.manifestHash = m.hash E.prims → doc.pcr 0 = some i.pcr0 →
      doc.pcr 1 = some i.pcr1 → doc.pcr 2 = some i.pcr2 → doc.pcr 3 = some i.pcr3 →
      Attest.verifyManifest E.prims .setup doc i = .ok ())
    {key : Bytes} (hk : doc.publicKey = some key) {path role : String} (hr : RoleIn C.disk path role)
    (h3 : m.enclave.pcr3 = rolePcr3 C.prims role) : GenuineDoc C (pki.signDoc doc) path role m key := by
  have hp : ∀ i, i < 16 → doc.pcr i = some (start.value (UInt16.ofNat i)) := fun i hi =>
    hpcr i (by omega) (by omega) (by omega)
  have hx := hver (expected C.prims m) (by rw [← hv.prims]; rfl) (by rw [hp 0 (by omega)]; exact congrArg some hm.pcr0.symm)
    (by rw [hp 1 (by omega)]; exact congrArg some hm.pcr1.symm) (by rw [hp 2 (by omega)]; exact congrArg some hm.pcr2.symm)
    (by rw [hp 3 (by omega)]; exact congrArg some hm.pcr3.symm)
  rw [← hv.prims] at hx
  obtain ⟨key', hmt⟩ := (Attest.verify_manifest_exact ..).1 hx
  have hkey : key' = key := by
    have := hmt.publicKey
    rw [hk] at this
    exact (Option.some.inj this).symm
  subst hkey
  refine ⟨⟨doc, hv.decode doc hi, issued_wellFormed hi hv.root hv.intermediate, ?_, ?_, hmt⟩, hr, h3⟩
  · obtain ⟨d, hash, key, rfl, -⟩ := hi.issued
    exact hv.chain
  · have := hv.signature doc hi
    obtain ⟨d, hash, key, rfl, -⟩ := hi.issued
    exact this

/-- `boot-standard` accepts exactly the genuine documents. -/
theorem checkBootDoc_iff (C : Setting S) (a : BootArgs) (hs : a.unsafeSkip = false) (m : VersionedManifest) (cose : Bytes) :
    checkBootDoc C a m cose = .ok () ↔ ∃ role key target, GenuineDoc C cose a.pcr3Path role m key ∧
      Public.fromBytes C.prims key = .ok target := by
  unfold checkBootDoc
  rw [hs]
  simp only [ebind_ok, epure_ok, mapStop_ok, role_exact, extractDoc_safe, Bool.false_eq_true, if_false, ephemeralKey_ok,
    checkPcr3_ok, Option.getD_none, verifyManifest_ok, Attest.fromDer_exact]
  constructor
  · rintro ⟨doc, ⟨hd, hw, hch, hsg⟩, role, hr, _, h3, _, ⟨key, hm⟩, k, ⟨b, hb, hk⟩, _⟩
    have : b = key := by
      have := hm.publicKey
      rw [hb] at this
      exact Option.some.inj this
    subst this
    exact ⟨role, b, k, ⟨⟨doc, hd, hw, hch, hsg, hm⟩, hr, h3⟩, hk⟩
  · rintro ⟨role, key, k, ⟨⟨doc, hd, hw, hch, hsg, hm⟩, hr, h3⟩, hk⟩
    exact ⟨doc, ⟨hd, hw, hch, hsg⟩, role, hr, (), h3, (), ⟨key, hm⟩, k, ⟨key, hm.publicKey, hk⟩, trivial⟩

theorem Run.run_ok {S α β : Type} {x : Run S α} {s s' : S} {a : α} {es : List Event} (h : x s = ⟨.ok a, s', es⟩)
    (f : α → Run S β) : (x >>= f) s = ⟨(f a s').result, (f a s').state, es ++ (f a s').events⟩ := by
  show Run.bind x f s = _
  unfold Run.bind
  rw [h]

theorem bootAnswer_some {r : Option Msg} {doc : Bytes} (h : bootAnswer r = some doc) :
    r = some (.bootStandardResponse (.attestation doc)) := by
  unfold bootAnswer at h
  split at h
  · cases h; rfl
  · cases h

theorem bootWithFallback_answer {C : Setting S} {e : Envelope} {pivot cose : Bytes} {s : S}
    (h : (bootWithFallback C e pivot s).result = .ok cose) :
    ∃ m b s', (m = .bootStandardJsonEnvelopeRequest e pivot ∨ m = .bootStandardRequest e pivot) ∧ toWire m .borsh = .ok b ∧
      readAnswer (C.net s' b).2 = some (.bootStandardResponse (.attestation cose)) := by
  have key : ∀ (m : Msg) (s : S) (f : Option Msg → Run S Bytes),
      ((postWire C m .borsh >>= f) s).result = .ok cose →
      (∃ b, toWire m .borsh = .ok b ∧ (f (readAnswer (C.net s b).2) (C.net s b).1).result = .ok cose) ∨
      (f none s).result = .ok cose := by
    intro m s f hf
    rcases postWire_cases C m .borsh f s with ⟨-, hr⟩ | ⟨b, hb, hr⟩
    · rw [hr] at hf
      exact .inr hf
    · rw [hr] at hf
      exact .inl ⟨b, hb, hf⟩
  have second : ∀ s : S, ((postWire C (.bootStandardRequest e pivot) .borsh >>= fun r =>
      Run.lift (orStop (bootAnswer r) (.error .unexpectedProtocolMsgResponse))) s).result = .ok cose →
      ∃ b, toWire (.bootStandardRequest e pivot) .borsh = .ok b ∧
        readAnswer (C.net s b).2 = some (.bootStandardResponse (.attestation cose)) := by
    intro s hs
    rcases key _ _ _ hs with ⟨b, hb, hr⟩ | hr
    · have hr : orStop (bootAnswer (readAnswer (C.net s b).2)) _ = .ok cose := hr
      exact ⟨b, hb, bootAnswer_some (orStop_ok.mp hr)⟩
    · cases hr
  unfold bootWithFallback at h
  rcases key _ _ _ h with ⟨b, hb, hr⟩ | hr
  · cases ha : bootAnswer (readAnswer (C.net s b).2) with
    | some doc =>
      rw [ha] at hr
      have hr : (Except.ok doc : Except Stop Bytes) = .ok cose := hr
      cases hr
      exact ⟨_, b, s, .inl rfl, hb, bootAnswer_some ha⟩
    | none =>
      rw [ha] at hr
      obtain ⟨b', h1, h2⟩ := second _ hr
      exact ⟨_, b', _, .inr rfl, h1, h2⟩
  · obtain ⟨b', h1, h2⟩ := second _ hr
    exact ⟨_, b', _, .inr rfl, h1, h2⟩

/-- A member of the share set at its own machine, about to run `proxy-re-encrypt-share`. -/
structure Holder where
  seed : Bytes
  pair : Pair
  disk : Disk
  rand : P256.SealRandom
  args : ProxyArgs
  input : List String
  share : Bytes

/-- The member this holder is. -/
def Holder.member (p : Prims) (o : Holder) : QuorumMember := ⟨o.args.memberAlias, (o.pair.publicKey p).toBytes⟩

/-- The holder has the two fetched files, its key and encrypted share, the right role and manifest set, leaves the
safety switches alone, and says yes to every question. -/
structure Holder.Ready (p : Prims) (e : Envelope) (der env : Bytes) (o : Holder) : Prop where
  key : Pair.fromMasterSeed p o.seed = .ok o.pair
  rand : o.rand.Ok p
  doc : o.disk.file o.args.docPath = some der
  envelope : o.disk.file o.args.envelopePath = some env
  share : ∃ enc, o.disk.file o.args.sharePath = some enc ∧ o.pair.decrypt p enc = .ok o.share
  nonempty : o.share ≠ []
  small : o.share.length ≤ 1024 * 1024 ∧ o.args.memberAlias.toList.length ≤ 1024 * 1024
  role : ∃ role, RoleIn o.disk o.args.pcr3Path role ∧ e.manifest.enclave.pcr3 = rolePcr3 p role
  approvers : SetIn p o.disk o.args.manifestSetDir e.manifest.manifestSet
  listed : o.member p ∈ e.manifest.shareSet.members
  answers : 4 ≤ o.input.length
  yes : ∀ l ∈ o.input, IsYes l
  space : ∀ path, o.disk.writable path = true
  safe : o.args.unsafeSkip = false ∧ o.args.unsafeEphPath = none ∧ o.args.autoConfirm = false

/-- What the holder's run leaves: an approval and a wrapped share; nothing is sent. -/
def Holder.Hands (C : Setting S) (s : S) (o : Holder) (approval wrapped : Bytes) : Prop :=
  ∃ es, proxyReEncryptShare { C with disk := o.disk, rand := o.rand } o.pair o.args o.input s =
    ⟨.ok (), s, es ++ [.wrote o.args.approvalPath approval, .wrote o.args.wrappedPath wrapped]⟩ ∧ ∀ b, .sent b ∉ es

/-- Someone with both files who runs `post-share`. -/
structure Poster where
  disk : Disk
  wrappedPath : String
  approvalPath : String

/-- The poster has these files. -/
structure Poster.Has (approval wrapped : Bytes) (o : Poster) : Prop where
  wrapped : o.disk.file o.wrappedPath = some wrapped
  approval : o.disk.file o.approvalPath = some approval

/-- `post-share` run by one poster after the other: what each prints, and the state of the enclave at the end. -/
noncomputable def postAll (C : Setting S) : List Poster → S → List (Except Stop Bool) × S
  | [], s => ([], s)
  | o :: os, s =>
    let out := postShare { C with disk := o.disk } o.wrappedPath o.approvalPath s
    let rest := postAll C os out.state
    (out.result :: rest.1, rest.2)

theorem not_sent_interview (qs : List Question) (input : List String) (b : Bytes) : .sent b ∉ (interview qs input).2 := by
  induction qs generalizing input with
  | nil => simp [interview]
  | cons q qs ih =>
    unfold interview
    simp only
    split
    · simp [ih]
    · simp

theorem extent_provision (x : Bytes) (a : Approval) :
    Json.extent (JCodec.msg.enc (.provisionRequest x a)) ≤ 2000 + 12 * x.length + 12 * a.signature.length +
      12 * a.member.pubKey.length + 12 * a.member.aliasName.toList.length := by
  have : JCodec.msg.enc (.provisionRequest x a) =
    .obj [("provisionRequest", .obj [("share", JCodec.hexVec.enc x), ("approval", JCodec.approval.enc a)])] := rfl
  rw [this]
  unfold JCodec.approval JCodec.quorumMember
  extents
  have h1 : "provisionRequest".toList.length = 16 := by decide
  have h2 : "share".toList.length = 5 := by decide
  have h3 : "approval".toList.length = 8 := by decide
  have h4 : "signature".toList.length = 9 := by decide
  have h5 : "member".toList.length = 6 := by decide
  omega

theorem provision_fits (x : Bytes) (a : Approval) (hx : x.length ≤ 1024 * 1024 + 97) (h1 : a.signature.length = 64)
    (h2 : a.member.pubKey.length = 130) (h3 : a.member.aliasName.toList.length ≤ 1024 * 1024) :
    Fits (.provisionRequest x a) := by
  refine fits_small (by rintro _ _ ⟨⟩) ⟨?_, approvalOk a (by omega) (by omega)⟩ (Nat.le_trans (Json.length_canonical _)
    (Nat.le_trans (extent_provision x a) (by omega)))
  show 2 * x.length < Hex.strMaxLength
  rw [show Hex.strMaxLength = 256 * 1024 * 1024 from rfl]
  omega

theorem provisionResponse_fits (b : Bool) : Fits (.provisionResponse b) :=
  fits_small (by rintro _ _ ⟨⟩) trivial (by revert b; decide +kernel)

/-- A ready holder hands over an approval and a wrapped share. -/
theorem ready_hands (C : Setting S) (hv : Vouched C E pki start) (hp : E.prims.Laws) (s : S) {e : Envelope} {der env : Bytes}
    (henv : Envelope.tryFromSliceCompat env = some e) (hca : e.checkApprovals E.prims = .ok ()) {setup : Pair} {sd : Bytes}
    (hk : Pair.fromMasterSeed E.prims sd = .ok setup)
    (hg : ∀ (C' : Setting S) (path role : String), Vouched C' E pki start → 
        RoleIn C'.disk path role → e.manifest.enclave.pcr3 = rolePcr3 C'.prims role →
        GenuineDoc C' der path role e.manifest (setup.publicKey E.prims).toBytes)
    {o : Holder} (h : o.Ready E.prims e der env) : ∃ approval wrapped a, o.Hands C s approval wrapped ∧
      fromJsonSlice JCodec.approval approval = some a ∧ a.member = o.member E.prims ∧
      a.member.Signed E.prims (e.manifest.hash E.prims) a.signature ∧
      setup.decrypt E.prims wrapped = .ok o.share ∧ Fits (.provisionRequest wrapped a) := by
  let C' : Setting S := { C with disk := o.disk, rand := o.rand }
  have hv' : Vouched C' E pki start := ⟨hv.prims, hv.root, hv.intermediate, hv.chain, hv.decode, hv.signature, hv.size⟩
  obtain ⟨role, hr, h3⟩ := h.role
  obtain ⟨enc, henc, hdec⟩ := h.share
  have hpr : C'.prims = E.prims := hv.prims
  have gen := hg C' o.args.pcr3Path role hv' hr (by rw [hpr]; exact h3)
  obtain ⟨hpub, hpl⟩ := P256.public_of_pair E.prims hp _ _ hk
  have hlen : o.share.length < 2 ^ 31 := by have := h.small.1; omega
  obtain ⟨w, hw⟩ := P256.encrypt_total E.prims hp _ o.share _ o.rand hpub h.rand hlen
  have hwl := P256.encrypt_length E.prims hp _ o.share w _ o.rand hpub h.rand hlen hw
  have hsig : (o.pair.sign E.prims (e.manifest.hash E.prims)).length = 64 :=
    hp.sig_length _ (hp.sign_ok _ _ (P256.pair_scalars _ _ _ h.key).2)
  obtain ⟨-, hown⟩ := P256.public_of_pair E.prims hp _ _ h.key
  let a := signApproval E.prims o.pair o.args.memberAlias (e.manifest.hash E.prims)
  obtain ⟨a', t1, t2, t3⟩ := signed_approval E.prims hp o.seed o.pair h.key o.args.memberAlias (e.manifest.hash E.prims)
  have hread : fromJsonSlice JCodec.approval (approvalBytes a) = some a := approval_reads _ (by
    show 2 * (o.pair.sign E.prims (e.manifest.hash E.prims)).length < _; omega) (by
    show 2 * (o.pair.publicKey E.prims).toBytes.length < _; omega)
  have : a' = a := by rw [hread] at t1; exact (Option.some.inj t1).symm
  subst this
  refine ⟨approvalBytes a, w, a, ?_, hread, rfl, t3, ?_, ?_⟩
  · have hchk : proxyChecks C' o.pair o.args = .ok ⟨e, enc, role, setup.publicKey E.prims⟩ :=
      (proxyChecks_iff C' o.pair o.args h.safe.1 h.safe.2.1 ⟨e, enc, role, setup.publicKey E.prims⟩).mpr
        ⟨⟨env, h.envelope, henv⟩, henc, ⟨der, _, h.doc, gen, by rw [hpr]; exact hpub⟩, by rw [hpr]; exact hca,
          by rw [hpr]; exact h.approvers, by rw [hpr]; exact h.listed⟩
    have hin := interview_yes (proxyQuestions e role) o.input (by simpa [proxyQuestions] using h.answers) h.yes
    have hre := Run.lift_ok (S := S) (β := Unit) ((reEncrypt_ok (C := C') (pair := o.pair) (k := setup.publicKey E.prims) (x := enc) (w := w)).mpr
      ⟨o.share, by rw [hpr]; exact hdec, by rw [hpr]; exact hw⟩)
    refine ⟨(interview (proxyQuestions e role) o.input).2, ?_, not_sent_interview _ _⟩
    show proxyReEncryptShare C' o.pair o.args o.input s = _
    unfold proxyReEncryptShare
    rw [Run.lift_ok hchk, confirm_bind, if_neg (by simp [h.safe.2.2]), if_pos hin, hre, write_bind, if_pos (h.space _)]
    unfold write
    rw [if_pos (h.space _), hpr]
  · exact P256.decrypt_encrypt E.prims hp sd o.share w setup o.rand hk h.rand hw
  · exact provision_fits w a (by have := h.small.1; omega) hsig hown h.small.2

theorem postShare_exact (hC : Facing C E) {d : Disk} {wp ap : String} {x approval : Bytes} {a : Approval} {s : St} {r : Bool}
    (h1 : d.file wp = some x) (h2 : d.file ap = some approval) (h3 : fromJsonSlice JCodec.approval approval = some a)
    (hf : Fits (.provisionRequest x a)) (hr : (handle E (.provisionRequest x a) s).1 = .provisionResponse r) :
    (postShare { C with disk := d } wp ap s).result = .ok r ∧
    (postShare { C with disk := d } wp ap s).state = (handle E (.provisionRequest x a) s).2 := by
  obtain ⟨b, -, hpost⟩ := post_fits (C := { C with disk := d }) hC (.provisionRequest x a) s hf
    (by rw [hr]; exact provisionResponse_fits r)
  have happ : readShareApproval d ap = .ok a := by
    unfold readShareApproval
    rw [h2]
    show orStop (fromJsonSlice JCodec.approval approval) _ = _
    rw [h3]
    rfl
  unfold postShare
  rw [Run.lift_ok (a := x) (by show orStop (d.file wp) _ = _; rw [h1]; rfl), Run.lift_ok happ, Run.run_ok hpost, hr]
  exact ⟨rfl, rfl⟩

theorem postAll_exact (hC : Facing C E) {os : List Poster} {posts : List (Bytes × Approval)}
    (h : List.Forall₂ (fun o x => ∃ approval, Poster.Has approval x.1 o ∧
      fromJsonSlice JCodec.approval approval = some x.2 ∧ Fits (.provisionRequest x.1 x.2)) os posts)
    (s : St) (rs : List Bool)
    (hr : answers E s (posts.map fun x => .provisionRequest x.1 x.2) = rs.map .provisionResponse) :
    postAll C os s = (rs.map .ok, after E s (posts.map fun x => .provisionRequest x.1 x.2)) := by
  induction h generalizing s rs with
  | nil =>
    cases rs with
    | nil => rfl
    | cons r rs => cases hr
  | @cons o x os posts hx _ ih =>
    obtain ⟨approval, g1, g2, g3⟩ := hx
    cases rs with
    | nil => cases hr
    | cons r rs =>
      simp only [List.map_cons, answers, List.cons.injEq] at hr
      obtain ⟨k1, k2⟩ := postShare_exact hC g1.wrapped g1.approval g2 g3 hr.1
      simp only [postAll, k1, k2, ih _ _ hr.2, List.map_cons, after]

/-! ## Property theorems -/

/-- C51: whoever answers, `boot-standard` reports success only for a genuine document of an instance with the operator's
role that shows the manifest of the envelope in the named file and carries a usable ephemeral key; that document is the
answer to a boot request for that envelope and pivot. -/
theorem boot_standard_safe (C : Setting S) (a : BootArgs) (hs : a.unsafeSkip = false) (s : S)
    (h : (bootStandard C a s).result = .ok ()) : ∃ e pivot cose role key target, EnvelopeIn C.disk a.envelopePath e ∧
      C.disk.file a.pivotPath = some pivot ∧
      (∃ m b s', (m = .bootStandardJsonEnvelopeRequest e pivot ∨ m = .bootStandardRequest e pivot) ∧ toWire m .borsh = .ok b ∧
        readAnswer (C.net s' b).2 = some (.bootStandardResponse (.attestation cose))) ∧
      GenuineDoc C cose a.pcr3Path role e.manifest key ∧ Public.fromBytes C.prims key = .ok target := by
  unfold bootStandard at h
  rcases Run.lift_cases (orStop (C.disk.file a.pivotPath) (.error .failedToReadPivot)) _ s with ⟨x, hx, hr⟩ | ⟨pivot, hx, hr⟩
  · rw [hr] at h; cases h
  rw [hr] at h
  rcases Run.lift_cases (readEnvelope C.disk a.envelopePath) _ s with ⟨x, hx, hr⟩ | ⟨e, he, hr⟩
  · rw [hr] at h; cases h
  rw [hr, Run.bind_result] at h
  cases hb : (bootWithFallback C e pivot s).result with
  | error x => rw [hb] at h; cases h
  | ok cose =>
    rw [hb] at h
    have h : checkBootDoc C a e.manifest cose = .ok () := h
    obtain ⟨role, key, target, h1, h2⟩ := (checkBootDoc_iff C a hs _ _).mp h
    exact ⟨e, pivot, cose, role, key, target, readEnvelope_iff.mp he, orStop_ok.mp hx, bootWithFallback_answer hb, h1, h2⟩

/-- C51: on a waiting enclave, `boot-standard` of an envelope that the manifest set has approved, for a manifest that
names the pivot and the measured image and role, succeeds and leaves an enclave waiting for shares, with exactly that
manifest and pivot. -/
theorem boot_standard_boots (hC : Facing C E) (hv : Vouched C E pki start) (H : History E fs0 h s)
    (hs : s.phase = .waitingForBootInstruction) (hd : HonestDevice E pki start) (hio : ReliableFiles E) {setup live : Pair}
    (h0 : Pair.fromMasterSeed E.prims (E.seedAt 0) = .ok setup) (h1 : Pair.fromMasterSeed E.prims (E.seedAt 1) = .ok live)
    {e : Envelope} {pivot : Bytes} (a : BootArgs) (hin : EnvelopeIn C.disk a.envelopePath e) (he : e.Ok)
    (hp : C.disk.file a.pivotPath = some pivot) (ha : e.checkApprovals E.prims = .ok ()) (hn : e.shareSetApprovals = [])
    (hh : E.prims.sha256 pivot = e.manifest.pivotHash) (hm : Measured start e.manifest) {role : String}
    (hr : RoleIn C.disk a.pcr3Path role) (h3 : e.manifest.enclave.pcr3 = rolePcr3 C.prims role) {b : Bytes}
    (hw : toWire (.bootStandardJsonEnvelopeRequest e pivot) .borsh = .ok b) (hb : b.length ≤ 128 * 1024 * 1024)
    (hsafe : a.unsafeSkip = false) :
    ∃ s' r, bootStandard C a s = ⟨.ok (), s', [.sent b]⟩ ∧
      History E fs0 (h ++ [(.bootStandardJsonEnvelopeRequest e pivot, r)]) s' ∧
      s'.phase = .waitingForQuorumShards ∧ Installed E e pivot s'.files ∧
      Holds s'.files E.paths.ephemeral (Hex.encode setup.seed) := by
  have hbw : (Msg.bootStandardJsonEnvelopeRequest e pivot).BootsWith e pivot := .inr (.inl rfl)
  obtain ⟨⟨r, g1⟩, g2, g3, g4, -⟩ := approved_boot_completes H hs hd hio he ha hn hh h0 h1 hbw
  obtain ⟨setup', doc, k1, k2, k3, k4, k5, k6, k7⟩ := boot_document H hd he hbw g1
  rw [h0, Except.ok.injEq] at k1
  subst k1
  have hg := issued_genuine C hv k5 hm k6 k7 k3 hr h3
  have hsz := hv.size doc k5
  have g1 : (handle E (.bootStandardJsonEnvelopeRequest e pivot) s).1 =
      .bootStandardResponse (.attestation (pki.signDoc doc)) := by
    rcases g1 with g1 | g1
    · rw [g1, k2]
    · exfalso
      rw [handle_standard hs (.inr rfl)] at g1
      revert g1
      cases Services.putManifestAndPivot E e pivot s with
      | mk r s => cases r <;> intro hr <;> cases hr
  obtain ⟨-, q, -⟩ := boot_request_exact hC e pivot s hw hb
  have hrun := q _ g1 (by omega)
  refine ⟨(handle E (.bootStandardJsonEnvelopeRequest e pivot) s).2, _, ?_, H.step he, g2, g3, g4⟩
  unfold bootStandard
  rw [Run.lift_ok (a := pivot) (by rw [hp]; rfl), Run.lift_ok (readEnvelope_iff.mpr hin), Run.run_ok hrun]
  have hc := (checkBootDoc_iff C a hsafe e.manifest (pki.signDoc doc)).mpr ⟨role, _, _, hg, by
    rw [hv.prims]; exact (P256.public_of_pair _ H.env.laws _ _ h0).1⟩
  rw [hc]
  rfl

/-- C51: on an enclave waiting for shares, `get-attestation-doc` writes two files: the installed envelope, and a document
that is genuine for it to every operator with the right role file and carries the setup key. -/
theorem get_attestation_doc_genuine (hC : Facing C E) (H : History E fs0 h s)
    (hs : s.phase = .waitingForQuorumShards) (hd : HonestDevice E pki start) (hio : ReliableFiles E) {setup : Pair}
    (h0 : Pair.fromMasterSeed E.prims (E.seedAt 0) = .ok setup) (hsz : ∀ doc, IssuedDoc pki start doc → (pki.signDoc doc).length ≤ 1024 * 1024)
    {e : Envelope} {pivot : Bytes} (hin : Installed E e pivot s.files)
    (hf : ∀ doc : Bytes, doc.length ≤ 1024 * 1024 → Fits (.liveAttestationDocResponse (.attestation doc) (some e)))
    (docPath envelopePath : String) (hw : ∀ path, C.disk.writable path = true) :
    ∃ s' der env r b, getAttestationDoc C docPath envelopePath s =
        ⟨.ok (), s', [.sent b, .wrote docPath der, .wrote envelopePath env]⟩ ∧
      History E fs0 (h ++ [(.liveAttestationDocRequest, r)]) s' ∧ s'.phase = .waitingForQuorumShards ∧ s'.files = s.files ∧
      Envelope.tryFromSliceCompat env = some e ∧
      ∀ {S : Type} (C' : Setting S) (path role : String), Vouched C' E pki start → Measured start e.manifest →
        RoleIn C'.disk path role → e.manifest.enclave.pcr3 = rolePcr3 C'.prims role →
        GenuineDoc C' der path role e.manifest (setup.publicKey E.prims).toBytes := by
  obtain ⟨e', pivot', key, doc, i1, i2, i3, i4, i5, i6, i7, -⟩ := attestation_verifies H hd hio (n := 0) (kind := .setup)
    (by rw [hs]; rfl)
  obtain ⟨rfl, rfl⟩ := hin.unique i1
  rw [h0, Except.ok.injEq] at i2
  subst i2
  obtain ⟨b, -, hpost⟩ := post_fits hC .liveAttestationDocRequest s
    (fits_small (by rintro _ _ ⟨⟩) trivial (by decide +kernel)) (by rw [i3]; exact hf _ (hsz doc i5))
  have hq := read_only_requests E .liveAttestationDocRequest s (by decide)
  refine ⟨(handle E .liveAttestationDocRequest s).2, pki.signDoc doc, Json.writeBytes e.encUntagged, _, b, ?_,
    H.step trivial, by rw [hq.phase, hs], hq.files, plain_roundtrip e hin.wellFormed, ?_⟩
  · unfold getAttestationDoc
    rw [Run.run_ok hpost, i3, Run.lift_ok (x := orStop (liveAnswer (some (.liveAttestationDocResponse (.attestation (pki.signDoc doc))
      (some e)))) .panic) (a := (pki.signDoc doc, e)) rfl, write_bind, if_pos (hw _)]
    unfold write
    rw [if_pos (hw _)]
    rfl
  · intro S C' path role hv hm hr h3
    exact issued_genuine C' hv i5 hm i6 i7 i4 hr h3

/-- C51: an honest deployment provisions the enclave. Take a freshly started enclave over an honest device, and an envelope
approved by its manifest set, for the measured image, the operators' role and the given pivot. Then `boot-standard`
succeeds; `get-attestation-doc` writes two files; any holders of shares of the manifest's quorum key, as many as the
share set's threshold, who take these files to their machines get an approval and a wrapped share from
`proxy-re-encrypt-share`; and posting these with `post-share`, each from anywhere, is answered with success, at the last
one with the announcement that the key is reconstructed, and the enclave is provisioned with exactly that key. -/
theorem deployment_provisions (hC : Facing C E) (hv : Vouched C E pki start) (hE : E.Ok) (hf : Fresh E.paths fs0)
    (hd : HonestDevice E pki start) (hio : ReliableFiles E) {setup live : Pair}
    (h0 : Pair.fromMasterSeed E.prims (E.seedAt 0) = .ok setup) (h1 : Pair.fromMasterSeed E.prims (E.seedAt 1) = .ok live)
    {e : Envelope} {pivot : Bytes} (a : BootArgs) (hin : EnvelopeIn C.disk a.envelopePath e) (he : e.Ok)
    (hp : C.disk.file a.pivotPath = some pivot) (ha : e.checkApprovals E.prims = .ok ()) (hn : e.shareSetApprovals = [])
    (hh : E.prims.sha256 pivot = e.manifest.pivotHash) (hm : Measured start e.manifest) {role : String}
    (hr : RoleIn C.disk a.pcr3Path role) (h3 : e.manifest.enclave.pcr3 = rolePcr3 C.prims role) {b : Bytes}
    (hwire : toWire (.bootStandardJsonEnvelopeRequest e pivot) .borsh = .ok b) (hb : b.length ≤ 128 * 1024 * 1024)
    (hsafe : a.unsafeSkip = false) (hspace : ∀ path, C.disk.writable path = true)
    (hfits : ∀ doc : Bytes, doc.length ≤ 1024 * 1024 → Fits (.liveAttestationDocResponse (.attestation doc) (some e)))
    (docPath envelopePath : String) :
    ∃ s1 s2 der env b', bootStandard C a (St.initial fs0) = ⟨.ok (), s1, [.sent b]⟩ ∧
      getAttestationDoc C docPath envelopePath s1 =
        ⟨.ok (), s2, [.sent b', .wrote docPath der, .wrote envelopePath env]⟩ ∧
      ∀ (holders : List Holder) (seed : Bytes) (key : Pair), (∀ o ∈ holders, o.Ready E.prims e der env) →
        holders.length = max 1 e.manifest.shareSet.threshold.toNat →
        Shamir.sharesReconstruct (holders.map (·.share)) = .ok seed → seed.length = 32 →
        Pair.fromMasterSeed E.prims seed = .ok key →
        (key.publicKey E.prims).toBytes = e.manifest.namespaceOf.quorumKey →
        ∃ files : List (Bytes × Bytes), List.Forall₂ (fun o f => o.Hands C s2 f.1 f.2) holders files ∧
          ∀ posters : List Poster, List.Forall₂ (fun o f => Poster.Has f.1 f.2 o) posters files →
            (postAll C posters s2).1 = List.replicate (holders.length - 1) (.ok false) ++ [.ok true] ∧
            (postAll C posters s2).2.phase = .quorumKeyProvisioned ∧
            Holds (postAll C posters s2).2.files E.paths.quorum (Hex.encode seed) := by
  obtain ⟨s1, r1, b1, H1, p1, i1, e1⟩ := boot_standard_boots hC hv (History.start hE hf) rfl hd hio h0 h1 a hin he hp ha hn hh hm
    hr h3 hwire hb hsafe
  obtain ⟨s2, der, env, r2, b', b2, H2, p2, f2, henv, hg⟩ := get_attestation_doc_genuine hC H1 p1 hd hio h0 hv.size i1 hfits
    docPath envelopePath hspace
  rw [← f2] at i1 e1
  refine ⟨s1, s2, der, env, b', b1, b2, ?_⟩
  intro holders seed key hready hlen hrec h32 hkey hname
  have hall : ∃ items : List (Bytes × Bytes × Approval), List.Forall₂ (fun o x => Holder.Hands C s2 o x.1 x.2.1 ∧
      fromJsonSlice JCodec.approval x.1 = some x.2.2 ∧ x.2.2.member = o.member E.prims ∧
      x.2.2.member.Signed E.prims (e.manifest.hash E.prims) x.2.2.signature ∧
      setup.decrypt E.prims x.2.1 = .ok o.share ∧ Fits (.provisionRequest x.2.1 x.2.2)) holders items := by
    clear hlen hrec
    induction holders with
    | nil => exact ⟨[], .nil⟩
    | cons o os ih =>
      obtain ⟨items, hi⟩ := ih fun o ho => hready o (List.mem_cons_of_mem _ ho)
      obtain ⟨ap, w, a, q⟩ := ready_hands C hv hE.laws s2 henv ha h0 (fun C' p r hv' hr' h3' => hg C' p r hv' hm hr' h3')
        (hready o (List.mem_cons_self ..))
      exact ⟨(ap, w, a) :: items, .cons q hi⟩
  obtain ⟨items, hitems⟩ := hall
  refine ⟨items.map fun x => (x.1, x.2.1), List.forall₂_map_right_iff.mpr (hitems.imp fun _ _ q => q.1), ?_⟩
  intro posters hposters
  let posts : List (Bytes × Approval) := items.map (·.2)
  have hposted : posted ([] ++ [(Msg.bootStandardJsonEnvelopeRequest e pivot, r1)] ++ [(.liveAttestationDocRequest, r2)]) = [] := rfl
  have hseed : Pair.fromMasterSeed E.prims setup.seed = .ok setup := by
    rw [P256.pair_seed E.prims _ _ h0]; exact h0
  have hposts : posts.length = max 1 e.manifest.shareSet.threshold.toNat := by
    rw [← hlen, List.length_map, hitems.length_eq]
  obtain ⟨g1, g2, -, g4⟩ := enough_shares_provision H2 p2 hposted hio i1 hseed e1 (posts := posts)
    (by
      intro x hx
      obtain ⟨y, hy, rfl⟩ := List.mem_map.mp hx
      have : ∀ (l : List Holder) (m : List (Bytes × Bytes × Approval)),
          List.Forall₂ (fun o x => Holder.Hands C s2 o x.1 x.2.1 ∧
            fromJsonSlice JCodec.approval x.1 = some x.2.2 ∧ x.2.2.member = o.member E.prims ∧
            x.2.2.member.Signed E.prims (e.manifest.hash E.prims) x.2.2.signature ∧
            setup.decrypt E.prims x.2.1 = .ok o.share ∧ Fits (.provisionRequest x.2.1 x.2.2)) l m →
          (∀ o ∈ l, o.Ready E.prims e der env) → ∀ y ∈ m, y.2.2.member.Signed E.prims (e.manifest.hash E.prims) y.2.2.signature ∧
            y.2.2.member ∈ e.manifest.shareSet.members := by
        intro l m hlm
        induction hlm with
        | nil => intro _ y hy; cases hy
        | cons q _ ih =>
          intro hl y hy
          rcases List.mem_cons.mp hy with rfl | hy
          · exact ⟨q.2.2.2.1, by rw [q.2.2.1]; exact (hl _ (List.mem_cons_self ..)).listed⟩
          · exact ih (fun o ho => hl o (List.mem_cons_of_mem _ ho)) y hy
      exact this _ _ hitems hready y hy)
    (shares := holders.map (·.share))
    (by
      refine List.forall₂_map_left_iff.mpr (List.forall₂_map_right_iff.mpr ?_)
      have : ∀ (l : List Holder) (m : List (Bytes × Bytes × Approval)),
          List.Forall₂ (fun o x => Holder.Hands C s2 o x.1 x.2.1 ∧
            fromJsonSlice JCodec.approval x.1 = some x.2.2 ∧ x.2.2.member = o.member E.prims ∧
            x.2.2.member.Signed E.prims (e.manifest.hash E.prims) x.2.2.signature ∧
            setup.decrypt E.prims x.2.1 = .ok o.share ∧ Fits (.provisionRequest x.2.1 x.2.2)) l m →
          (∀ o ∈ l, o.Ready E.prims e der env) →
          List.Forall₂ (fun y o => setup.decrypt E.prims y.2.1 = .ok (Holder.share o) ∧ Holder.share o ≠ []) m l := by
        intro l m hlm
        induction hlm with
        | nil => intro _; exact .nil
        | cons q _ ih =>
          intro hl
          exact .cons ⟨q.2.2.2.2.1, (hl _ (List.mem_cons_self ..)).nonempty⟩ (ih fun o ho => hl o (List.mem_cons_of_mem _ ho))
      exact this _ _ hitems hready)
    hposts hrec h32 hkey hname
  have hpall := postAll_exact (C := C) hC (os := posters) (posts := posts) (by
      refine List.forall₂_map_right_iff.mpr ?_
      have hq := List.forall₂_map_right_iff.mp hposters
      have : ∀ (l : List Holder) (m : List (Bytes × Bytes × Approval)) (ps : List Poster),
          List.Forall₂ (fun o x => Holder.Hands C s2 o x.1 x.2.1 ∧
            fromJsonSlice JCodec.approval x.1 = some x.2.2 ∧ x.2.2.member = o.member E.prims ∧
            x.2.2.member.Signed E.prims (e.manifest.hash E.prims) x.2.2.signature ∧
            setup.decrypt E.prims x.2.1 = .ok o.share ∧ Fits (.provisionRequest x.2.1 x.2.2)) l m →
          List.Forall₂ (fun o x => Poster.Has x.1 x.2.1 o) ps m →
          List.Forall₂ (fun o x => ∃ approval, Poster.Has approval x.2.1 o ∧
            fromJsonSlice JCodec.approval approval = some x.2.2 ∧ Fits (.provisionRequest x.2.1 x.2.2)) ps m := by
        intro l m ps hlm
        induction hlm generalizing ps with
        | nil => intro h; cases h; exact .nil
        | cons q _ ih =>
          intro h
          cases h with
          | cons g h => exact .cons ⟨_, g, q.2.1, q.2.2.2.2.2⟩ (ih _ h)
      exact this _ _ _ hitems hq)
    s2 (List.replicate (holders.length - 1) false ++ [true]) (by
      rw [g4, show posts.length = holders.length by rw [List.length_map, hitems.length_eq]]
      simp)
  rw [hpall]
  exact ⟨by simp, g1, g2⟩

end Qos.Client
