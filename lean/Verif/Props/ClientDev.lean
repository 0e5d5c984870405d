import Verif.Props.ClientTools
import Verif.Props.ClientDeployToy
import Verif.Props.ToySize
/-!
# C53: `dangerous-dev-boot` provisions a fresh enclave

One command, four requests: boot with a manifest approved by the fresh quorum key itself, and both shares of that key.
-/
namespace Qos.Client
open P256 (Pair Public toyPrims toyLaws)
open Wire Host StateMachine Lifecycle

variable {E : Env} {fs0 : Files} {h : List (Msg × Msg)} {s : St} {C : Setting St} {pki : MockNsm.Pki} {start : MockNsm.State}

theorem bridge_ok (b : BridgeConfig) : JCodec.bridgeConfig.ok b := by
  cases b with
  | server port host => exact ⟨UInt16.toNat_lt _, trivial⟩
  | client port host => cases host <;> exact ⟨UInt16.toNat_lt _, trivial⟩

/-- The envelope of `dangerous-dev-boot` can be sent and stored. -/
theorem devEnvelope_ok {p : Prims} (hp : p.Laws) {seed : Bytes} {pair : Pair} (hk : Pair.fromMasterSeed p seed = .ok pair)
    {root : Bytes} (hr : root.length ≤ 1024 * 1024) (a : DevArgs) (pivot : Bytes) : (devEnvelope p root pair a pivot).Ok := by
  have hlen := (P256.public_of_pair p hp seed pair hk).2
  have hsig (x : Bytes) : (pair.sign p x).length = 64 := hp.sig_length _ (hp.sign_ok _ _ (P256.pair_scalars p seed pair hk).2)
  have hm : ∀ m ∈ [devMember p pair], JCodec.quorumMember.ok m := by
    intro m hm
    rw [List.mem_singleton.mp hm]
    exact ⟨trivial, hexVec_ok (Nat.le_of_eq hlen)⟩
  have h48 : (List.replicate 48 (0 : UInt8)).length ≤ 130 := by decide
  refine ⟨⟨⟨trivial, UInt32.toNat_lt _, hexVec_ok (Nat.le_of_eq hlen)⟩,
      ⟨hp.sha256_length _, ?_, (fun b _ => bridge_ok b), trivial, (fun _ _ => trivial)⟩,
      ⟨UInt32.toNat_lt _, hm⟩, ⟨UInt32.toNat_lt _, hm⟩, ⟨hexVec_ok h48, hexVec_ok h48, hexVec_ok h48,
        hexVec_ok h48, ?_, trivial⟩,
      ⟨UInt32.toNat_lt _, (fun _ h => nomatch h)⟩⟩, ?_, (fun _ h => nomatch h)⟩
  · show a.restart ∈ [RestartPolicy.never, RestartPolicy.always]
    cases a.restart <;> decide
  · show 2 * root.length < Hex.strMaxLength
    rw [show Hex.strMaxLength = 256 * 1024 * 1024 from rfl]
    omega
  · intro x hx
    rw [List.mem_singleton.mp hx]
    refine approvalOk _ ?_ ?_
    · show 2 * (pair.sign p _).length < _
      rw [hsig]; decide
    · show 2 * (pair.publicKey p).toBytes.length < _
      rw [hlen]; decide

theorem devMember_signed {p : Prims} (hp : p.Laws) {seed : Bytes} {pair : Pair} (hk : Pair.fromMasterSeed p seed = .ok pair)
    (hash : Bytes) : (devMember p pair).Signed p hash (pair.sign p hash) := by
  rw [signed_iff]
  exact ⟨_, (P256.public_of_pair p hp seed pair hk).1, P256.pair_sign_verifies p hp seed hash pair hk⟩

theorem dev_approved {p : Prims} (hp : p.Laws) {seed : Bytes} {pair : Pair} (hk : Pair.fromMasterSeed p seed = .ok pair)
    (root : Bytes) (a : DevArgs) (pivot : Bytes) : (devEnvelope p root pair a pivot).checkApprovals p = .ok () := by
  have hs := devMember_signed hp hk ((VersionedManifest.v1 (devManifest p root pair a pivot)).hash p)
  refine check_approvals_complete p _ ⟨⟨?_, List.nodup_singleton _, List.nodup_singleton _, List.nodup_singleton _⟩, ?_, ?_,
    List.nodup_singleton _, Nat.le_refl _⟩ ?_
  · intro m hm
    rw [List.mem_singleton.mp hm]
    exact hs.1
  · intro x hx
    rw [List.mem_singleton.mp hx]
    exact hs
  · intro x hx
    rw [List.mem_singleton.mp hx]
    exact List.mem_singleton.mpr rfl
  · intro x hx y hy _
    rw [List.mem_singleton.mp hx, List.mem_singleton.mp hy]

/-- One share reaches the enclave and the expected answer comes back. -/
theorem devShare_exact (hC : Facing C E) {target : Public} {r : P256.SealRandom} {share x : Bytes} {a : Approval} {b : Bool}
    (hx : target.encrypt C.prims r share = .ok x) (hf : Fits (.provisionRequest x a))
    (ha : (handle E (.provisionRequest x a) s).1 = .provisionResponse b) :
    ∃ w, devShare C target r share a b s = ⟨.ok (), (handle E (.provisionRequest x a) s).2, [.sent w]⟩ := by
  obtain ⟨w, -, hw⟩ := post_fits hC (.provisionRequest x a) s hf (by rw [ha]; exact provisionResponse_fits b)
  refine ⟨w, ?_⟩
  unfold devShare
  rw [Run.lift_ok (a := x) (mapStop_ok.mpr hx), Run.run_ok hw, ha]
  cases b <;> rfl

/-- C53: on a fresh enclave whose documents can be decoded (nothing else about them is checked), `dangerous-dev-boot`
succeeds. It sends three requests, and afterwards the enclave is provisioned with the generated key, and the pivot in the
named file is installed with the given arguments, restart policy and bridges. -/
theorem dev_boot_provisions (hC : Facing C E) (hE : E.Ok) (hf : Fresh E.paths fs0) (hprims : C.prims = E.prims)
    (hdec : ∀ doc, IssuedDoc pki start doc → C.pki.decode (pki.signDoc doc) = .ok doc)
    (hsize : ∀ doc, IssuedDoc pki start doc → (pki.signDoc doc).length ≤ 1024 * 1024)
    (hd : HonestDevice E pki start) (hio : ReliableFiles E) {setup live quorum : Pair}
    (h0 : Pair.fromMasterSeed E.prims (E.seedAt 0) = .ok setup) (h1 : Pair.fromMasterSeed E.prims (E.seedAt 1) = .ok live)
    (r : DevRandom) (h32 : r.seed.length = 32) (hq : Pair.fromMasterSeed C.prims r.seed = .ok quorum)
    (hr1 : r.first.Ok C.prims) (hr2 : r.second.Ok C.prims) (hroot : C.awsRoot.length ≤ 1024 * 1024) (a : DevArgs)
    (hno : a.ephPath = none) {pivot : Bytes} (hp : C.disk.file a.pivotPath = some pivot) {b : Bytes}
    (hw : toWire (.bootStandardJsonEnvelopeRequest (devEnvelope C.prims C.awsRoot quorum a pivot) pivot) .borsh = .ok b)
    (hb : b.length ≤ 128 * 1024 * 1024) :
    ∃ s b1 b2 e, dangerousDevBoot C r a (St.initial fs0) = ⟨.ok (), s, [.sent b, .sent b1, .sent b2]⟩ ∧
      s.phase = .quorumKeyProvisioned ∧ Holds s.files E.paths.quorum (Hex.encode r.seed) ∧ Installed E (.v1 e) pivot s.files ∧
      e.manifest.pivot.args = a.args ∧ e.manifest.pivot.restart = a.restart ∧ e.manifest.pivot.bridgeConfig = a.bridges ∧
      e.manifest.pivot.debugMode = false ∧ e.manifest.namespace.quorumKey = (quorum.publicKey E.prims).toBytes := by
  have hlaws : C.prims.Laws := hprims ▸ hE.laws
  let e : Envelope := devEnvelope C.prims C.awsRoot quorum a pivot
  have he : e.Ok := devEnvelope_ok hlaws hq hroot a pivot
  have hbw : (Msg.bootStandardJsonEnvelopeRequest e pivot).BootsWith e pivot := .inr (.inl rfl)
  have H0 := History.start (E := E) hE hf
  obtain ⟨⟨r0, g1⟩, g2, g3, g4, -⟩ := approved_boot_completes H0 rfl hd hio he
    (by rw [← hprims]; exact dev_approved hlaws hq C.awsRoot a pivot) rfl (by rw [← hprims]; rfl) h0 h1 hbw
  obtain ⟨setup', doc, k1, k2, k3, -, k5, -, -⟩ := boot_document H0 hd he hbw g1
  rw [h0, Except.ok.injEq] at k1
  subst k1
  have g1 : (handle E (.bootStandardJsonEnvelopeRequest e pivot) (St.initial fs0)).1 =
      .bootStandardResponse (.attestation (pki.signDoc doc)) := by
    rcases g1 with g1 | g1
    · rw [g1, k2]
    · exfalso
      rw [handle_standard rfl (.inr rfl)] at g1
      revert g1
      cases Services.putManifestAndPivot E e pivot (St.initial fs0) with
      | mk r s => cases r <;> intro hr <;> cases hr
  obtain ⟨-, q, -⟩ := boot_request_exact hC e pivot (St.initial fs0) hw hb
  have hrun := q _ g1 (by have := hsize doc k5; omega)
  have H1 := H0.step he (m := .bootStandardJsonEnvelopeRequest e pivot)
  -- the two shares
  obtain ⟨all, hall⟩ := (Shamir.generate_iff quorum.seed 2 2 r.coeffs).2
    ⟨(by rw [P256.pair_seed _ _ _ hq]; intro hn; rw [hn] at h32; cases h32), by decide, by decide, by decide⟩
  obtain ⟨n1, n2, n3⟩ := Shamir.shares_shape hall
  have hrec := Shamir.threshold_shares_reconstruct hall (List.Nodup.of_map _ n2) (fun _ h => h) (by omega)
  rw [P256.pair_seed _ _ _ hq] at hrec n3
  match all, hall, n1, n3, hrec with
  | [x1, x2], hall, _, n3, hrec =>
    have l1 := (n3 x1 (List.mem_cons_self ..)).1
    have l2 := (n3 x2 (List.mem_cons_of_mem _ (List.mem_cons_self ..))).1
    obtain ⟨pk, pl⟩ := P256.public_of_pair E.prims hE.laws _ _ h0
    obtain ⟨c1, hc1⟩ := P256.encrypt_total C.prims hlaws _ x1 _ r.first (hprims ▸ pk) hr1 (by omega)
    obtain ⟨c2, hc2⟩ := P256.encrypt_total C.prims hlaws _ x2 _ r.second (hprims ▸ pk) hr2 (by omega)
    have m1 := P256.encrypt_length C.prims hlaws _ x1 c1 _ r.first (hprims ▸ pk) hr1 (by omega) hc1
    have m2 := P256.encrypt_length C.prims hlaws _ x2 c2 _ r.second (hprims ▸ pk) hr2 (by omega) hc2
    have d1 := P256.decrypt_encrypt C.prims hlaws (E.seedAt 0) x1 c1 setup r.first (hprims ▸ h0) hr1 (hprims ▸ hc1)
    have d2 := P256.decrypt_encrypt C.prims hlaws (E.seedAt 0) x2 c2 setup r.second (hprims ▸ h0) hr2 (hprims ▸ hc2)
    let ap : Approval := ⟨quorum.sign C.prims (e.manifest.hash C.prims), devMember C.prims quorum⟩
    have hsig : ap.signature.length = 64 := hlaws.sig_length _ (hlaws.sign_ok _ _ (P256.pair_scalars C.prims _ quorum hq).2)
    have hmem : ap.member.pubKey.length = 130 := (P256.public_of_pair C.prims hlaws _ _ hq).2
    have hname : ap.member.aliasName.toList.length ≤ 1024 * 1024 :=
      (by decide : "DANGEROUS_DEV_BOOT_MEMBER".toList.length ≤ 1024 * 1024)
    have f1 : Fits (.provisionRequest c1 ap) := provision_fits c1 ap (by omega) hsig hmem hname
    have f2 : Fits (.provisionRequest c2 ap) := provision_fits c2 ap (by omega) hsig hmem hname
    have hseed : Pair.fromMasterSeed E.prims setup.seed = .ok setup := by
      rw [P256.pair_seed E.prims _ _ h0]; exact h0
    obtain ⟨a1, a2, a3, a4⟩ := enough_shares_provision H1 g2 rfl hio g3 hseed g4 (posts := [(c1, ap), (c2, ap)])
      (by
        intro x hx
        have : x.2 = ap := by
          rcases List.mem_cons.mp hx with rfl | hx
          · rfl
          · rw [List.mem_singleton.mp hx]
        rw [this, ← hprims]
        exact ⟨devMember_signed hlaws hq _, List.mem_singleton.mpr rfl⟩)
      (shares := [x1, x2])
      (.cons ⟨hprims ▸ d1, by rintro rfl; cases l1⟩ (.cons ⟨hprims ▸ d2, by rintro rfl; cases l2⟩ .nil))
      rfl hrec h32 (hprims ▸ hq) (by rw [← hprims]; rfl)
    simp only [List.map_cons, List.map_nil, answers, after, List.length_cons, List.length_nil, Nat.reduceAdd, Nat.reduceSub,
      List.replicate, List.cons_append, List.nil_append, List.cons.injEq, and_true] at a1 a2 a3 a4
    obtain ⟨w1, e1⟩ := devShare_exact hC hc1 f1 a4.1
    obtain ⟨w2, e2⟩ := devShare_exact hC hc2 f2 a4.2
    refine ⟨_, w1, w2, ⟨devManifest C.prims C.awsRoot quorum a pivot, _, _⟩, ?_, a1, a2, a3, rfl, rfl, rfl, rfl, by rw [← hprims]; rfl⟩
    have hkey : devKey C.prims r = .ok (quorum, x1, x2) := by
      unfold devKey
      simp only [ebind_ok, mapStop_ok, epure_ok]
      exact ⟨quorum, hq, _, hall, _, rfl, rfl⟩
    unfold dangerousDevBoot
    rw [Run.lift_ok hkey, Run.lift_ok (a := pivot) (by rw [hp]; rfl)]
    show (bootWithFallback C e pivot >>= _) _ = _
    rw [Run.run_ok hrun, Run.lift_ok (a := doc) (by unfold extractDoc; rw [if_pos rfl, hdec doc k5]; rfl),
      Run.lift_ok (a := setup.publicKey E.prims) (by rw [hno]; exact ephemeralKey_ok.mpr ⟨_, k3, hprims ▸ pk⟩)]
    rw [hprims] at e1 e2
    have hrest := Run.run_ok e1 fun _ => devShare C (setup.publicKey E.prims) r.second x2 ap true
    rw [e2] at hrest
    exact congrArg (fun x => (⟨x.result, x.state, [.sent b] ++ x.events⟩ : Out St Unit)) hrest

/-! ## What success tells the caller, whoever answers -/

theorem post_last {S : Type} (C : Setting S) (m : Msg) (s : S) (x : Msg) (h : (post C m s).result = .ok (some x)) :
    ∃ s' b, readAnswer (C.net s' b).2 = some x ∧ (post C m s).state = (C.net s' b).1 := by
  have hw (enc : Encoding) (s : S) (x : Msg) (h : (postWire C m enc s).result = .ok (some x)) :
      ∃ s' b, readAnswer (C.net s' b).2 = some x ∧ (postWire C m enc s).state = (C.net s' b).1 := by
    unfold postWire at h ⊢
    cases ht : toWire m enc with
    | error e => rw [ht] at h; cases h
    | ok b =>
      rw [ht] at h
      exact ⟨s, b, Except.ok.inj h, rfl⟩
  unfold post at h ⊢
  rw [Run.bind_result] at h
  rw [Run.bind_state]
  cases hr : (postWire C m .json s).result with
  | error e => rw [hr] at h; cases h
  | ok r =>
    rw [hr] at h
    cases hu : unreadable r with
    | true =>
      simp only [hu, if_true] at h ⊢
      exact hw _ _ _ h
    | false =>
      simp only [hu, Bool.false_eq_true, if_false] at h ⊢
      have : r = some x := Except.ok.inj h
      subst this
      exact hw _ _ _ hr

theorem expectAnswer_ok {b : Bool} {r : Option Msg} (h : expectAnswer b r = .ok ()) : r = some (.provisionResponse b) := by
  cases r with
  | none => cases h
  | some m =>
    cases m <;> first | (cases h; done) | skip
    rename_i b'
    have : b' = b := of_decide_eq_true (guardStop_ok.mp h)
    rw [this]

theorem devShare_answer {S : Type} (C : Setting S) (target : Public) (r : P256.SealRandom) (share : Bytes) (a : Approval)
    (b : Bool) (s : S) (h : (devShare C target r share a b s).result = .ok ()) :
    ∃ s' w, readAnswer (C.net s' w).2 = some (.provisionResponse b) ∧
      (devShare C target r share a b s).state = (C.net s' w).1 := by
  unfold devShare at h ⊢
  rcases Run.lift_cases (mapStop (target.encrypt C.prims r share) fun _ => .panic)
    (fun x => post C (.provisionRequest x a) >>= fun answer => Run.lift (expectAnswer b answer)) s with ⟨e, -, hx⟩ | ⟨x, -, hx⟩
  · rw [hx] at h; cases h
  rw [hx] at h ⊢
  rw [Run.bind_result] at h
  rw [Run.bind_state]
  cases hr : (post C (.provisionRequest x a) s).result with
  | error e => rw [hr] at h; cases h
  | ok ans =>
    rw [hr] at h
    have := expectAnswer_ok h
    subst this
    exact post_last C _ s _ hr

theorem bind_ok_split {S α β : Type} {x : Run S α} {f : α → Run S β} {s : S} {b : β} (h : ((x >>= f) s).result = .ok b) :
    ∃ a, (x s).result = .ok a ∧ (f a (x s).state).result = .ok b ∧ ((x >>= f) s).state = (f a (x s).state).state := by
  rw [Run.bind_result] at h
  rw [Run.bind_state]
  cases hr : (x s).result with
  | error e => rw [hr] at h; cases h
  | ok a => rw [hr] at h; exact ⟨a, rfl, h, rfl⟩

/-- C53: when `dangerous-dev-boot` reports success, whatever answers its requests has said "not yet provisioned" to one
share and "provisioned" to the last request sent; any other answers end the command with a failure. -/
theorem dev_boot_success {S : Type} (C : Setting S) (r : DevRandom) (a : DevArgs) (s : S)
    (h : (dangerousDevBoot C r a s).result = .ok ()) :
    (∃ s1 w1, readAnswer (C.net s1 w1).2 = some (.provisionResponse false)) ∧
    ∃ s2 w2, readAnswer (C.net s2 w2).2 = some (.provisionResponse true) ∧
      (dangerousDevBoot C r a s).state = (C.net s2 w2).1 := by
  unfold dangerousDevBoot at h ⊢
  obtain ⟨key, -, h, e⟩ := bind_ok_split h
  rw [e]
  obtain ⟨pivot, -, h, e⟩ := bind_ok_split h
  rw [e]
  obtain ⟨cose, -, h, e⟩ := bind_ok_split h
  rw [e]
  obtain ⟨doc, -, h, e⟩ := bind_ok_split h
  rw [e]
  obtain ⟨target, -, h, e⟩ := bind_ok_split h
  rw [e]
  obtain ⟨u, h1, h, e⟩ := bind_ok_split h
  rw [e]
  obtain ⟨s1, w1, g1, -⟩ := devShare_answer C _ _ _ _ _ _ h1
  exact ⟨⟨s1, w1, g1⟩, devShare_answer C _ _ _ _ _ _ h⟩

/-! ## The request fits, and a concrete case -/

open Json

theorem dev_member_extent {p : Prims} {pair : Pair} (hl : (pair.publicKey p).toBytes.length = 130) :
    extent (JCodec.quorumMember.enc (devMember p pair)) ≤ 2000 := by
  have ha : (devMember p pair).aliasName.toList.length = 25 := (by decide : "DANGEROUS_DEV_BOOT_MEMBER".toList.length = 25)
  have hk : (devMember p pair).pubKey.length = 130 := hl
  obtain ⟨m, hm⟩ : ∃ m, m = devMember p pair := ⟨_, rfl⟩
  rw [← hm] at ha hk ⊢
  unfold JCodec.quorumMember
  extents
  omega

theorem dev_approval_extent {p : Prims} {pair : Pair} (hl : (pair.publicKey p).toBytes.length = 130) {sig : Bytes}
    (hs : sig.length = 64) : extent (JCodec.approval.enc ⟨sig, devMember p pair⟩) ≤ 4000 := by
  have h := dev_member_extent hl
  unfold JCodec.approval
  extents
  omega

theorem nitro_extent (n : NitroConfig) {root : Bytes} (h0 : n.pcr0.length ≤ 48) (h1 : n.pcr1.length ≤ 48) (h2 : n.pcr2.length ≤ 48)
    (h3 : n.pcr3.length ≤ 48) (h4 : n.awsRootCertificate = root) (h5 : n.qosCommit.toList.length ≤ 48) :
    extent (JCodec.nitroConfig.enc n) ≤ 5000 + 12 * root.length := by
  subst h4
  unfold JCodec.nitroConfig
  extents
  omega

/-- The boot request of `dangerous-dev-boot` fits into a frame, unless the pivot, the arguments, the bridges or the root
certificate are huge. -/
theorem dev_request_fits {p : Prims} (hp : p.Laws) {seed : Bytes} {pair : Pair} (hk : Pair.fromMasterSeed p seed = .ok pair)
    {root : Bytes} (hr : root.length ≤ 1024 * 1024) (a : DevArgs) {pivot : Bytes} (hv : pivot.length ≤ 64 * 1024 * 1024)
    (ha : extentArr (a.args.map JCodec.string.enc) ≤ 16 * 1024 * 1024)
    (hb : extentArr (a.bridges.map JCodec.bridgeConfig.enc) ≤ 16 * 1024 * 1024) :
    ∃ b, toWire (.bootStandardJsonEnvelopeRequest (devEnvelope p root pair a pivot) pivot) .borsh = .ok b ∧
      b.length ≤ 128 * 1024 * 1024 := by
  have hlen := (P256.public_of_pair p hp seed pair hk).2
  have hsig (x : Bytes) : (pair.sign p x).length = 64 := hp.sig_length _ (hp.sign_ok _ _ (P256.pair_scalars p seed pair hk).2)
  have hm := dev_member_extent hlen
  have hq : ∀ t : UInt32, extent (JCodec.u32.enc t) ≤ 100 → extent (JCodec.quorumSet.enc ⟨t, [devMember p pair]⟩) ≤ 5000 := by
    intro t ht
    unfold JCodec.quorumSet
    extents
    omega
  have hn : extent (JCodec.namespace.enc ⟨"DANGEROUS_DEV_BOOT_MEMBER_NAMESPACE", 0xFFFFFFFF, (pair.publicKey p).toBytes⟩) ≤ 5000 :=
    extent_namespace _ (by decide : "DANGEROUS_DEV_BOOT_MEMBER_NAMESPACE".toList.length ≤ 48)
      (by decide +kernel : extent (JCodec.u32.enc 0xFFFFFFFF) ≤ 100) (Nat.le_of_eq hlen)
  have hen : extent (JCodec.nitroConfig.enc (devManifest p root pair a pivot).enclave) ≤ 5000 + 12 * root.length := by
    refine nitro_extent _ ?_ ?_ ?_ ?_ rfl ?_
    iterate 4 exact (by decide : (List.replicate 48 (0 : UInt8)).length ≤ 48)
    exact (by decide : "mock-qos-commit-ref".toList.length ≤ 48)
  have hpv : extent (JCodec.pivotConfig.enc (devManifest p root pair a pivot).pivot) ≤ 33 * 1024 * 1024 := by
    have h32 : (devManifest p root pair a pivot).pivot.hash.length = 32 := hp.sha256_length _
    have h1 : (devManifest p root pair a pivot).pivot.args = a.args := rfl
    have h2 : (devManifest p root pair a pivot).pivot.bridgeConfig = a.bridges := rfl
    have h3 : ∀ r : RestartPolicy, extent (JCodec.restartPolicy.enc r) ≤ 100 := by intro r; cases r <;> decide +kernel
    have h4 := h3 (devManifest p root pair a pivot).pivot.restart
    rw [← h1] at ha
    rw [← h2] at hb
    generalize (devManifest p root pair a pivot).pivot = pc at *
    unfold JCodec.pivotConfig
    extents
    simp only [JCodec.string] at ha
    omega
  have hman : extent (JCodec.manifest.enc (devManifest p root pair a pivot)) ≤ 46 * 1024 * 1024 := by
    have h1 : extent (JCodec.namespace.enc (devManifest p root pair a pivot).namespace) ≤ 5000 := hn
    have h2 : extent (JCodec.quorumSet.enc (devManifest p root pair a pivot).manifestSet) ≤ 5000 := hq 1 (by decide +kernel)
    have h3 : extent (JCodec.quorumSet.enc (devManifest p root pair a pivot).shareSet) ≤ 5000 := hq 2 (by decide +kernel)
    have h4 : extent (JCodec.patchSet.enc (devManifest p root pair a pivot).patchSet) ≤ 5000 :=
      (by decide +kernel : extent (JCodec.patchSet.enc ⟨0, []⟩) ≤ 5000)
    generalize devManifest p root pair a pivot = m at *
    unfold JCodec.manifest
    extents
    omega
  let e := devEnvelope p root pair a pivot
  have hext : extent (JCodec.envelope.enc e) ≤ 47 * 1024 * 1024 := by
    have h1 := dev_approval_extent hlen (hsig ((VersionedManifest.v1 (devManifest p root pair a pivot)).hash p))
    show extent (JCodec.envelopeV1.enc ⟨devManifest p root pair a pivot, [⟨pair.sign p
      ((VersionedManifest.v1 (devManifest p root pair a pivot)).hash p), devMember p pair⟩], []⟩) ≤ _
    generalize devManifest p root pair a pivot = m at *
    unfold JCodec.envelopeV1 JCodec.envelopeFields
    extents
    omega
  have hl : (Json.writeBytes e.encUntagged).length ≤ 47 * 1024 * 1024 := Nat.le_trans (Json.length_writeBytes _) hext
  have he : e.Ok := devEnvelope_ok hp hk hr a pivot
  have hok : Borsh.msg.ok (.bootStandardJsonEnvelopeRequest e pivot) :=
    ⟨⟨he, show (Json.writeBytes e.encUntagged).length < 2 ^ 32 by omega⟩, show pivot.length < 2 ^ 32 by omega⟩
  refine ⟨Borsh.msg.enc (.bootStandardJsonEnvelopeRequest e pivot),
    by simp only [toWire, isGenesis, Bool.false_eq_true, if_false, toBorsh, e, hok, if_true, orErr], ?_⟩
  obtain ⟨t, ht⟩ : ∃ t : UInt8, Borsh.msg.enc (.bootStandardJsonEnvelopeRequest e pivot) = t ::
      ((leBytes 4 (Json.writeBytes e.encUntagged).length ++ Json.writeBytes e.encUntagged) ++
        (leBytes 4 pivot.length ++ pivot)) := ⟨_, rfl⟩
  rw [ht]
  simp only [List.length_cons, List.length_append, leBytes_length]
  omega

/-- A disk with one pivot, in front of the toy enclave: the command provisions it. -/
theorem toy_dev_boot : ∃ s b b1 b2 e,
    dangerousDevBoot (deploySetting [("pivot", [1, 2, 3])]) ⟨List.replicate 32 9, fun _ _ => 99, toySetting.rand, toySetting.rand⟩
      ⟨"pivot", .always, ["--verbose"], [], none⟩ (St.initial noFiles) = ⟨.ok (), s, [.sent b, .sent b1, .sent b2]⟩ ∧
    s.phase = .quorumKeyProvisioned ∧ Holds s.files deployEnv.paths.quorum (Hex.encode (List.replicate 32 9)) ∧
    Installed deployEnv (.v1 e) [1, 2, 3] s.files ∧ e.manifest.pivot.args = ["--verbose"] := by
  obtain ⟨setup, h0⟩ := toy_pair (toyEnv.seedAt 0)
  obtain ⟨live, h1⟩ := toy_pair (toyEnv.seedAt 1)
  obtain ⟨quorum, hq⟩ := toy_pair (List.replicate 32 9)
  obtain ⟨b, hw, hb⟩ := dev_request_fits toyLaws hq (root := [1, 2]) (by decide) ⟨"pivot", .always, ["--verbose"], [], none⟩
    (pivot := [1, 2, 3]) (by decide) (by decide +kernel) (by decide +kernel)
  have hv := deploy_vouched [("pivot", [1, 2, 3])]
  obtain ⟨s, b1, b2, e, g1, g2, g3, g4, g5, -⟩ := dev_boot_provisions (C := deploySetting [("pivot", [1, 2, 3])]) (E := deployEnv)
    (fs0 := noFiles) rfl deployEnv_ok (fun _ _ => rfl) rfl hv.decode hv.size deploy_device (fun _ => rfl) h0 h1
    ⟨List.replicate 32 9, fun _ _ => 99, toySetting.rand, toySetting.rand⟩ (by decide) hq ⟨by decide +kernel, by decide⟩
    ⟨by decide +kernel, by decide⟩ (by decide) ⟨"pivot", .always, ["--verbose"], [], none⟩ rfl (pivot := [1, 2, 3]) rfl hw hb
  exact ⟨s, b, b1, b2, e, g1, g2, g3, g4, g5⟩

end Qos.Client
