import Verif.Lemmas.Forward
import Mathlib.Logic.Relation
/-!
# C15–C18: key forwarding

Concrete cases: `Props/EnclaveExamples.lean` (C15, C17) and `Qos.Client.toy_forwarding` in `Props/ClientForwardToy.lean`
(C15, C16, C18: one enclave exports its key to another with a higher nonce).
-/
namespace Qos
open P256 Handles Services StateMachine Lifecycle

variable {E : Env} {fs0 : Files} {h : List (Msg × Msg)} {s : St}

/-! ## What is stored is determined -/

theorem Holds.unique {fs : Files} {q : String} {a b : Bytes} (h1 : Holds fs q a) (h2 : Holds fs q b) : a = b := by
  obtain ⟨f, hf, rfl⟩ := h1
  obtain ⟨g, hg, rfl⟩ := h2
  rw [hf, Option.some.injEq] at hg
  rw [hg]

theorem Installed.unique {e e' : Envelope} {x x' : Bytes} {fs : Files} (h1 : Installed E e x fs)
    (h2 : Installed E e' x' fs) : e = e' ∧ x = x' := by
  obtain ⟨buf, b1, b2⟩ := h1.manifest
  obtain ⟨buf', c1, c2⟩ := h1.readable
  obtain ⟨dbuf, d1, d2⟩ := h2.manifest
  obtain ⟨dbuf', e1, e2⟩ := h2.readable
  rw [b1, Option.some.injEq] at c1
  rw [d1, Option.some.injEq] at e1
  subst c1 e1
  have := b2.unique d2
  subst this
  rw [c2, Option.some.injEq] at e2
  exact ⟨e2, h1.pivot.unique h2.pivot⟩

/-! ## Before the key -/

/-- While an enclave waits (for a boot, shares or a forwarded key), at no moment so far has a quorum key file
existed. -/
theorem no_quorum_before (H : History E fs0 h s) (hp : s.phase ∈ [Phase.waitingForBootInstruction, .genesisBooted,
    .waitingForQuorumShards, .waitingForForwardedKey]) {fs : Files} (hm : Moment fs0 s fs) :
    fs E.paths.quorum = none := by
  by_contra hne
  obtain ⟨f, hf⟩ := Option.ne_none_iff_exists'.1 hne
  obtain ⟨b, hb, _⟩ := H.moment hm (mem_quorum _) hf
  cases hb with
  | waiting _ hw =>
    have ho : InOrder fs0 s fs s.files := by
      rcases hm with rfl | hm | rfl
      · exact .inl ⟨rfl, .inr (.inr rfl)⟩
      · exact .inr (.inr (.inl ⟨hm, rfl⟩))
      · exact .inr (.inr (.inr rfl))
    obtain ⟨g, hg, _⟩ := quorum_key_written_once H ho hf
    rw [hw.quorum] at hg; cases hg
  | provisioned _ h1 _ => rw [h1] at hp; exact absurd hp (by decide)
  | broken h1 _ => rw [h1] at hp; exact absurd hp (by decide)

theorem History.idle (H : History E fs0 h s) (hs : s.phase = .waitingForBootInstruction) : Idle fs0 h s := by
  rcases H.inv with hi | hu | ⟨b, hb⟩
  · exact hi
  · have := hu.phase; rw [hs] at this; exact absurd this (by decide)
  · exfalso
    cases hb with
    | waiting h1 _ => rw [hs] at h1; revert h1; split <;> decide
    | provisioned _ h1 _ => rw [hs] at h1; cases h1
    | broken h1 _ => rw [hs] at h1; cases h1

theorem History.waitingForward (H : History E fs0 h s) (hs : s.phase = .waitingForForwardedKey) :
    ∃ b : Boot, b.forward = true ∧ b.Waiting E (requests h) [] s ∧ posted h = [] := by
  obtain ⟨b, hb⟩ := H.booted (by rw [hs]; decide)
  cases hb with
  | waiting h1 hw =>
    have hf : b.forward = true := by
      by_contra hc
      rw [hs, if_neg hc] at h1
      cases h1
    have hp := hw.forward hf
    rw [hp] at hw
    exact ⟨b, hf, hw, hp⟩
  | provisioned _ h1 _ => rw [hs] at h1; cases h1
  | broken h1 _ => rw [hs] at h1; cases h1

theorem History.waitingShards (H : History E fs0 h s) (hs : s.phase = .waitingForQuorumShards) :
    ∃ b : Boot, b.forward = false ∧ b.Waiting E (requests h) (posted h) s := by
  obtain ⟨b, hb⟩ := H.booted (by rw [hs]; decide)
  cases hb with
  | waiting h1 hw =>
    have hf : b.forward = false := by
      by_contra hc
      rw [hs, if_pos (by simpa using hc)] at h1
      cases h1
    exact ⟨b, hf, hw⟩
  | provisioned _ h1 _ => rw [hs] at h1; cases h1
  | broken h1 _ => rw [hs] at h1; cases h1

theorem History.provisioned (H : History E fs0 h s) (hs : s.phase = .quorumKeyProvisioned) :
    ∃ (b : Boot) (key : Pair), b.Provisioned E (requests h) (posted h) key s ∧
      Installed E (b.envelope.withShares ((posted h).map (·.2))) b.pivot s.files := by
  obtain ⟨b, hb⟩ := H.booted (by rw [hs]; decide)
  have hi := (hb.installed H.env (by rw [hs]; decide)).1
  cases hb with
  | waiting h1 _ => rw [hs] at h1; revert h1; split <;> (intro h; cases h)
  | provisioned k _ hw => exact ⟨b, k, hw, hi⟩
  | broken h1 _ => rw [hs] at h1; cases h1

theorem History.waitingInstalled (H : History E fs0 h s) {b : Boot} {posts : List (Bytes × Approval)}
    (hw : b.Waiting E (requests h) posts s) :
    Installed E (b.envelope.withShares (posts.map (·.2))) b.pivot s.files := by
  obtain ⟨buf, h1, h2⟩ := storage_roundtrip _ (b.stored H.env hw.since.ok hw.posted)
  exact ⟨hw.manifest, hw.pivot, ⟨buf, h1, h2⟩, b.stored H.env hw.since.ok hw.posted⟩

/-! ## C17 -/

/-- C17: in the phase that awaits a forwarded key, with stored manifest `e` and setup key `setup` (the key in the
ephemeral key file): an injection is answered with success only if the key is acceptable, and then exactly that key is
stored; otherwise the enclave is in `UnrecoverableError`. An unacceptable key leaves every file untouched and no
quorum key file exists at any moment. -/
theorem inject_exact (H : History E fs0 h s) (hs : s.phase = .waitingForForwardedKey) {e : Envelope} {pivot : Bytes}
    (he : Installed E e pivot s.files) {setup : Pair} (hk : Pair.fromMasterSeed E.prims setup.seed = .ok setup)
    (hh : Holds s.files E.paths.ephemeral (Hex.encode setup.seed)) (ct sig : Bytes) :
    ((handle E (.injectKeyRequest ct sig) s).1 = .injectKeyResponse →
      (handle E (.injectKeyRequest ct sig) s).2.phase = .quorumKeyProvisioned ∧
      ∃ key, Injectable E.prims e setup ct sig key ∧
        Holds (handle E (.injectKeyRequest ct sig) s).2.files E.paths.quorum (Hex.encode key.seed)) ∧
    ((handle E (.injectKeyRequest ct sig) s).1 ≠ .injectKeyResponse →
      (∃ er, (handle E (.injectKeyRequest ct sig) s).1 = .protocolErrorResponse er) ∧
      (handle E (.injectKeyRequest ct sig) s).2.phase = .unrecoverableError) ∧
    ((¬ ∃ key, Injectable E.prims e setup ct sig key) →
      (handle E (.injectKeyRequest ct sig) s).1 ≠ .injectKeyResponse ∧
      (handle E (.injectKeyRequest ct sig) s).2.files = s.files ∧
      ∀ fs, Moment fs0 (handle E (.injectKeyRequest ct sig) s).2 fs → fs E.paths.quorum = none) ∧
    (ReliableFiles E → (∃ key, Injectable E.prims e setup ct sig key) →
      (handle E (.injectKeyRequest ct sig) s).1 = .injectKeyResponse) := by
  obtain ⟨b, hf, hw, hpost⟩ := H.waitingForward hs
  have hin := H.waitingInstalled hw
  rw [List.map_nil, Envelope.withShares_nil] at hin
  obtain ⟨rfl, -⟩ := he.unique hin
  have hset : setup = b.setup := by
    have h1 := Hex.hex_encode_injective _ _ (hh.unique hw.ephemeral)
    obtain ⟨_, h2⟩ := hw.since.ok.setup_seed H.env
    rw [h1] at hk
    rw [hk, Except.ok.injEq] at h2
    exact h2
  subst hset
  have hst := injectKey_stores (E := E) H.env hw hf (ct := ct) (sig := sig) rfl
  rw [handle_inject hs]
  match hr : injectKey E ct sig s with
  | (.ok u, s') =>
    obtain ⟨key, k1, k2⟩ := ends_ok hst hr
    refine ⟨fun _ => ⟨rfl, key, (injectable_iff H.env.laws ..).2 k1, k2.quorum⟩, fun hne => absurd rfl hne, ?_,
      fun _ _ => rfl⟩
    intro hno
    exact absurd ⟨key, (injectable_iff H.env.laws ..).2 k1⟩ hno
  | (.error er, s') =>
    refine ⟨fun hc => (nomatch hc), fun _ => ⟨⟨er, rfl⟩, rfl⟩, ?_, ?_⟩
    · intro hno
      have hx := ends_error (injectKey_refused H.env hw (ct := ct) (sig := sig)
        (fun ⟨k, hk⟩ => hno ⟨k, (injectable_iff H.env.laws ..).2 hk⟩)) hr
      refine ⟨by simp, hx.1, ?_⟩
      intro fs hm
      refine no_quorum_before H (by rw [hs]; decide) (fs := fs) ?_
      rcases hm with hm | hm | hm
      · exact .inl hm
      · exact .inr (.inl (by rw [← hx.2]; exact hm))
      · exact .inr (.inr (hm.trans hx.1))
    · rintro hio ⟨key, hk⟩
      exact (ends_error (injectKey_total H.env hio hw ((injectable_iff H.env.laws ..).1 hk)) hr).elim

/-- C17: the enclave's setup key, used above, is the one in the ephemeral key file, generated first. -/
theorem waiting_has_setup_key (H : History E fs0 h s) (hs : s.phase = .waitingForForwardedKey) :
    ∃ e pivot setup, Msg.bootKeyForwardRequest e pivot ∈ requests h ∧ ApprovedBoot E.prims e pivot ∧
      Installed E e pivot s.files ∧ Pair.fromMasterSeed E.prims (E.seedAt 0) = .ok setup ∧
      setup.seed = E.seedAt 0 ∧ Holds s.files E.paths.ephemeral (Hex.encode setup.seed) := by
  obtain ⟨b, hf, hw, _⟩ := H.waitingForward hs
  have hin := H.waitingInstalled hw
  rw [List.map_nil, Envelope.withShares_nil] at hin
  obtain ⟨m, hm, hr⟩ := hw.since.ok.requested
  unfold Boot.RequestedBy at hr
  rw [if_pos hf] at hr
  subst hr
  exact ⟨b.envelope, b.pivot, b.setup, hm, hw.since.ok.approvedBoot, hin, hw.since.ok.setup,
    pair_seed _ _ _ hw.since.ok.setup, hw.ephemeral⟩

/-! ## C15 -/

/-- What an export releases: the stored master seed encrypted to `pub`, and a signature over that by its key. -/
structure Released (E : Env) (s : St) (pub : Public) (ct sig : Bytes) : Prop where
  key : ∃ key rand, Pair.fromMasterSeed E.prims key.seed = .ok key ∧
    Holds s.files E.paths.quorum (Hex.encode key.seed) ∧ rand.Ok E.prims ∧
    pub.encrypt E.prims rand key.seed = .ok ct ∧ sig = key.sign E.prims ct

/-- C15: an enclave with the quorum key and stored manifest `e` answers an export request with the key only if the
attestation document verifies at the device's time and the new envelope and the document make it exportable; what is
released is the stored seed, encrypted to the attested key, signed by the quorum key. Otherwise the answer is an error.
If files can be read, every such request is answered with the key. -/
theorem export_exact (H : History E fs0 h s) (hs : s.phase = .quorumKeyProvisioned) {e : Envelope} {pivot : Bytes}
    (he : Installed E e pivot s.files) (new : Envelope) (der : Bytes) :
    (∀ ct sig, (handle E (.exportKeyRequest new der) s).1 = .exportKeyResponse ct sig →
      ∃ ms doc pub, E.timestamp s.ios s.nsmHist = .ok ms ∧ Attest.fromDer E.pki der E.rootCa (ms / 1000) = .ok doc ∧
        Exportable E.prims e new doc pub ∧ Released E s pub ct sig) ∧
    ((∃ ct sig, (handle E (.exportKeyRequest new der) s).1 = .exportKeyResponse ct sig) ∨
      ∃ er, (handle E (.exportKeyRequest new der) s).1 = .protocolErrorResponse er) ∧
    (ReliableFiles E → ∀ ms doc pub, E.timestamp s.ios s.nsmHist = .ok ms →
      Attest.fromDer E.pki der E.rootCa (ms / 1000) = .ok doc → Exportable E.prims e new doc pub →
      ∃ ct sig, (handle E (.exportKeyRequest new der) s).1 = .exportKeyResponse ct sig) := by
  obtain ⟨b, key, hpr, hin⟩ := H.provisioned hs
  obtain ⟨rfl, -⟩ := he.unique hin
  have hman : ∀ {doc pub}, Exportable E.prims b.envelope new doc pub ↔
      Exportable E.prims (b.envelope.withShares ((posted h).map (·.2))) new doc pub := by
    intro doc pub
    constructor
    · rintro ⟨h1, h2, h3, h4, h5⟩; exact ⟨h1, h2, by rw [Envelope.manifest_withShares]; exact h3, h4, h5⟩
    · rintro ⟨h1, h2, h3, h4, h5⟩; exact ⟨h1, h2, by rw [Envelope.manifest_withShares] at h3; exact h3, h4, h5⟩
  rw [handle_export hs]
  have hends := exportKey_ends H.env hpr new der
  match hr : exportKey E new der s with
  | (.ok r, s') =>
    refine ⟨?_, .inl ⟨_, _, rfl⟩, fun _ _ _ _ _ _ _ => ⟨_, _, rfl⟩⟩
    intro ct sig hc
    obtain ⟨ms, doc, pub, h1, h2, h3, h4, h5⟩ := ends_ok hends hr
    cases hc
    exact ⟨ms, doc, pub, h1, h2, hman.1 h3,
      ⟨key, _, hpr.complete.seed.2, hpr.quorum, H.env.rands _, h4, h5⟩⟩
  | (.error er, s') =>
    refine ⟨fun ct sig hc => (nomatch hc), .inr ⟨er, rfl⟩, ?_⟩
    intro hio ms doc pub h1 h2 h3
    exact (ends_error (exportKey_total H.env hio hpr h1 h2 (hman.2 h3)) hr).elim

/-- C15: in particular the new manifest carries a quorum of the old manifest set. -/
theorem export_needs_old_quorum (H : History E fs0 h s) (hs : s.phase = .quorumKeyProvisioned) {e : Envelope}
    {pivot : Bytes} (he : Installed E e pivot s.files) (new : Envelope) (der ct sig : Bytes)
    (hr : (handle E (.exportKeyRequest new der) s).1 = .exportKeyResponse ct sig) :
    Quorum E.prims (new.manifest.hash E.prims) e.manifest.manifestSet new.manifestSetApprovals := by
  obtain ⟨ms, doc, pub, _, _, hx, _⟩ := (export_exact H hs he new der).1 ct sig hr
  have hq := check_approvals_sound _ _ hx.approved
  have hset := hx.succeeds.manifestSet
  obtain ⟨d1, d2, d3, d4⟩ := hq.distinct
  refine ⟨⟨fun m hm => d1 m (hset.members.mem_iff.1 hm), (hset.members.map _).nodup_iff.2 d2,
    (hset.members.map _).nodup_iff.2 d3, (hset.members.map _).nodup_iff.2 d4⟩, hq.signed,
    fun a ha => hset.members.mem_iff.2 (hq.listed a ha), hq.once, ?_⟩
  rw [hset.threshold]; exact hq.enough

/-! ## C16 -/

/-- An enclave with manifest `m` released its key for manifest `m'`. -/
def Forwarded (p : Prims) (m m' : VersionedManifest) : Prop :=
  ∃ (E : Env) (fs0 : Files) (h : List (Msg × Msg)) (s : St) (e new : Envelope) (pivot der ct sig : Bytes),
    E.prims = p ∧ History E fs0 h s ∧ s.phase = .quorumKeyProvisioned ∧ Installed E e pivot s.files ∧
    e.manifest = m ∧ new.manifest = m' ∧
    (handle E (.exportKeyRequest new der) s).1 = .exportKeyResponse ct sig

theorem forwarded_succeeds {p : Prims} {m m' : VersionedManifest} (hf : Forwarded p m m') : Succeeds p m m' := by
  obtain ⟨E, fs0, h, s, e, new, pivot, der, ct, sig, rfl, H, hs, he, rfl, rfl, hr⟩ := hf
  obtain ⟨ms, doc, pub, _, _, hx, _⟩ := (export_exact H hs he new der).1 ct sig hr
  exact hx.succeeds

/-- C16: along any chain of exports, of any length and through any enclaves, the nonce never decreases, quorum key,
namespace name, PCR3 and manifest set stay the same, and the manifest is the same if the nonce is. -/
theorem forwarding_never_downgrades (p : Prims) (m m' : VersionedManifest)
    (hc : Relation.ReflTransGen (Forwarded p) m m') : Succeeds p m m' := by
  induction hc with
  | refl => exact ⟨rfl, ⟨rfl, .refl _⟩, rfl, UInt32.le_refl _, fun _ => rfl, rfl⟩
  | tail _ hf ih =>
    have hs := forwarded_succeeds hf
    refine ⟨hs.quorumKey.trans ih.quorumKey, ⟨ih.manifestSet.threshold.trans hs.manifestSet.threshold,
      ih.manifestSet.members.trans hs.manifestSet.members⟩, hs.name.trans ih.name, UInt32.le_trans ih.nonce hs.nonce,
      ?_, hs.pcr3.trans ih.pcr3⟩
    intro heq
    have h1 := UInt32.le_antisymm ih.nonce (by rw [heq]; exact hs.nonce)
    exact (ih.sameNonce h1).trans (hs.sameNonce (h1.symm.trans heq))

/-! ## C18 -/

/-- C18: what one enclave exports, to a document that carries the setup key of another enclave awaiting a
forwarded key for the same quorum key, makes that enclave hold exactly the same master seed. -/
theorem forwarding_lossless {E' : Env} {fs0' : Files} {h' : List (Msg × Msg)} {s' : St}
    (H : History E fs0 h s) (hs : s.phase = .quorumKeyProvisioned) {e : Envelope} {pivot : Bytes}
    (he : Installed E e pivot s.files)
    (H' : History E' fs0' h' s') (hs' : s'.phase = .waitingForForwardedKey) {e' : Envelope} {pivot' : Bytes}
    (he' : Installed E' e' pivot' s'.files) (hio : ReliableFiles E') (hprims : E'.prims = E.prims)
    {new : Envelope} {der ct sig : Bytes} (hr : (handle E (.exportKeyRequest new der) s).1 = .exportKeyResponse ct sig)
    (hq : e'.manifest.namespaceOf.quorumKey = new.manifest.namespaceOf.quorumKey)
    {setup : Pair} (hsetup : Pair.fromMasterSeed E'.prims (E'.seedAt 0) = .ok setup)
    (hdoc : ∀ t d, Attest.fromDer E.pki der E.rootCa t = .ok d →
      d.publicKey = some (setup.publicKey E'.prims).toBytes) :
    (handle E' (.injectKeyRequest ct sig) s').1 = .injectKeyResponse ∧
    (handle E' (.injectKeyRequest ct sig) s').2.phase = .quorumKeyProvisioned ∧
    ∃ seed, Holds s.files E.paths.quorum (Hex.encode seed) ∧
      Holds (handle E' (.injectKeyRequest ct sig) s').2.files E'.paths.quorum (Hex.encode seed) := by
  obtain ⟨ms, doc, pub, _, hder, hx, key, rand, k1, k2, k3, k4, k5⟩ := (export_exact H hs he new der).1 ct sig hr
  obtain ⟨_, _, setup', _, _, hin', w1, w2, w3⟩ := waiting_has_setup_key H' hs'
  rw [hsetup, Except.ok.injEq] at w1
  subst w1
  have hk : Pair.fromMasterSeed E'.prims setup.seed = .ok setup := by rw [w2]; exact hsetup
  have hpk := hdoc _ _ hder
  rw [hx.attested.publicKey, Option.some.injEq] at hpk
  have hpub : pub = setup.publicKey E.prims := by
    have h1 := hx.key
    rw [hpk, hprims] at h1
    rw [hprims] at hk
    rw [(public_of_pair _ H.env.laws _ _ hk).1, Except.ok.injEq] at h1
    exact h1.symm
  subst hpub
  have hnames : (key.publicKey E.prims).toBytes = e.manifest.namespaceOf.quorumKey ∧ key.seed.length = 32 := by
    obtain ⟨b, key', hpr, hin⟩ := H.provisioned hs
    obtain ⟨rfl, -⟩ := he.unique hin
    have hseed := Hex.hex_encode_injective _ _ (k2.unique hpr.quorum)
    have : key = key' := by
      have h2 := hpr.complete.seed.2
      rw [← hseed, k1, Except.ok.injEq] at h2
      exact h2
    subst this
    rw [Envelope.manifest_withShares]
    exact ⟨hpr.complete.names, hpr.complete.seed.1⟩
  have hinj : Injectable E'.prims e' setup ct sig key := by
    rw [hprims]
    rw [hprims] at hk
    refine ⟨?_, ?_, decrypt_encrypt _ H.env.laws _ _ _ _ _ hk k3 k4, hnames.2, k1⟩
    · rw [hnames.1, hq, hx.succeeds.quorumKey]
    · rw [k5]
      exact (verify_iff ..).1 (pair_sign_verifies _ H.env.laws _ _ _ k1)
  obtain ⟨i1, i2, i3, i4⟩ := inject_exact H' hs' he' hk w3 ct sig
  have hresp := i4 hio ⟨key, hinj⟩
  obtain ⟨hph, key2, hinj2, hh2⟩ := i1 hresp
  refine ⟨hresp, hph, key.seed, k2, ?_⟩
  have := hinj.decrypted
  rw [hinj2.decrypted, Except.ok.injEq] at this
  rwa [this] at hh2

end Qos
