import Verif.Lemmas.Progress
import Verif.Spec.Forward
import Verif.Props.Boot
import Mathlib.Data.List.Sort
/-!
# The checks of key forwarding
-/
namespace Qos
open P256 Handles Services StateMachine

/-! ## Sorting members -/

theorem lex_antisymm {a b : Bytes} (h1 : ¬ a < b) (h2 : ¬ b < a) : a = b :=
  List.le_antisymm (List.not_lt.1 h2) (List.not_lt.1 h1)

theorem memberLe_total (a b : QuorumMember) : memberLe a b ∨ memberLe b a := by
  unfold memberLe
  by_cases h1 : utf8 a.aliasName < utf8 b.aliasName
  · exact .inl (.inr (.inl h1))
  by_cases h2 : utf8 b.aliasName < utf8 a.aliasName
  · exact .inr (.inr (.inl h2))
  have he := lex_antisymm h1 h2
  by_cases h3 : a.pubKey < b.pubKey
  · exact .inl (.inr (.inr ⟨he, h3⟩))
  by_cases h4 : b.pubKey < a.pubKey
  · exact .inr (.inr (.inr ⟨he.symm, h4⟩))
  · exact .inl (.inl (by rw [he, lex_antisymm h3 h4]))

theorem memberLe_antisymm {a b : QuorumMember} (h1 : memberLe a b) (h2 : memberLe b a) : a = b := by
  have key : (utf8 a.aliasName, a.pubKey) = (utf8 b.aliasName, b.pubKey) → a = b := by
    intro h
    rw [Prod.mk.injEq] at h
    cases a; cases b
    simp only at h
    rw [utf8_injective h.1, h.2]
  rcases h1 with h1 | h1 | ⟨h1, h1'⟩
  · exact key h1
  · rcases h2 with h2 | h2 | ⟨h2, h2'⟩
    · exact (key h2.symm)
    · exact absurd h2 (List.lt_asymm h1)
    · rw [h2] at h1; exact absurd h1 (List.lt_irrefl _)
  · rcases h2 with h2 | h2 | ⟨h2, h2'⟩
    · exact (key h2.symm)
    · rw [h1] at h2; exact absurd h2 (List.lt_irrefl _)
    · exact absurd h2' (List.lt_asymm h1')

theorem memberLe_trans {a b c : QuorumMember} (h1 : memberLe a b) (h2 : memberLe b c) : memberLe a c := by
  unfold memberLe at *
  rcases h1 with h1 | h1 | ⟨h1, h1'⟩
  · rw [Prod.mk.injEq] at h1; rw [h1.1, h1.2]; exact h2
  · rcases h2 with h2 | h2 | ⟨h2, h2'⟩
    · rw [Prod.mk.injEq] at h2; rw [← h2.1, ← h2.2]; exact .inr (.inl h1)
    · exact .inr (.inl (List.lt_trans h1 h2))
    · rw [← h2]; exact .inr (.inl h1)
  · rcases h2 with h2 | h2 | ⟨h2, h2'⟩
    · rw [Prod.mk.injEq] at h2; rw [← h2.1, ← h2.2]; exact .inr (.inr ⟨h1, h1'⟩)
    · rw [h1]; exact .inr (.inl h2)
    · exact .inr (.inr ⟨h1.trans h2, List.lt_trans h1' h2'⟩)

theorem sortMembers_eq_iff (a b : List QuorumMember) : sortMembers a = sortMembers b ↔ a.Perm b := by
  unfold sortMembers
  constructor
  · intro h
    exact ((List.mergeSort_perm a _).symm.trans (by rw [h])).trans (List.mergeSort_perm b _)
  · intro h
    refine List.Perm.eq_of_pairwise (le := fun x y => memberLe x y) ?_ ?_ ?_ ?_
    · intro x y _ _ h1 h2
      exact memberLe_antisymm h1 h2
    · have := List.pairwise_mergeSort (le := fun x y => decide (memberLe x y))
        (fun x y z h1 h2 => by simp only [decide_eq_true_eq] at *; exact memberLe_trans h1 h2)
        (fun x y => by simpa using memberLe_total x y) a
      exact this.imp (by simp)
    · have := List.pairwise_mergeSort (le := fun x y => decide (memberLe x y))
        (fun x y z h1 h2 => by simp only [decide_eq_true_eq] at *; exact memberLe_trans h1 h2)
        (fun x y => by simpa using memberLe_total x y) b
      exact this.imp (by simp)
    · exact ((List.mergeSort_perm a _).trans h).trans (List.mergeSort_perm b _).symm

/-! ## Validation of the new manifest -/

variable {E : Env} {b : Boot} {reqs : List Msg}

theorem refuse_iff {c : Prop} [Decidable c] {e : ProtocolError} : refuse c e = .ok () ↔ ¬ c := by
  unfold refuse
  by_cases h : c
  · rw [if_pos h]; simp [h]
  · rw [if_neg h]; simp [h]

theorem liftAttest_iff {α : Type} {x : Except AttestError α} {a : α} : liftAttest x = .ok a ↔ x = .ok a := by
  cases x <;> simp [liftAttest]

theorem checkNonce_iff (new old : VersionedManifest) : checkNonce E new old = .ok () ↔
    old.namespaceOf.nonce ≤ new.namespaceOf.nonce ∧
    (old.namespaceOf.nonce = new.namespaceOf.nonce → old.hash E.prims = new.hash E.prims) := by
  unfold checkNonce
  by_cases h1 : old.namespaceOf.nonce > new.namespaceOf.nonce
  · rw [if_pos h1]
    constructor
    · intro h; cases h
    · rintro ⟨h2, _⟩
      exact absurd h1 (UInt32.not_lt.2 h2)
  · rw [if_neg h1]
    by_cases h2 : old.namespaceOf.nonce = new.namespaceOf.nonce ∧ old.hash E.prims ≠ new.hash E.prims
    · rw [if_pos h2]
      constructor
      · intro h; cases h
      · rintro ⟨_, h⟩
        exact absurd (h h2.1) h2.2
    · rw [if_neg h2]
      refine ⟨fun _ => ⟨UInt32.not_lt.1 h1, fun h => ?_⟩, fun _ => rfl⟩
      by_contra hne
      exact h2 ⟨h, hne⟩

theorem validateManifest_iff (new old : Envelope) (doc : AttestationDoc) :
    validateManifest E new old doc = .ok () ↔
      new.checkApprovals E.prims = .ok () ∧ new.shareSetApprovals = [] ∧ Succeeds E.prims old.manifest new.manifest ∧
      ∃ key, Attest.Matches E.prims .setup doc (expectedInput E.prims new.manifest) key := by
  unfold validateManifest
  simp only [Attest.bind_unit_ok, refuse_iff, checkNonce_iff, liftAttest_iff, Attest.verify_manifest_exact]
  unfold checkManifestSet
  simp only [refuse_iff, sortMembers_eq_iff, not_or, ne_eq, not_not]
  constructor
  · rintro ⟨h1, h2, h3, ⟨h4, h5⟩, h6, ⟨h7, h8⟩, h9, h10⟩
    exact ⟨h1, h2, ⟨h3.symm, ⟨h4, h5⟩, h6.symm, h7, h8, h10.symm⟩, h9⟩
  · rintro ⟨h1, h2, ⟨h3, ⟨h4, h5⟩, h6, h7, h8, h10⟩, h9⟩
    exact ⟨h1, h2, h3.symm, ⟨h4, h5⟩, h6.symm, ⟨h7, h8⟩, h9, h10.symm⟩

/-! ## Injection -/

theorem verify_iff (p : Prims) (k : Public) (m sig : Bytes) :
    k.verify p m sig = .ok () ↔ p.sigOk sig ∧ p.ecdsaVerify k.sign m sig := by
  unfold Public.verify
  by_cases h1 : p.sigOk sig <;> by_cases h2 : p.ecdsaVerify k.sign m sig <;> simp [h1, h2]

theorem injectable_iff (hp : E.prims.Laws) (ct sig : Bytes) (key : Pair) :
    Injectable E.prims b.envelope b.setup ct sig key ↔ b.Injectable E ct sig key := by
  constructor
  · rintro ⟨h1, h2, h3, h4, h5⟩
    refine ⟨?_, (verify_iff ..).2 h2, h3, h4, h5⟩
    rw [← h1]; exact (public_of_pair _ hp _ _ h5).1
  · rintro ⟨h1, h2, h3, h4, h5⟩
    exact ⟨public_reencode _ _ _ h1, (verify_iff ..).1 h2, h3, h4, h5⟩

/-- An unacceptable key is refused before anything is touched. -/
theorem injectKey_refused (hE : E.Ok) {s : St} {ct sig : Bytes} (hw : b.Waiting E reqs [] s)
    (hno : ¬ ∃ key, b.Injectable E ct sig key) :
    Ends (injectKey E ct sig) s (fun _ _ => False) (fun _ s' => s'.files = s.files ∧ s'.trace = s.trace) := by
  obtain ⟨buf, hbuf, hhold⟩ := hw.manifest
  unfold injectKey
  refine ends_bind (getManifestEnvelope_ends (b.stored hE hw.since.ok hw.posted) hbuf hhold ?_ ⟨rfl, rfl⟩)
  rw [Envelope.manifest_withShares]
  refine ends_bind (ends_lift (fun q hq => ?_) fun _ _ => ⟨rfl, rfl⟩)
  refine ends_bind (ends_ensure (fun hver => ?_) fun _ => ⟨rfl, rfl⟩)
  obtain ⟨u, hver⟩ := except_isOk hver
  cases u
  obtain ⟨hsl, hsk⟩ := hw.since.ok.setup_seed hE
  refine ends_bind (readPair_ends (s := bump s) hsl hsk hw.ephemeral ?_ fun _ => ⟨rfl, rfl⟩)
  refine ends_bind (ends_lift (fun seed hseed => ?_) fun _ _ => ⟨rfl, rfl⟩)
  refine ends_bind (ends_lift (fun pair hpair => ?_) fun _ _ => ⟨rfl, rfl⟩)
  obtain ⟨hp1, hp2, hp3⟩ := injectedPair_ok hpair
  have hps := pair_seed _ _ _ hp2
  exfalso
  refine hno ⟨pair, ?_, ?_, ?_, ?_, ?_⟩
  · rw [hp3]; exact liftP256_ok hq
  · rw [hp3]; exact hver
  · rw [hps]; exact liftP256_ok hseed
  · rw [hps]; exact hp1
  · rw [hps]; exact hp2

/-- What a successful injection stores. -/
theorem injectKey_stores (hE : E.Ok) {s : St} {reqs0 : List Msg} {ct sig : Bytes} (hw : b.Waiting E reqs0 [] s)
    (hf : b.forward = true) (hreqs : reqs = reqs0 ++ [.injectKeyRequest ct sig]) :
    Ends (injectKey E ct sig) s (fun _ s' => ∃ key, b.Injectable E ct sig key ∧ b.Provisioned E reqs [] key s')
      (fun _ s' => b.Since E reqs s'.trace s'.files) := by
  have hsub : reqs0.Sublist reqs := by rw [hreqs]; exact List.sublist_append_left _ _
  have hS := hw.since.mono hsub
  have hold := hw.posted.mono hsub
  obtain ⟨buf, hbuf, hhold⟩ := hw.manifest
  unfold injectKey
  refine ends_bind (getManifestEnvelope_ends (b.stored hE hS.ok hold) hbuf hhold ?_ hS)
  rw [Envelope.manifest_withShares]
  refine ends_bind (ends_lift (fun q hq => ?_) fun _ _ => hS)
  refine ends_bind (ends_ensure (fun hver => ?_) fun _ => hS)
  obtain ⟨u, hver⟩ := except_isOk hver
  cases u
  obtain ⟨hsl, hsk⟩ := hS.ok.setup_seed hE
  refine ends_bind (readPair_ends (s := bump s) hsl hsk hw.ephemeral ?_ fun _ => hS)
  refine ends_bind (ends_lift (fun seed hseed => ?_) fun _ _ => hS)
  refine ends_bind (ends_lift (fun pair hpair => ?_) fun _ _ => hS)
  obtain ⟨hp1, hp2, hp3⟩ := injectedPair_ok hpair
  have hps := pair_seed _ _ _ hp2
  have hinj : b.Injectable E ct sig pair := ⟨by rw [hp3]; exact liftP256_ok hq, by rw [hp3]; exact hver,
    by rw [hps]; exact liftP256_ok hseed, by rw [hps]; exact hp1, by rw [hps]; exact hp2⟩
  refine ends_mono (install_ends (b := b) (reqs := reqs) (s := bump (bump s)) hE hS hold hw.pending hw.pivot
    ⟨buf, hbuf, hhold⟩ hw.quorum (by rw [hps]; exact ⟨hp1, hp2⟩) ?_ ?_) ?_ (fun _ _ h => h)
  · exact public_reencode _ _ _ hinj.names
  · exact .injected ct sig hf rfl (by rw [hreqs]; simp) hinj.signed hinj.decrypted
  · intro _ s2 h2
    exact ⟨pair, hinj, h2.1⟩

/-! ## Export -/

/-- What a successful export releases. -/
theorem exportKey_ends (hE : E.Ok) {s : St} {posts : List (Bytes × Approval)} {key : Pair}
    (hp : b.Provisioned E reqs posts key s) (new : Envelope) (der : Bytes) :
    Ends (exportKey E new der) s (fun r _ => ∃ ms doc pub, E.timestamp s.ios s.nsmHist = .ok ms ∧
        Attest.fromDer E.pki der E.rootCa (ms / 1000) = .ok doc ∧
        Exportable E.prims b.envelope new doc pub ∧
        pub.encrypt E.prims (E.randAt s.rands) key.seed = .ok r.1 ∧ r.2 = key.sign E.prims r.1)
      (fun _ _ => True) := by
  obtain ⟨buf, hbuf, hhold⟩ := hp.complete.manifest
  unfold exportKey extractAttestationDoc
  refine ends_bind (ends_bind (ends_get ?_))
  refine ends_bind (ends_run (a := E.io s.ios) (s' := bump s) rfl ?_)
  refine ends_bind (ends_lift (fun ms hms => ?_) fun _ _ => trivial)
  refine ends_lift (fun doc hdoc => ?_) fun _ _ => trivial
  unfold exportKeyInternal
  refine ends_bind (getManifestEnvelope_ends (s := bump s) (b.stored hE hp.since.ok hp.complete.posted) hbuf hhold ?_ trivial)
  refine ends_bind (ends_lift (fun u hv => ?_) fun _ _ => trivial)
  cases u
  obtain ⟨v1, v2, v3, k, v4⟩ := (validateManifest_iff _ _ _).1 hv
  rw [Envelope.manifest_withShares] at v3
  rw [v4.publicKey]
  simp only
  cases hpub : Public.fromBytes E.prims k with
  | error e => exact ends_fail trivial
  | ok pub =>
    simp only
    refine ends_bind (readPair_ends (s := bump (bump s)) hp.complete.seed.1 hp.complete.seed.2 hp.quorum ?_ fun _ => trivial)
    cases henc : pub.encrypt E.prims (E.randAt (bump (bump (bump s))).rands) key.seed with
    | error e =>
      refine ends_bind ?_
      unfold encryptTo Ends
      simp only [henc, liftP256]
    | ok ct =>
      refine ends_bind (ends_run (a := ct) (s' := { bump (bump (bump s)) with rands := (bump (bump (bump s))).rands + 1 }) ?_ ?_)
      · unfold encryptTo
        simp only [henc, liftP256]
      refine ends_pure ?_
      have hk := public_reencode _ _ _ hpub
      exact ⟨ms, doc, pub, liftAttest_iff.1 hms, liftAttest_iff.1 hdoc,
        ⟨v1, v2, v3, by rw [hk]; exact v4, by rw [hk]; exact hpub⟩, henc, rfl⟩

/-- An export that must succeed. -/
theorem exportKey_total (hE : E.Ok) (hio : ReliableFiles E) {s : St} {posts : List (Bytes × Approval)} {key : Pair}
    (hp : b.Provisioned E reqs posts key s) {new : Envelope} {der : Bytes} {ms : Nat} {doc : AttestationDoc}
    {pub : Public} (hms : E.timestamp s.ios s.nsmHist = .ok ms)
    (hdoc : Attest.fromDer E.pki der E.rootCa (ms / 1000) = .ok doc)
    (hx : Exportable E.prims b.envelope new doc pub) :
    Ends (exportKey E new der) s (fun _ _ => True) Never := by
  obtain ⟨buf, hbuf, hhold⟩ := hp.complete.manifest
  unfold exportKey extractAttestationDoc
  refine ends_bind (ends_bind (ends_get ?_))
  refine ends_bind (ends_run (a := E.io s.ios) (s' := bump s) rfl ?_)
  rw [liftAttest_iff.2 hms]
  refine ends_bind (ends_lift (fun ms' h => ?_) fun _ h => nomatch h)
  cases h
  rw [liftAttest_iff.2 hdoc]
  refine ends_lift (fun d h => ?_) fun _ h => nomatch h
  cases h
  unfold exportKeyInternal
  refine ends_bind (ends_run (getManifestEnvelope_total (s := bump s) hio (b.stored hE hp.since.ok hp.complete.posted) hbuf hhold) ?_)
  have hv : validateManifest E new (b.envelope.withShares (posts.map (·.2))) doc = .ok () :=
    (validateManifest_iff _ _ _).2 ⟨hx.approved, hx.noShares, by rw [Envelope.manifest_withShares]; exact hx.succeeds,
      _, hx.attested⟩
  rw [hv]
  refine ends_bind (ends_lift (fun u _ => ?_) fun _ h => nomatch h)
  rw [hx.attested.publicKey]
  simp only [hx.key]
  refine ends_bind (ends_run (readPair_total (s := bump (bump s)) hio hp.complete.seed.1 hp.complete.seed.2 hp.quorum) ?_)
  obtain ⟨ct, hct⟩ := encrypt_total E.prims hE.laws _ key.seed pub (E.randAt (bump (bump (bump s))).rands) hx.key (hE.rands _)
    (by rw [hp.complete.seed.1]; decide)
  refine ends_bind (ends_run (a := ct) (s' := { bump (bump (bump s)) with rands := (bump (bump (bump s))).rands + 1 }) ?_ ?_)
  · unfold encryptTo
    simp only [hct, liftP256]
  · exact ends_pure trivial

end Qos
