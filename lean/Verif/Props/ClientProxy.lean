import Verif.Props.ClientEnvelope
import Verif.Props.Attest
/-!
# C46: re-encrypting a share

Concrete cases: the share holders of `toy_provisioned` (`Props/ClientDeployToy.lean`) and `toy_proxy_command`.
-/
namespace Qos.Client
open P256 (Pair Public)
variable {S : Type}

theorem extractDoc_safe {pki : Attest.Pki} {root : Bytes} {now : Nat} {der : Bytes} {t : Option Nat} {doc : AttestationDoc} :
    extractDoc pki root now der false t = .ok doc ↔ Attest.fromDer pki der root (t.getD now) = .ok doc := by
  simp [extractDoc]

theorem ephemeralKey_ok {p : Prims} {doc : AttestationDoc} {k : Public} :
    ephemeralKey p doc = .ok k ↔ ∃ b, doc.publicKey = some b ∧ Public.fromBytes p b = .ok k := by
  unfold ephemeralKey
  simp only [ebind_ok, orStop_ok, mapStop_ok]

theorem checkPcr3_ok {p : Prims} {role : String} {x : Bytes} {u : Unit} :
    checkPcr3 p role x = .ok u ↔ x = rolePcr3 p role := by
  unfold checkPcr3
  rw [guardStop_ok, decide_eq_true_eq]
  exact ⟨Eq.symm, Eq.symm⟩

theorem checkApprovals_bool {p : Prims} {e : Envelope} :
    isOk (e.checkApprovals p) = true ↔ e.checkApprovals p = .ok () := by
  cases e.checkApprovals p <;> simp [isOk]

theorem verifyManifest_ok {p : Prims} {kind : Attest.Kind} {d : AttestationDoc} {i : Attest.Input} {u : Unit} :
    Attest.verifyManifest p kind d i = .ok u ↔ ∃ key, Attest.Matches p kind d i key := Attest.verify_manifest_exact p kind d i

/-- The checks pass exactly when the document is genuine, the approvals are a quorum, and the member holds a share. -/
theorem proxyChecks_iff (C : Setting S) (pair : Pair) (a : ProxyArgs) (hs : a.unsafeSkip = false)
    (hu : a.unsafeEphPath = none) (x : ProxyChecked) :
    proxyChecks C pair a = .ok x ↔
      EnvelopeIn C.disk a.envelopePath x.envelope ∧ C.disk.file a.sharePath = some x.encryptedShare ∧
      (∃ der key, C.disk.file a.docPath = some der ∧
        GenuineDoc C der a.pcr3Path x.role x.envelope.manifest key ∧ Public.fromBytes C.prims key = .ok x.target) ∧
      x.envelope.checkApprovals C.prims = .ok () ∧
      SetIn C.prims C.disk a.manifestSetDir x.envelope.manifest.manifestSet ∧
      ⟨a.memberAlias, (pair.publicKey C.prims).toBytes⟩ ∈ x.envelope.manifest.shareSet.members := by
  unfold proxyChecks readDoc proxyAttestation proxyVerifications
  rw [hs, hu]
  simp only [ebind_ok, epure_ok, orStop_ok, mapStop_ok, readEnvelope_iff, role_exact, set_exact, guardStop_ok,
    extractDoc_safe, Bool.false_eq_true, if_false, targetKey, ephemeralKey_ok, checkPcr3_ok, Option.getD_none,
    verifyManifest_ok, Bool.and_eq_true, checkApprovals_bool, decide_eq_true_eq, List.contains_iff_mem,
    Attest.fromDer_exact]
  constructor
  · rintro ⟨e, he, doc, ⟨der, hder, hd, hw, hch, hsg⟩, share, hsh, role, hr, _, ⟨_, h3, key, hm⟩, k, ⟨b, hb, hk⟩, set, hset,
      _, ⟨⟨hc, rfl⟩, hmem⟩, rfl⟩
    have : b = key := by
      have := hm.publicKey
      rw [hb] at this
      exact Option.some.inj this
    subst this
    exact ⟨he, hsh, ⟨der, b, hder, ⟨⟨doc, hd, hw, hch, hsg, hm⟩, hr, h3⟩, hk⟩, hc, hset, hmem⟩
  · rintro ⟨he, hsh, ⟨der, key, hder, ⟨⟨doc, hd, hw, hch, hsg, hm⟩, hr, h3⟩, hk⟩, hc, hset, hmem⟩
    exact ⟨_, he, doc, ⟨der, hder, hd, hw, hch, hsg⟩, _, hsh, _, hr, (), ⟨(), h3, key, hm⟩, _, ⟨key, hm.publicKey, hk⟩, _, hset,
      (), ⟨⟨hc, rfl⟩, hmem⟩, rfl⟩

theorem shareReviewed_of {e : Envelope} {role : String} {es : List Event} (h : AllConfirmed (proxyQuestions e role) es) :
    ShareReviewed e role es := by
  refine ⟨mem_allConfirmed h (by simp [proxyQuestions]), mem_allConfirmed h (by simp [proxyQuestions]),
    mem_allConfirmed h (by simp [proxyQuestions]), _, ?_, mem_allConfirmed h (q := .approvers (sortedAliases e.manifestSetApprovals)) (by simp [proxyQuestions])⟩
  unfold sortedAliases
  exact List.perm_insertionSort _ _

theorem reEncrypt_ok {C : Setting S} {pair : Pair} {k : Public} {x w : Bytes} :
    reEncrypt C pair k x = .ok w ↔ ∃ share, pair.decrypt C.prims x = .ok share ∧ k.encrypt C.prims C.rand share = .ok w := by
  unfold reEncrypt
  simp only [ebind_ok, mapStop_ok]

/-! ## Property theorems -/

/-- The same for any two secrets. -/
theorem proxy_safe_secrets (C : Setting S) (hp : C.prims.Laws) (hrand : C.rand.Ok C.prims) (pair : Pair)
    (hk : C.prims.scalarOk pair.encSecret ∧ C.prims.scalarOk pair.signSecret) (a : ProxyArgs) (input : List String) (s : S)
    (h1 : a.unsafeSkip = false) (h2 : a.unsafeEphPath = none) (h3 : a.autoConfirm = false)
    (path : String) (contents : Bytes) (h : .wrote path contents ∈ (proxyReEncryptShare C pair a input s).events) :
    ∃ e der role key es share approval wrapped,
      EnvelopeIn C.disk a.envelopePath e ∧
      (∃ enc, C.disk.file a.sharePath = some enc ∧ pair.decrypt C.prims enc = .ok share) ∧
      C.disk.file a.docPath = some der ∧ GenuineDoc C der a.pcr3Path role e.manifest key ∧
      Quorum C.prims (e.manifest.hash C.prims) e.manifest.manifestSet e.manifestSetApprovals ∧
      SetIn C.prims C.disk a.manifestSetDir e.manifest.manifestSet ∧
      ⟨a.memberAlias, (pair.publicKey C.prims).toBytes⟩ ∈ e.manifest.shareSet.members ∧
      ShareReviewed e role es ∧
      ApprovalText C.prims a.memberAlias (pair.publicKey C.prims).toBytes (e.manifest.hash C.prims) approval ∧
      (∀ seed' eph, Pair.fromMasterSeed C.prims seed' = .ok eph → (eph.publicKey C.prims).toBytes = key →
        eph.decrypt C.prims wrapped = .ok share) ∧
      ((proxyReEncryptShare C pair a input s).events = es ++ [.wrote a.approvalPath approval] ∨
       (proxyReEncryptShare C pair a input s).events = es ++ [.wrote a.approvalPath approval, .wrote a.wrappedPath wrapped]) ∧
      (proxyReEncryptShare C pair a input s).state = s := by
  unfold proxyReEncryptShare at h ⊢
  rcases Run.lift_cases (proxyChecks C pair a) _ s with ⟨e, he, hr⟩ | ⟨x, hx, hr⟩
  · rw [hr] at h
    cases h
  · rw [hr] at h ⊢
    obtain ⟨g1, g2, ⟨der, key, g3, g4, g5⟩, g6, g7, g8⟩ := (proxyChecks_iff C pair a h1 h2 x).mp hx
    rw [confirm_bind, if_neg (by simp [h3])] at h ⊢
    by_cases hi : (interview (proxyQuestions x.envelope x.role) input).1 = true
    · rw [if_pos hi] at h ⊢
      rcases Run.lift_cases (reEncrypt C pair x.target x.encryptedShare) _ s with ⟨e, he, hr'⟩ | ⟨w, hw, hr'⟩
      · rw [hr'] at h
        simp only [List.append_nil] at h
        exact absurd h (not_wrote_interview _ _ _ _)
      · rw [hr', write_bind] at h ⊢
        obtain ⟨share, hsh, henc⟩ := reEncrypt_ok.mp hw
        by_cases hw1 : C.disk.writable a.approvalPath = true
        · rw [if_pos hw1] at h ⊢
          refine ⟨x.envelope, der, x.role, key, _, share, _, w, g1, ⟨_, g2, hsh⟩, g3, g4,
            check_approvals_sound _ _ g6, g7, g8, shareReviewed_of (interview_confirmed _ _ hi),
            signed_secrets _ hp pair hk _ _, ?_, ?_, ?_⟩
          · intro seed' eph heph hkey
            have hpub := (P256.public_of_pair C.prims hp seed' eph heph).1
            rw [hkey, g5] at hpub
            have hpub : x.target = eph.publicKey C.prims := by injection hpub
            rw [hpub] at henc
            exact P256.decrypt_encrypt C.prims hp seed' share w eph C.rand heph hrand henc
          · unfold write
            by_cases hw2 : C.disk.writable a.wrappedPath = true
            · rw [if_pos hw2]
              exact Or.inr rfl
            · rw [if_neg hw2]
              exact Or.inl rfl
          · unfold write
            by_cases hw2 : C.disk.writable a.wrappedPath = true
            · rw [if_pos hw2]
            · rw [if_neg hw2]
        · rw [if_neg hw1] at h
          simp only [List.append_nil] at h
          exact absurd h (not_wrote_interview _ _ _ _)
    · rw [if_neg hi] at h
      exact absurd h (not_wrote_interview _ _ _ _)

/-- C46: with the safety switches left alone, a share leaves the operator's hands only for an enclave whose genuine
attestation document, checked now against the AWS root, shows the approved manifest, the operator's own role and a
committed ephemeral key; after the operator has confirmed; and the file written is the share encrypted to exactly that
key. Nothing is sent. -/
theorem proxy_safe (C : Setting S) (hp : C.prims.Laws) (hrand : C.rand.Ok C.prims) (seed : Bytes) (pair : Pair)
    (hk : Pair.fromMasterSeed C.prims seed = .ok pair) (a : ProxyArgs) (input : List String) (s : S)
    (h1 : a.unsafeSkip = false) (h2 : a.unsafeEphPath = none) (h3 : a.autoConfirm = false)
    (path : String) (contents : Bytes) (h : .wrote path contents ∈ (proxyReEncryptShare C pair a input s).events) :
    ∃ e der role key es share approval wrapped,
      EnvelopeIn C.disk a.envelopePath e ∧
      (∃ enc, C.disk.file a.sharePath = some enc ∧ pair.decrypt C.prims enc = .ok share) ∧
      C.disk.file a.docPath = some der ∧ GenuineDoc C der a.pcr3Path role e.manifest key ∧
      Quorum C.prims (e.manifest.hash C.prims) e.manifest.manifestSet e.manifestSetApprovals ∧
      SetIn C.prims C.disk a.manifestSetDir e.manifest.manifestSet ∧
      ⟨a.memberAlias, (pair.publicKey C.prims).toBytes⟩ ∈ e.manifest.shareSet.members ∧
      ShareReviewed e role es ∧
      ApprovalText C.prims a.memberAlias (pair.publicKey C.prims).toBytes (e.manifest.hash C.prims) approval ∧
      (∀ seed' eph, Pair.fromMasterSeed C.prims seed' = .ok eph → (eph.publicKey C.prims).toBytes = key →
        eph.decrypt C.prims wrapped = .ok share) ∧
      ((proxyReEncryptShare C pair a input s).events = es ++ [.wrote a.approvalPath approval] ∨
       (proxyReEncryptShare C pair a input s).events = es ++ [.wrote a.approvalPath approval, .wrote a.wrappedPath wrapped]) ∧
      (proxyReEncryptShare C pair a input s).state = s :=
  proxy_safe_secrets C hp hrand pair (P256.pair_scalars _ seed pair hk) a input s h1 h2 h3 path contents h

/-- C46: conversely, for a genuine document, a quorum and a confirming operator both files are written. -/
theorem proxy_complete (C : Setting S) (hp : C.prims.Laws) (hrand : C.rand.Ok C.prims) (pair : Pair) (a : ProxyArgs)
    (input : List String) (s : S) (h1 : a.unsafeSkip = false) (h2 : a.unsafeEphPath = none)
    (e : Envelope) (der enc share : Bytes) (role : String) (key : Bytes) (target : Public)
    (he : EnvelopeIn C.disk a.envelopePath e) (hsh : C.disk.file a.sharePath = some enc)
    (hdec : pair.decrypt C.prims enc = .ok share) (hlen : share.length < 2 ^ 31)
    (hder : C.disk.file a.docPath = some der) (hg : GenuineDoc C der a.pcr3Path role e.manifest key)
    (hkey : Public.fromBytes C.prims key = .ok target) (hc : e.checkApprovals C.prims = .ok ())
    (hset : SetIn C.prims C.disk a.manifestSetDir e.manifest.manifestSet)
    (hmem : ⟨a.memberAlias, (pair.publicKey C.prims).toBytes⟩ ∈ e.manifest.shareSet.members)
    (hi : 4 ≤ input.length) (hy : ∀ l ∈ input, IsYes l) (hw : ∀ path, C.disk.writable path = true) :
    (proxyReEncryptShare C pair a input s).result = .ok () ∧
    ∃ w1 w2, .wrote a.approvalPath w1 ∈ (proxyReEncryptShare C pair a input s).events ∧
      .wrote a.wrappedPath w2 ∈ (proxyReEncryptShare C pair a input s).events := by
  obtain ⟨w, henc⟩ := P256.encrypt_total C.prims hp key share target C.rand hkey hrand hlen
  unfold proxyReEncryptShare
  rw [Run.lift_ok ((proxyChecks_iff C pair a h1 h2 ⟨e, enc, role, target⟩).mpr
    ⟨he, hsh, ⟨der, key, hder, hg, hkey⟩, hc, hset, hmem⟩), confirm_bind]
  have hin := interview_yes (proxyQuestions e role) input (by simpa [proxyQuestions] using hi) hy
  have hl := Run.lift_ok (S := S) (β := Unit) (reEncrypt_ok.mpr ⟨share, hdec, henc⟩)
  have hwr : ∀ (q : String) (b : Bytes), write C q b s = ⟨.ok (), s, [.wrote q b]⟩ := by
    intro q b
    unfold write
    rw [if_pos (hw q)]
  by_cases ha : a.autoConfirm = true
  · rw [if_pos ha, hl, write_bind, if_pos (hw _), hwr]
    exact ⟨rfl, _, _, List.mem_cons_self .., List.mem_cons_of_mem _ (List.mem_singleton.mpr rfl)⟩
  · rw [if_neg ha, if_pos hin, hl, write_bind, if_pos (hw _), hwr]
    exact ⟨rfl, _, _, List.mem_append_right _ (List.mem_cons_self ..),
      List.mem_append_right _ (List.mem_cons_of_mem _ (List.mem_singleton.mpr rfl))⟩

end Qos.Client
