import Verif.Props.YubikeyLike
/-!
# C64: approving and re-encrypting with a card whose secrets nobody knows
-/
namespace Qos.Yubi
open Client (Stop ClientError YubiKeyError Setting Run Disk orStop mapStop guardStop)
open P256 (Pair Public)

section
variable {p : Prims} {der : Bytes → Option Bytes} (M : Maker p der)

theorem shows_run (hp : p.Laws) {d : Card} {pin signing agreement : Bytes} (h : d.Usable p pin signing agreement)
    (hs : p.scalarOk signing = true) (ha : p.scalarOk agreement = true) (l : List (Cmd × Answer)) :
    ∃ l', (Holder.yubi pin).publicKeyBytes p (Card.piv M) ⟨d, l⟩ = ⟨.ok (p.point agreement ++ p.point signing), ⟨d, l'⟩, []⟩ := by
  obtain ⟨l', e⟩ := card_shows M hp h.2 hs ha l
  exact ⟨l', onCard_ok e⟩

theorem signs_run (hp : p.Laws) (hd : DerOk p der) {d : Card} {pin signing agreement : Bytes}
    (h : d.Usable p pin signing agreement) (hs : p.scalarOk signing = true) (data : Bytes) (l : List (Cmd × Answer)) :
    ∃ sig d' l', (Holder.yubi pin).sign p der (Card.piv M) data ⟨d, l⟩ = ⟨.ok sig, ⟨d', l'⟩, []⟩ ∧ p.sigOk sig = true ∧
      p.ecdsaVerify (p.point signing) data sig = true ∧ d.Same d' ∧ d'.Usable p pin signing agreement := by
  obtain ⟨sig, d', l', e, h1, h2, h3, h4⟩ := card_signs M hp hd h hs data l
  exact ⟨sig, d', l', onCard_ok e, h1, h2, h3, h4⟩

end

theorem orPanic_ok {S α : Type} {x : Run S α} {s t : S} {a : α} (h : x s = ⟨.ok a, t, []⟩) : orPanic x s = ⟨.ok a, t, []⟩ := by
  simp [orPanic, h, mapStop]

theorem orPanic_error {S α : Type} {x : Run S α} {s t : S} {e : Stop} (h : x s = ⟨.error e, t, []⟩) :
    orPanic x s = ⟨.error .panic, t, []⟩ := by
  simp [orPanic, h, mapStop]

variable {C : Setting (Plugged Card)} {der : Bytes → Option Bytes} (M : Maker C.prims der) {c : Card}
  {pin signing agreement : Bytes}

/-- What an approval with a card comes to after the questions. -/
theorem approve_tail (hp : C.prims.Laws) (hd : DerOk C.prims der) (hu : c.Usable C.prims pin signing agreement)
    (hs : C.prims.scalarOk signing = true) (ha : C.prims.scalarOk agreement = true) (a : Client.ApproveArgs) (m : VersionedManifest)
    (l : List (Cmd × Answer)) :
    ∃ sig d l', ((do
        let sig ← (Holder.yubi pin).sign C.prims der (Card.piv M) (m.hash C.prims)
        let key ← (Holder.yubi pin).publicKeyBytes C.prims (Card.piv M)
        Client.write C (Client.pathJoin a.approvalsDir (Client.approvalName a.memberAlias m))
          (Client.approvalBytes ⟨sig, ⟨a.memberAlias, key⟩⟩) : Run (Plugged Card) Unit) ⟨c, l⟩) =
      Client.write C (Client.pathJoin a.approvalsDir (Client.approvalName a.memberAlias m))
        (Client.approvalBytes ⟨sig, ⟨a.memberAlias, C.prims.point agreement ++ C.prims.point signing⟩⟩) ⟨d, l'⟩ ∧
      c.Same d ∧ d.Usable C.prims pin signing agreement ∧
      Client.ApprovalText C.prims a.memberAlias (C.prims.point agreement ++ C.prims.point signing) (m.hash C.prims)
        (Client.approvalBytes ⟨sig, ⟨a.memberAlias, C.prims.point agreement ++ C.prims.point signing⟩⟩) := by
  obtain ⟨sig, d, l1, e1, h1, h2, h3, h4⟩ := signs_run M hp hd hu hs (m.hash C.prims) l
  obtain ⟨l2, e2⟩ := shows_run M hp h4 hs ha l1
  refine ⟨sig, d, l2, ?_, h3, h4, ?_⟩
  · rw [run_ok' e1, run_ok' e2]
  · refine Client.signature_text C.prims hp ⟨[], agreement, signing, []⟩ ⟨ha, hs⟩ a.memberAlias (m.hash C.prims) sig ?_
    simp [Public.verify, Pair.publicKey, h1, h2]

/-- The promise of `approve-manifest` holds with a card, also when the card drew its secrets itself: an approval is only written
for a manifest that agrees with the local files and that the operator confirmed; it is the approval of that manifest by the member
with the public key the card shows. Nothing else is written, and the card keeps what it holds. -/
theorem approve_safe_card (hp : C.prims.Laws) (hd : DerOk C.prims der) (hu : c.Usable C.prims pin signing agreement)
    (hs : C.prims.scalarOk signing = true) (ha : C.prims.scalarOk agreement = true) (a : Client.ApproveArgs) (input : List String)
    (l : List (Cmd × Answer)) (path : String) (contents : Bytes)
    (h : .wrote path contents ∈ (approveManifest C der (Card.piv M) (.yubi pin) a input ⟨c, l⟩).events) :
    ∃ m es, Client.ManifestIn C.disk a.manifestPath m ∧ Client.LocalMatch C.prims C.awsRoot C.disk a.places m ∧
      (approveManifest C der (Card.piv M) (.yubi pin) a input ⟨c, l⟩).events = es ++ [.wrote path contents] ∧
      (a.autoConfirm = false → Client.Reviewed m es) ∧
      Client.ApprovalText C.prims a.memberAlias (C.prims.point agreement ++ C.prims.point signing) (m.hash C.prims) contents ∧
      (∃ name, Client.IsNameFor a.memberAlias m name ∧ path = Client.pathJoin a.approvalsDir name) ∧
      c.Same (approveManifest C der (Card.piv M) (.yubi pin) a input ⟨c, l⟩).state.card ∧
      (approveManifest C der (Card.piv M) (.yubi pin) a input ⟨c, l⟩).state.card.Usable C.prims pin signing agreement := by
  unfold approveManifest at h ⊢
  rcases Client.Run.lift_cases (Client.approveChecks C a) _ (⟨c, l⟩ : Plugged Card) with ⟨e, he, hr⟩ | ⟨m, hm, hr⟩
  · rw [hr] at h
    cases h
  · rw [hr] at h ⊢
    clear hr
    obtain ⟨h1, h2⟩ := (Client.approveChecks_iff C a m).mp hm
    obtain ⟨sig, d, l', e, g1, g2, g3⟩ := approve_tail M hp hd hu hs ha a m l
    rw [Client.confirm_bind] at h ⊢
    rw [e] at h ⊢
    unfold Client.write at h ⊢
    by_cases hw : C.disk.writable (Client.pathJoin a.approvalsDir (Client.approvalName a.memberAlias m)) = true
    · rw [if_pos hw] at h ⊢
      by_cases hauto : a.autoConfirm = true
      · rw [if_pos hauto] at h ⊢
        simp only [List.mem_singleton, Client.Event.wrote.injEq] at h
        obtain ⟨rfl, rfl⟩ := h
        exact ⟨m, [], h1, h2, rfl, by simp [hauto], g3, ⟨_, Client.approvalName_for _ _, rfl⟩, g1, g2⟩
      · rw [if_neg hauto] at h ⊢
        by_cases hi : (Client.interview (Client.approveQuestions m) input).1 = true
        · rw [if_pos hi] at h ⊢
          simp only [List.mem_append, List.mem_singleton, Client.Event.wrote.injEq] at h
          rcases h with h | ⟨rfl, rfl⟩
          · exact absurd h (Client.not_wrote_interview _ _ _ _)
          · exact ⟨m, _, h1, h2, rfl, fun _ => Client.reviewed_of (Client.interview_confirmed _ _ hi), g3,
              ⟨_, Client.approvalName_for _ _, rfl⟩, g1, g2⟩
        · rw [if_neg hi] at h
          exact absurd h (Client.not_wrote_interview _ _ _ _)
    · rw [if_neg hw] at h
      by_cases hauto : a.autoConfirm = true
      · rw [if_pos hauto] at h
        cases h
      · rw [if_neg hauto] at h
        by_cases hi : (Client.interview (Client.approveQuestions m) input).1 = true
        · rw [if_pos hi] at h
          simp only [List.append_nil] at h
          exact absurd h (Client.not_wrote_interview _ _ _ _)
        · rw [if_neg hi] at h
          exact absurd h (Client.not_wrote_interview _ _ _ _)

theorem proxyChecks_split {S : Type} (C : Setting S) (k : Pair) (a : Client.ProxyArgs) :
    Client.proxyChecks C k a = (do
      let x ← proxyInputs C a
      proxyMember C a x.envelope (k.publicKey C.prims).toBytes
      return x) := by
  unfold Client.proxyChecks proxyInputs proxyMember
  simp only [bind_assoc, pure_bind]

/-- What re-encrypting with a card comes to after the questions: nothing, or both files. -/
theorem proxy_tail (hp : C.prims.Laws) (hd : DerOk C.prims der) (hu : c.Usable C.prims pin signing agreement)
    (hs : C.prims.scalarOk signing = true) (ha : C.prims.scalarOk agreement = true) (a : Client.ProxyArgs) (x : Client.ProxyChecked)
    (l : List (Cmd × Answer)) (key : Bytes) :
    ∀ r, r = ((do
        let share ← orPanic ((Holder.yubi pin).decrypt C.prims (Card.piv M) x.encryptedShare)
        let wrapped ← Run.lift (mapStop (x.target.encrypt C.prims C.rand share) fun _ => .panic)
        let sig ← orPanic ((Holder.yubi pin).sign C.prims der (Card.piv M) (x.envelope.manifest.hash C.prims))
        Client.write C a.approvalPath (Client.approvalBytes ⟨sig, ⟨a.memberAlias, key⟩⟩)
        Client.write C a.wrappedPath wrapped : Run (Plugged Card) Unit) ⟨c, l⟩) →
    c.Same r.state.card ∧ r.state.card.Usable C.prims pin signing agreement ∧
    (r.events = [] ∨ ∃ share wrapped sig, P256.openSealed C.prims agreement x.encryptedShare = .ok share ∧
      x.target.encrypt C.prims C.rand share = .ok wrapped ∧ C.prims.sigOk sig = true ∧
      C.prims.ecdsaVerify (C.prims.point signing) (x.envelope.manifest.hash C.prims) sig = true ∧
      (r.events = [.wrote a.approvalPath (Client.approvalBytes ⟨sig, ⟨a.memberAlias, key⟩⟩)] ∨
        r.events = [.wrote a.approvalPath (Client.approvalBytes ⟨sig, ⟨a.memberAlias, key⟩⟩), .wrote a.wrappedPath wrapped])) := by
  rintro r rfl
  obtain ⟨res, d, l1, e1, h1, h2, h3⟩ := card_decrypts M hp hu ha x.encryptedShare l
  cases res with
  | error e =>
    rw [run_error' (orPanic_error e1)]
    exact ⟨h1, h2, Or.inl rfl⟩
  | ok share =>
    have hopen := (h3 share).mp rfl
    rw [run_ok' (orPanic_ok e1)]
    rcases Client.Run.lift_cases (mapStop (x.target.encrypt C.prims C.rand share) fun _ => Stop.panic) _ (⟨d, l1⟩ : Plugged Card)
      with ⟨e, he, hr⟩ | ⟨w, hw, hr⟩
    · rw [hr]
      exact ⟨h1, h2, Or.inl rfl⟩
    · rw [hr]
      clear hr
      obtain ⟨sig, d', l2, e2, g1, g2, g3, g4⟩ := signs_run M hp hd h2 hs (x.envelope.manifest.hash C.prims) l1
      rw [run_ok' (orPanic_ok e2), Client.write_bind]
      by_cases hw1 : C.disk.writable a.approvalPath = true
      · rw [if_pos hw1]
        unfold Client.write
        by_cases hw2 : C.disk.writable a.wrappedPath = true
        · rw [if_pos hw2]
          exact ⟨Same.trans h1 g3, g4, Or.inr ⟨share, w, sig, hopen, Client.mapStop_ok.mp hw, g1, g2, Or.inr rfl⟩⟩
        · rw [if_neg hw2]
          exact ⟨Same.trans h1 g3, g4, Or.inr ⟨share, w, sig, hopen, Client.mapStop_ok.mp hw, g1, g2, Or.inl rfl⟩⟩
      · rw [if_neg hw1]
        exact ⟨Same.trans h1 g3, g4, Or.inl rfl⟩

/-- The promise of `proxy-re-encrypt-share` holds with a card, also when the card drew its secrets itself: a re-encrypted share is
only handed out for a genuine attestation document of the enclave that runs the approved manifest, to that enclave alone. -/
theorem proxy_safe_card (hp : C.prims.Laws) (hrand : C.rand.Ok C.prims) (hd : DerOk C.prims der)
    (hu : c.Usable C.prims pin signing agreement) (hs : C.prims.scalarOk signing = true) (ha : C.prims.scalarOk agreement = true)
    (a : Client.ProxyArgs) (input : List String) (l : List (Cmd × Answer))
    (h1 : a.unsafeSkip = false) (h2 : a.unsafeEphPath = none) (h3 : a.autoConfirm = false) (path : String) (contents : Bytes)
    (h : .wrote path contents ∈ (proxyReEncryptShare C der (Card.piv M) (.yubi pin) a input ⟨c, l⟩).events) :
    ∃ e doc role key es share approval wrapped,
      Client.EnvelopeIn C.disk a.envelopePath e ∧
      (∃ enc, C.disk.file a.sharePath = some enc ∧ P256.openSealed C.prims agreement enc = .ok share) ∧
      C.disk.file a.docPath = some doc ∧ Client.GenuineDoc C doc a.pcr3Path role e.manifest key ∧
      Quorum C.prims (e.manifest.hash C.prims) e.manifest.manifestSet e.manifestSetApprovals ∧
      Client.SetIn C.prims C.disk a.manifestSetDir e.manifest.manifestSet ∧
      ⟨a.memberAlias, C.prims.point agreement ++ C.prims.point signing⟩ ∈ e.manifest.shareSet.members ∧
      Client.ShareReviewed e role es ∧
      Client.ApprovalText C.prims a.memberAlias (C.prims.point agreement ++ C.prims.point signing) (e.manifest.hash C.prims)
        approval ∧
      (∀ seed' eph, Pair.fromMasterSeed C.prims seed' = .ok eph → (eph.publicKey C.prims).toBytes = key →
        eph.decrypt C.prims wrapped = .ok share) ∧
      ((proxyReEncryptShare C der (Card.piv M) (.yubi pin) a input ⟨c, l⟩).events = es ++ [.wrote a.approvalPath approval] ∨
       (proxyReEncryptShare C der (Card.piv M) (.yubi pin) a input ⟨c, l⟩).events =
          es ++ [.wrote a.approvalPath approval, .wrote a.wrappedPath wrapped]) ∧
      c.Same (proxyReEncryptShare C der (Card.piv M) (.yubi pin) a input ⟨c, l⟩).state.card := by
  unfold proxyReEncryptShare at h ⊢
  rcases Client.Run.lift_cases (proxyInputs C a) _ (⟨c, l⟩ : Plugged Card) with ⟨e, he, hr⟩ | ⟨x, hx, hr⟩
  · rw [hr] at h
    cases h
  · rw [hr] at h ⊢
    clear hr
    obtain ⟨l1, e1⟩ := shows_run M hp hu hs ha l
    rw [run_ok' e1] at h ⊢
    rcases Client.Run.lift_cases (proxyMember C a x.envelope (C.prims.point agreement ++ C.prims.point signing)) _
      (⟨c, l1⟩ : Plugged Card) with ⟨e, he, hr⟩ | ⟨u, hm, hr⟩
    · rw [hr] at h
      cases h
    · rw [hr] at h ⊢
      clear hr
      have hchecks : Client.proxyChecks C ⟨[], agreement, signing, []⟩ a = .ok x := by
        rw [proxyChecks_split]
        refine Client.ebind_ok.mpr ⟨x, hx, Client.ebind_ok.mpr ⟨u, hm, rfl⟩⟩
      obtain ⟨g1, g2, ⟨doc, key, g3, g4, g5⟩, g6, g7, g8⟩ := (Client.proxyChecks_iff C _ a h1 h2 x).mp hchecks
      rw [Client.confirm_bind, if_neg (by simp [h3])] at h ⊢
      by_cases hi : (Client.interview (Client.proxyQuestions x.envelope x.role) input).1 = true
      · rw [if_pos hi] at h ⊢
        obtain ⟨k1, k2, k3⟩ := proxy_tail M hp hd hu hs ha a x l1 (C.prims.point agreement ++ C.prims.point signing) _ rfl
        rcases k3 with k3 | ⟨share, w, sig, hsh, henc, hso, hsv, k3⟩
        · simp only [k3, List.append_nil] at h
          exact absurd h (Client.not_wrote_interview _ _ _ _)
        · refine ⟨x.envelope, doc, x.role, key, _, share, _, w, g1, ⟨_, g2, hsh⟩, g3, g4, check_approvals_sound _ _ g6, g7, g8,
            Client.shareReviewed_of (Client.interview_confirmed _ _ hi),
            Client.signature_text C.prims hp ⟨[], agreement, signing, []⟩ ⟨ha, hs⟩ a.memberAlias
              (x.envelope.manifest.hash C.prims) sig (by simp [Public.verify, Pair.publicKey, hso, hsv]), ?_, ?_, k1⟩
          · intro seed' eph heph hkey
            have hpub := (P256.public_of_pair C.prims hp seed' eph heph).1
            rw [hkey, g5] at hpub
            have hpub : x.target = eph.publicKey C.prims := by injection hpub
            rw [hpub] at henc
            exact P256.decrypt_encrypt C.prims hp seed' share w eph C.rand heph hrand henc
          · rcases k3 with k3 | k3
            · exact Or.inl (congrArg _ k3)
            · exact Or.inr (congrArg _ k3)
      · rw [if_neg hi] at h
        exact absurd h (Client.not_wrote_interview _ _ _ _)

end Qos.Yubi
