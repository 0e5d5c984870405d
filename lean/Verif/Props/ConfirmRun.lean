import Verif.Props.Confirm
import Verif.Props.ClientApprove
import Verif.Props.ClientProxy
/-!
# The two confirming commands, exactly (C44, C46)

`approve-manifest` and `proxy-re-encrypt-share` succeed exactly when the checks pass and the operator confirms every
question (hesitations included), whatever else is typed afterwards.
-/
namespace Qos.Client
open P256 (Pair Public)
variable {S : Type}

/-- What is typed starts with one confirming group of lines for each question. -/
def ConfirmsAll (qs : List Question) (input : List String) : Prop :=
  ∃ answers rest, input = List.flatten answers ++ rest ∧ answers.length = qs.length ∧ ∀ a ∈ answers, Confirmed a

/-- C43: the verdict of a round of questions is whether the operator confirms them all. -/
theorem interview_iff (qs : List Question) (input : List String) :
    (interview qs input).1 = true ↔ ConfirmsAll qs input := by
  constructor
  · intro h
    obtain ⟨answers, rest, h1, h2, h3, _⟩ := (interview_exact qs input (interview qs input).2).mp (by rw [← h])
    exact ⟨answers, rest, h1, h2, h3⟩
  · rintro ⟨answers, rest, h1, h2, h3⟩
    rw [(interview_exact qs input _).mpr ⟨answers, rest, h1, h2, h3, rfl⟩]

theorem mapped {f : Char → Char} {a b : List Char} (h : List.Forall₂ (fun c d => d = f c) a b) : b = a.map f := by
  induction h with
  | nil => rfl
  | cons h _ ih => rw [h, ih]; rfl

theorem IsNameFor.unique {member : String} {m : VersionedManifest} {x y : String} (hx : IsNameFor member m x)
    (hy : IsNameFor member m y) : x = y := by
  obtain ⟨n, rfl, h⟩ := hx
  obtain ⟨k, rfl, h'⟩ := hy
  rw [String.toList_inj.mp ((mapped h).trans (mapped h').symm)]

/-- C44: `approve-manifest` succeeds exactly when the manifest in the file agrees with the operator's own files, the
operator confirms every question (or has switched the questions off) and the approval can be written. -/
theorem approve_exact (C : Setting S) (pair : Pair) (a : ApproveArgs) (input : List String) (s : S) :
    (approveManifest C pair a input s).result = .ok () ↔
      ∃ m name, ManifestIn C.disk a.manifestPath m ∧ LocalMatch C.prims C.awsRoot C.disk a.places m ∧
        (a.autoConfirm = true ∨ ConfirmsAll (approveQuestions m) input) ∧
        IsNameFor a.memberAlias m name ∧ C.disk.writable (pathJoin a.approvalsDir name) = true := by
  unfold approveManifest
  constructor
  · intro h
    rcases Run.lift_cases (approveChecks C a) _ s with ⟨e, he, hr⟩ | ⟨m, hm, hr⟩
    · rw [hr] at h
      cases h
    · rw [hr, confirm_bind] at h
      obtain ⟨h1, h2⟩ := (approveChecks_iff C a m).mp hm
      have hw : ∀ c : Bytes, (write C (pathJoin a.approvalsDir (approvalName a.memberAlias m)) c s).result = .ok () →
          C.disk.writable (pathJoin a.approvalsDir (approvalName a.memberAlias m)) = true := by
        intro c hc
        unfold write at hc
        by_cases hw : C.disk.writable (pathJoin a.approvalsDir (approvalName a.memberAlias m)) = true
        · exact hw
        · rw [if_neg hw] at hc
          cases hc
      by_cases ha : a.autoConfirm = true
      · rw [if_pos ha] at h
        exact ⟨m, _, h1, h2, .inl ha, approvalName_for _ _, hw _ h⟩
      · rw [if_neg ha] at h
        by_cases hi : (interview (approveQuestions m) input).1 = true
        · rw [if_pos hi] at h
          exact ⟨m, _, h1, h2, .inr ((interview_iff _ _).mp hi), approvalName_for _ _, hw _ h⟩
        · rw [if_neg hi] at h
          cases h
  · rintro ⟨m, name, h1, h2, h3, h4, h5⟩
    rw [h4.unique (approvalName_for _ _)] at h5
    rw [Run.lift_ok ((approveChecks_iff C a m).mpr ⟨h1, h2⟩), confirm_bind]
    unfold write
    by_cases ha : a.autoConfirm = true
    · rw [if_pos ha, if_pos h5]
    · have hi := (interview_iff _ _).mpr (h3.resolve_left ha)
      rw [if_neg ha, if_pos hi, if_pos h5]

/-- C46: with the safety switches left alone, `proxy-re-encrypt-share` succeeds exactly when the attestation document is
genuine and shows the envelope's manifest, the envelope's approvals pass and its manifest set is the operator's, the
operator is in the share set, confirms every question, the share opens under the operator's key, and both files can be
written. (Shares of 2^31 bytes or more left aside.) -/
theorem proxy_exact (C : Setting S) (hp : C.prims.Laws) (hrand : C.rand.Ok C.prims) (pair : Pair) (a : ProxyArgs)
    (input : List String) (s : S) (h1 : a.unsafeSkip = false) (h2 : a.unsafeEphPath = none)
    (hlen : ∀ enc share, C.disk.file a.sharePath = some enc → pair.decrypt C.prims enc = .ok share → share.length < 2 ^ 31) :
    (proxyReEncryptShare C pair a input s).result = .ok () ↔
      ∃ e enc share der role key target, EnvelopeIn C.disk a.envelopePath e ∧ C.disk.file a.sharePath = some enc ∧
        pair.decrypt C.prims enc = .ok share ∧ C.disk.file a.docPath = some der ∧
        GenuineDoc C der a.pcr3Path role e.manifest key ∧ Public.fromBytes C.prims key = .ok target ∧
        e.checkApprovals C.prims = .ok () ∧ SetIn C.prims C.disk a.manifestSetDir e.manifest.manifestSet ∧
        ⟨a.memberAlias, (pair.publicKey C.prims).toBytes⟩ ∈ e.manifest.shareSet.members ∧
        (a.autoConfirm = true ∨ ConfirmsAll (proxyQuestions e role) input) ∧
        C.disk.writable a.approvalPath = true ∧ C.disk.writable a.wrappedPath = true := by
  unfold proxyReEncryptShare
  constructor
  · intro h
    rcases Run.lift_cases (proxyChecks C pair a) _ s with ⟨e, he, hr⟩ | ⟨x, hx, hr⟩
    · rw [hr] at h
      cases h
    · rw [hr, confirm_bind] at h
      obtain ⟨g1, g2, ⟨der, key, g3, g4, g5⟩, g6, g7, g8⟩ := (proxyChecks_iff C pair a h1 h2 x).mp hx
      have rest : ∀ {b : Bytes}, ((Run.lift (reEncrypt C pair x.target x.encryptedShare) >>= fun w =>
          write C a.approvalPath b >>= fun _ => write C a.wrappedPath w : Run S Unit) s).result = .ok () →
          (∃ share, pair.decrypt C.prims x.encryptedShare = .ok share) ∧
          C.disk.writable a.approvalPath = true ∧ C.disk.writable a.wrappedPath = true := by
        intro b hb
        rcases Run.lift_cases (reEncrypt C pair x.target x.encryptedShare)
          (fun w => write C a.approvalPath b >>= fun _ => write C a.wrappedPath w) s with ⟨e, he, hr⟩ | ⟨w, hw, hr⟩
        · rw [hr] at hb
          cases hb
        · rw [hr, write_bind] at hb
          obtain ⟨share, hs, _⟩ := reEncrypt_ok.mp hw
          by_cases ha : C.disk.writable a.approvalPath = true
          · rw [if_pos ha] at hb
            unfold write at hb
            by_cases hb' : C.disk.writable a.wrappedPath = true
            · exact ⟨⟨share, hs⟩, ha, hb'⟩
            · rw [if_neg hb'] at hb
              cases hb
          · rw [if_neg ha] at hb
            cases hb
      by_cases ha : a.autoConfirm = true
      · rw [if_pos ha] at h
        obtain ⟨⟨share, hs⟩, w1, w2⟩ := rest h
        exact ⟨_, _, share, der, _, key, _, g1, g2, hs, g3, g4, g5, g6, g7, g8, .inl ha, w1, w2⟩
      · rw [if_neg ha] at h
        by_cases hi : (interview (proxyQuestions x.envelope x.role) input).1 = true
        · rw [if_pos hi] at h
          obtain ⟨⟨share, hs⟩, w1, w2⟩ := rest h
          exact ⟨_, _, share, der, _, key, _, g1, g2, hs, g3, g4, g5, g6, g7, g8, .inr ((interview_iff _ _).mp hi), w1, w2⟩
        · rw [if_neg hi] at h
          cases h
  · rintro ⟨e, enc, share, der, role, key, target, g1, g2, hs, g3, g4, g5, g6, g7, g8, hc, w1, w2⟩
    obtain ⟨w, henc⟩ := P256.encrypt_total C.prims hp key share target C.rand g5 hrand (hlen _ _ g2 hs)
    rw [Run.lift_ok ((proxyChecks_iff C pair a h1 h2 ⟨e, enc, role, target⟩).mpr
      ⟨g1, g2, ⟨der, key, g3, g4, g5⟩, g6, g7, g8⟩), confirm_bind]
    have hl := Run.lift_ok (S := S) (β := Unit) (reEncrypt_ok.mpr ⟨share, hs, henc⟩)
    have hwr : ∀ (b : Bytes), write C a.wrappedPath b s = ⟨.ok (), s, [.wrote a.wrappedPath b]⟩ := by
      intro b
      unfold write
      rw [if_pos w2]
    by_cases ha : a.autoConfirm = true
    · rw [if_pos ha, hl, write_bind, if_pos w1, hwr]
    · have hi := (interview_iff _ _).mpr (hc.resolve_left ha)
      rw [if_neg ha, if_pos hi, hl, write_bind, if_pos w1, hwr]

/-- An operator who hesitates twice before each of two questions confirms both, and what is typed later is not looked at. -/
example : ConfirmsAll [.iamRole "r", .iamRole "s"] ["hm", "what", "yes\n", "", "?", "Y", "no"] :=
  (interview_iff _ _).mp (by decide +kernel)

end Qos.Client
