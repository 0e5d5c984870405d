import Verif.Model.Approvals
import Verif.Spec.Quorum
import Verif.Props.P256
import Verif.Lemmas.Manifest
/-!
# C05 and C39: quorum checks are exact
-/
namespace Qos
open P256

/-! ## C39 -/

theorem keyOk_iff (p : Prims) (m : QuorumMember) :
    m.KeyOk p ↔ Public.fromBytes p m.pubKey = .ok ⟨m.encKey, m.signKey⟩ := by
  rw [public_fromBytes_iff]
  simp [QuorumMember.KeyOk, QuorumMember.encKey, QuorumMember.signKey]

theorem fromBytes_key (p : Prims) (m : QuorumMember) (k : Public) (h : Public.fromBytes p m.pubKey = .ok k) :
    m.KeyOk p ∧ k = ⟨m.encKey, m.signKey⟩ := by
  have ⟨h1, h2, h3, h4, h5⟩ := (public_fromBytes_iff p m.pubKey k).1 h
  exact ⟨⟨h1, h2, h3⟩, by cases k; simp_all [QuorumMember.encKey, QuorumMember.signKey]⟩

theorem uniqueLoop_iff (p : Prims) (ms : List QuorumMember) : ∀ (A : List String) (S E : List Bytes),
    uniqueLoop p A S E ms = .ok () ↔
      DistinctMembers p ms ∧ (∀ m ∈ ms, m.aliasName ∉ A ∧ m.signKey ∉ S ∧ m.encKey ∉ E) := by
  induction ms with
  | nil => intro A S E; simp [uniqueLoop]; exact ⟨by simp, by simp, by simp, by simp⟩
  | cons m ms ih =>
    intro A S E
    unfold uniqueLoop
    cases hk : Public.fromBytes p m.pubKey with
    | error e =>
      simp only [reduceCtorEq, false_iff]
      rintro ⟨h, _⟩
      have := (keyOk_iff p m).1 (h.keys m (by simp))
      rw [hk] at this; cases this
    | ok k =>
      have ⟨hko, hke⟩ := fromBytes_key p m k hk
      subst hke
      simp only
      by_cases h1 : m.aliasName ∈ A
      · rw [if_pos h1]; simp; intro _ h; exact absurd h1 h
      · rw [if_neg h1]
        by_cases h2 : m.signKey ∈ S
        · rw [if_pos h2]; simp; intro _ _ h; exact absurd h2 h
        · rw [if_neg h2]
          by_cases h3 : m.encKey ∈ E
          · rw [if_pos h3]; simp; intro _ _ _ h; exact absurd h3 h
          · rw [if_neg h3, ih]
            constructor
            · rintro ⟨d, f⟩
              refine ⟨⟨?_, ?_, ?_, ?_⟩, ?_⟩
              · intro x hx
                rcases List.mem_cons.1 hx with rfl | hx
                · exact hko
                · exact d.keys x hx
              · simp only [List.map_cons, List.nodup_cons, List.mem_map, not_exists, not_and]
                exact ⟨fun x hx e => (f x hx).1 (by simp [e]), d.aliases⟩
              · simp only [List.map_cons, List.nodup_cons, List.mem_map, not_exists, not_and]
                exact ⟨fun x hx e => (f x hx).2.1 (by simp [e]), d.signing⟩
              · simp only [List.map_cons, List.nodup_cons, List.mem_map, not_exists, not_and]
                exact ⟨fun x hx e => (f x hx).2.2 (by simp [e]), d.encryption⟩
              · intro x hx
                rcases List.mem_cons.1 hx with rfl | hx
                · exact ⟨h1, h2, h3⟩
                · have := f x hx
                  simp only [List.mem_cons, not_or] at this
                  exact ⟨this.1.2, this.2.1.2, this.2.2.2⟩
            · rintro ⟨d, f⟩
              obtain ⟨dk, da, ds, de⟩ := d
              simp only [List.map_cons, List.nodup_cons, List.mem_map, not_exists, not_and] at da ds de
              refine ⟨⟨fun x hx => dk x (by simp [hx]), da.2, ds.2, de.2⟩, ?_⟩
              intro x hx
              have := f x (by simp [hx])
              simp only [List.mem_cons, not_or]
              exact ⟨⟨da.1 x hx, this.1⟩, ⟨ds.1 x hx, this.2.1⟩, ⟨de.1 x hx, this.2.2⟩⟩

/-- C39: the member check accepts exactly the lists whose keys all decode and whose aliases, signing keys and
encryption keys are each pairwise distinct. -/
theorem unique_members_iff (p : Prims) (ms : List QuorumMember) :
    ensureUniqueMembers p ms = .ok () ↔ DistinctMembers p ms := by
  unfold ensureUniqueMembers
  rw [uniqueLoop_iff]
  simp

/-- C39: the verdict does not depend on the order of members. -/
theorem unique_members_perm (p : Prims) (ms ms' : List QuorumMember) (h : ms.Perm ms') :
    ensureUniqueMembers p ms = .ok () ↔ ensureUniqueMembers p ms' = .ok () := by
  rw [unique_members_iff, unique_members_iff]
  constructor
  · intro d
    exact ⟨fun m hm => d.keys m (h.mem_iff.2 hm), (h.map _).nodup_iff.1 d.aliases, (h.map _).nodup_iff.1 d.signing,
      (h.map _).nodup_iff.1 d.encryption⟩
  · intro d
    exact ⟨fun m hm => d.keys m (h.mem_iff.1 hm), (h.map _).nodup_iff.2 d.aliases, (h.map _).nodup_iff.2 d.signing,
      (h.map _).nodup_iff.2 d.encryption⟩

/-- C39: a rejection names its reason: an undecodable key, or a duplicate among lists of decodable keys read so
far. -/
theorem unique_members_error (p : Prims) (ms : List QuorumMember) (e : ProtocolError)
    (h : ensureUniqueMembers p ms = .error e) :
    e = .duplicateQuorumMember ∨ ∃ m ∈ ms, ∃ x, Public.fromBytes p m.pubKey = .error x ∧ e = .p256Error x := by
  unfold ensureUniqueMembers at h
  have key : ∀ (A : List String) (S E : List Bytes), uniqueLoop p A S E ms = .error e →
      e = .duplicateQuorumMember ∨ ∃ m ∈ ms, ∃ x, Public.fromBytes p m.pubKey = .error x ∧ e = .p256Error x := by
    clear h
    induction ms with
    | nil => intro A S E h; cases h
    | cons m ms ih =>
      intro A S E h
      unfold uniqueLoop at h
      cases hk : Public.fromBytes p m.pubKey with
      | error x =>
        simp only [hk, Except.error.injEq] at h
        exact .inr ⟨m, by simp, x, hk, h.symm⟩
      | ok k =>
        simp only [hk] at h
        split at h
        · cases h; exact .inl rfl
        · split at h
          · cases h; exact .inl rfl
          · split at h
            · cases h; exact .inl rfl
            · rcases ih _ _ _ h with h | ⟨m', hm', x, hx⟩
              · exact .inl h
              · exact .inr ⟨m', by simp [hm'], x, hx⟩
  exact key [] [] [] h

/-! ## C05 -/

theorem signed_iff (p : Prims) (m : QuorumMember) (msg sig : Bytes) :
    m.Signed p msg sig ↔ ∃ k, Public.fromBytes p m.pubKey = .ok k ∧ k.verify p msg sig = .ok () := by
  constructor
  · rintro ⟨h1, h2, h3⟩
    exact ⟨_, (keyOk_iff p m).1 h1, by simp [Public.verify, h2, h3]⟩
  · rintro ⟨k, hk, hv⟩
    have ⟨h1, h2⟩ := fromBytes_key p m k hk
    subst h2
    unfold Public.verify at hv
    split at hv
    · split at hv
      · exact ⟨h1, by assumption, by assumption⟩
      · cases hv
    · cases hv

/-- `Approval::verify` accepts exactly the valid signatures of the approval's member. -/
theorem approval_verify_iff (p : Prims) (a : Approval) (msg : Bytes) :
    a.verify p msg = .ok () ↔ a.member.Signed p msg a.signature := by
  rw [signed_iff]
  unfold Approval.verify
  cases hk : Public.fromBytes p a.member.pubKey with
  | error e => simp
  | ok k =>
    simp only
    cases hv : k.verify p msg a.signature with
    | error e => simp [hv]
    | ok u => simp [hv]

theorem approvalLoop_iff (p : Prims) (hash : Bytes) (members : List QuorumMember) (as : List Approval) :
    ∀ (seen out : List Bytes), approvalLoop p hash members seen as = .ok out ↔
      (∀ a ∈ as, a.member.Signed p hash a.signature ∧ a.member ∈ members) ∧
      (as.map (·.member.hash p)).Nodup ∧ (∀ a ∈ as, a.member.hash p ∉ seen) ∧
      out = (as.map (·.member.hash p)).reverse ++ seen := by
  induction as with
  | nil => intro seen out; simp [approvalLoop, eq_comm]
  | cons a as ih =>
    intro seen out
    unfold approvalLoop
    cases hk : Public.fromBytes p a.member.pubKey with
    | error e =>
      simp only [reduceCtorEq, false_iff]
      rintro ⟨h, _⟩
      have ⟨k, hk', _⟩ := (signed_iff p _ _ _).1 (h a (by simp)).1
      rw [hk] at hk'; cases hk'
    | ok k =>
      simp only
      cases hv : k.verify p hash a.signature with
      | error e =>
        simp only [reduceCtorEq, false_iff]
        rintro ⟨h, _⟩
        have ⟨k', hk', hv'⟩ := (signed_iff p _ _ _).1 (h a (by simp)).1
        rw [hk] at hk'; cases hk'; rw [hv] at hv'; cases hv'
      | ok u =>
        have hs : a.member.Signed p hash a.signature := (signed_iff p _ _ _).2 ⟨k, hk, hv⟩
        simp only
        by_cases hm : a.member ∈ members
        · rw [if_pos hm]
          by_cases hh : a.member.hash p ∈ seen
          · rw [if_pos hh]
            simp only [reduceCtorEq, false_iff]
            rintro ⟨_, _, h, _⟩
            exact h a (by simp) hh
          · rw [if_neg hh, ih]
            constructor
            · rintro ⟨f, nd, ns, rfl⟩
              refine ⟨?_, ?_, ?_, by simp⟩
              · intro x hx
                rcases List.mem_cons.1 hx with rfl | hx
                · exact ⟨hs, hm⟩
                · exact f x hx
              · simp only [List.map_cons, List.nodup_cons, List.mem_map, not_exists, not_and]
                exact ⟨fun x hx e => ns x hx (by simp [e]), nd⟩
              · intro x hx
                rcases List.mem_cons.1 hx with rfl | hx
                · exact hh
                · exact fun h => ns x hx (by simp [h])
            · rintro ⟨f, nd, ns, rfl⟩
              simp only [List.map_cons, List.nodup_cons, List.mem_map, not_exists, not_and] at nd
              refine ⟨fun x hx => f x (by simp [hx]), nd.2, ?_, by simp⟩
              intro x hx
              simp only [List.mem_cons, not_or]
              exact ⟨nd.1 x hx, ns x (by simp [hx])⟩
        · rw [if_neg hm]
          simp only [reduceCtorEq, false_iff]
          rintro ⟨h, _⟩
          exact hm (h a (by simp)).2

/-- The exact condition under which `check_approvals` accepts (the once-per-member test compares member hashes). -/
theorem check_approvals_exact (p : Prims) (e : Envelope) :
    e.checkApprovals p = .ok () ↔
      DistinctMembers p e.manifest.manifestSet.members ∧
      (∀ a ∈ e.manifestSetApprovals, a.member.Signed p (e.manifest.hash p) a.signature ∧
        a.member ∈ e.manifest.manifestSet.members) ∧
      (e.manifestSetApprovals.map (·.member.hash p)).Nodup ∧
      e.manifest.manifestSet.threshold.toNat ≤ e.manifestSetApprovals.length := by
  unfold Envelope.checkApprovals
  cases hu : ensureUniqueMembers p e.manifest.manifestSet.members with
  | error x =>
    simp only [reduceCtorEq, false_iff]
    rintro ⟨h, _⟩
    rw [← unique_members_iff, hu] at h; cases h
  | ok u =>
    simp only
    have hd := (unique_members_iff p _).1 hu
    cases hl : approvalLoop p (e.manifest.hash p) e.manifest.manifestSet.members [] e.manifestSetApprovals with
    | error x =>
      simp only [reduceCtorEq, false_iff]
      rintro ⟨_, h1, h2, _⟩
      have := (approvalLoop_iff p (e.manifest.hash p) e.manifest.manifestSet.members e.manifestSetApprovals []
        _).2 ⟨h1, h2, by simp, rfl⟩
      rw [hl] at this; cases this
    | ok out =>
      have ⟨f, nd, _, ho⟩ := (approvalLoop_iff _ _ _ _ _ _).1 hl
      simp only
      split
      · rename_i hlt
        simp only [reduceCtorEq, false_iff]
        rintro ⟨_, _, _, h⟩
        subst ho
        simp at hlt
        omega
      · rename_i hlt
        subst ho
        simp at hlt
        simp only [true_iff]
        exact ⟨hd, f, nd, by omega⟩

/-- C05 (soundness): an accepted envelope carries a quorum. No assumption on the hash function. -/
theorem check_approvals_sound (p : Prims) (e : Envelope) (h : e.checkApprovals p = .ok ()) :
    Quorum p (e.manifest.hash p) e.manifest.manifestSet e.manifestSetApprovals := by
  have ⟨h1, h2, h3, h4⟩ := (check_approvals_exact p e).1 h
  refine ⟨h1, fun a ha => (h2 a ha).1, fun a ha => (h2 a ha).2, ?_, h4⟩
  have : (e.manifestSetApprovals.map (·.member.hash p)) =
      (e.manifestSetApprovals.map (·.member)).map (·.hash p) := by simp
  rw [this] at h3
  exact List.Nodup.of_map _ h3

/-- C05 (completeness): a quorum is accepted, unless two approving members have colliding hashes. -/
theorem check_approvals_complete (p : Prims) (e : Envelope)
    (hq : Quorum p (e.manifest.hash p) e.manifest.manifestSet e.manifestSetApprovals)
    (hc : ∀ a ∈ e.manifestSetApprovals, ∀ b ∈ e.manifestSetApprovals,
      a.member.hash p = b.member.hash p → a.member = b.member) :
    e.checkApprovals p = .ok () := by
  rw [check_approvals_exact]
  refine ⟨hq.distinct, fun a ha => ⟨hq.signed a ha, hq.listed a ha⟩, ?_, hq.enough⟩
  have : (e.manifestSetApprovals.map (·.member.hash p)) =
      (e.manifestSetApprovals.map (·.member)).map (·.hash p) := by simp
  rw [this]
  refine List.Nodup.map_on ?_ hq.once
  intro x hx y hy e'
  simp only [List.mem_map] at hx hy
  obtain ⟨a, ha, rfl⟩ := hx
  obtain ⟨b, hb, rfl⟩ := hy
  exact hc a ha b hb e'

/-- C05: acceptance means that at least `threshold` pairwise distinct signing keys, all belonging to listed
members, each produced a valid signature over the manifest hash. -/
theorem check_approvals_distinct_signers (p : Prims) (e : Envelope) (h : e.checkApprovals p = .ok ()) :
    ∃ keys : List Bytes, keys.Nodup ∧ e.manifest.manifestSet.threshold.toNat ≤ keys.length ∧
      ∀ k ∈ keys, ∃ a ∈ e.manifestSetApprovals, a.member ∈ e.manifest.manifestSet.members ∧
        a.member.signKey = k ∧ p.ecdsaVerify k (e.manifest.hash p) a.signature := by
  have q := check_approvals_sound p e h
  refine ⟨e.manifestSetApprovals.map (·.member.signKey), ?_, by simpa using q.enough, ?_⟩
  · have : (e.manifestSetApprovals.map (·.member.signKey)) =
      (e.manifestSetApprovals.map (·.member)).map (·.signKey) := by simp
    rw [this]
    refine List.Nodup.map_on ?_ q.once
    intro x hx y hy e'
    simp only [List.mem_map] at hx hy
    obtain ⟨a, ha, rfl⟩ := hx
    obtain ⟨b, hb, rfl⟩ := hy
    exact List.inj_on_of_nodup_map q.distinct.signing (q.listed a ha) (q.listed b hb) e'
  · intro k hk
    simp only [List.mem_map] at hk
    obtain ⟨a, ha, rfl⟩ := hk
    exact ⟨a, ha, q.listed a ha, rfl, (q.signed a ha).2.2⟩

/-- C05: the check ignores the share-set approvals. -/
theorem check_approvals_ignores_share (p : Prims) (e : Envelope) (a : Approval) :
    (e.pushShareApproval a).checkApprovals p = e.checkApprovals p := by
  cases e <;> rfl

/-- Finding: a manifest with threshold 0 is accepted with no approval at all. -/
theorem zero_threshold_needs_no_approval (p : Prims) (e : Envelope)
    (hd : DistinctMembers p e.manifest.manifestSet.members) (h0 : e.manifest.manifestSet.threshold = 0)
    (hn : e.manifestSetApprovals = []) : e.checkApprovals p = .ok () := by
  rw [check_approvals_exact]
  simp [hd, h0, hn]

/-! ## Concrete cases -/

/-- A toy member with the given seed byte. -/
def toyMember (n : UInt8) : QuorumMember :=
  ⟨String.ofList [Char.ofNat (97 + n.toNat)],
    (match Pair.fromMasterSeed toyPrims (List.replicate 32 n) with
      | .ok k => (k.publicKey toyPrims).toBytes
      | .error _ => [])⟩

/-- Its approval of a hash. -/
def toyApproval (n : UInt8) (hash : Bytes) : Approval :=
  ⟨(match Pair.fromMasterSeed toyPrims (List.replicate 32 n) with
      | .ok k => k.sign toyPrims hash
      | .error _ => []), toyMember n⟩

/-- A V1 manifest with a 2-of-3 manifest set. -/
def toyManifest : Manifest :=
  { «namespace» := ⟨"ns", 3, (toyMember 9).pubKey⟩
    pivot := ⟨toyPrims.sha256 [1, 2, 3], .never, [], false, []⟩
    manifestSet := ⟨2, [toyMember 1, toyMember 2, toyMember 3]⟩
    shareSet := ⟨2, [toyMember 4, toyMember 5]⟩
    enclave := ⟨List.replicate 48 0, List.replicate 48 0, List.replicate 48 0, List.replicate 48 0, [], ""⟩
    patchSet := ⟨0, []⟩ }

/-- Approved by members 1 and 3. -/
def toyEnvelope : Envelope :=
  let h := (VersionedManifest.v1 toyManifest).hash toyPrims
  .v1 ⟨toyManifest, [toyApproval 3 h, toyApproval 1 h], []⟩

example : toyEnvelope.checkApprovals toyPrims = .ok () := by decide +kernel
example : ensureUniqueMembers toyPrims [toyMember 1, toyMember 2, toyMember 1] = .error .duplicateQuorumMember := by
  decide +kernel
example : DistinctMembers toyPrims [toyMember 1, toyMember 2] := by
  rw [← unique_members_iff]; decide +kernel

end Qos
