import Verif.Lemmas.BootDevice
import Verif.Props.Attest
/-!
# Boot, provisioning and injection as a whole
-/
namespace Qos
open P256 Handles Services

variable {E : Env} {b : Boot} {reqs : List Msg}

/-- Everything that holds between a successful boot and the arrival of the quorum key. -/
structure Boot.Waiting (E : Env) (b : Boot) (reqs : List Msg) (posts : List (Bytes × Approval)) (s : St) : Prop where
  since : b.Since E reqs s.trace s.files
  posted : b.Posted E reqs posts
  decrypted : b.Decrypted E posts s.shares
  forward : b.forward = true → posts = []
  pending : s.pending = some b.live
  ephemeral : Holds s.files E.paths.ephemeral b.setup.toMasterSeedHex
  pivot : Holds s.files E.paths.pivot b.pivot
  manifest : ∃ buf, (b.envelope.withShares (posts.map (·.2))).toStorageVec = some buf ∧
    Holds s.files E.paths.manifest buf
  quorum : s.files E.paths.quorum = none

/-- Everything that holds once the quorum key is there. -/
structure Boot.Provisioned (E : Env) (b : Boot) (reqs : List Msg) (posts : List (Bytes × Approval)) (key : Pair)
    (s : St) : Prop where
  since : b.Since E reqs s.trace s.files
  quorum : Holds s.files E.paths.quorum key.toMasterSeedHex
  complete : b.Complete E reqs s.files key.toMasterSeedHex key posts

theorem liftP256_ok {α : Type} {x : Except P256Error α} {a : α} (h : liftP256 x = .ok a) : x = .ok a := by
  cases x with
  | ok y => simpa [liftP256] using h
  | error e => simp [liftP256] at h

/-- Nothing but device traffic so far. -/
def Untouched (fs : Files) (s : St) : Prop := s.files = fs ∧ ∀ ev ∈ s.trace, ∃ r a, ev = .nsm r a

theorem Device.untouched {fs : Files} {s s' : St} (h : Device s s') (hu : Untouched fs s) : Untouched fs s' := by
  obtain ⟨evs, ht, ha⟩ := h.trace
  refine ⟨h.files.trans hu.1, ?_⟩
  intro ev hev
  rw [ht] at hev
  rcases List.mem_append.1 hev with h | h
  · exact hu.2 ev h
  · exact ha ev h

theorem refuse_ok {c : Prop} [Decidable c] {e : ProtocolError} (h : refuse c e = .ok ()) : ¬ c := by
  unfold refuse at h
  split at h
  · cases h
  · assumption

theorem checkBoot_ok {e : Envelope} {pivot : Bytes} (h : checkBoot E e pivot = .ok ()) :
    e.checkApprovals E.prims = .ok () ∧ e.shareSetApprovals = [] ∧ E.prims.sha256 pivot = e.manifest.pivotHash := by
  unfold checkBoot at h
  rw [Attest.bind_unit_ok, Attest.bind_unit_ok] at h
  exact ⟨h.1, by simpa using refuse_ok h.2.1, by simpa using refuse_ok h.2.2⟩

/-- `put_manifest_and_pivot` from the start state. -/
theorem putManifestAndPivot_ends (hE : E.Ok) {fs0 : Files} (h0 : Fresh E.paths fs0) {e : Envelope} {pivot : Bytes}
    (he : e.Ok) (fwd : Bool) {m : Msg} (hm : m ∈ reqs)
    (hreq : ∀ setup live, (Boot.mk fwd e pivot setup live).RequestedBy m)
    {s : St} (hfiles : s.files = fs0) (htrace : s.trace = []) (hseeds : s.seeds = 0) (hshares : s.shares = []) :
    Ends (putManifestAndPivot E e pivot) s
      (fun _ s' => ∃ b : Boot, b.forward = fwd ∧ b.envelope = e ∧ b.pivot = pivot ∧ b.Waiting E reqs [] s')
      (fun _ s' => Untouched fs0 s' ∨ ∃ b : Boot, b.envelope = e ∧ b.pivot = pivot ∧ b.Since E reqs s'.trace s'.files) := by
  have hu : Untouched fs0 s := ⟨hfiles, by rw [htrace]; simp⟩
  unfold putManifestAndPivot
  refine ends_bind (ends_lift (fun u hc => ?_) fun _ _ => .inl hu)
  cases u
  obtain ⟨c1, c2, c3⟩ := checkBoot_ok hc
  refine ends_bind ?_
  have g1 : Ends (generatePair E) s (fun k s' => Pair.fromMasterSeed E.prims (E.seedAt 0) = .ok k ∧
      s' = { s with seeds := s.seeds + 1 }) (fun _ s' => Untouched fs0 s') := by
    unfold Ends generatePair
    rw [hseeds]
    cases hx : liftP256 (Pair.fromMasterSeed E.prims (E.seedAt 0)) with
    | error e => exact hu
    | ok k => exact ⟨liftP256_ok hx, rfl⟩
  refine ends_mono g1 ?_ (fun _ _ h => .inl h)
  rintro setup s1 ⟨hsetup, rfl⟩
  refine ends_bind ?_
  have g2 : Ends (generatePair E) { s with seeds := s.seeds + 1 } (fun k s' =>
      Pair.fromMasterSeed E.prims (E.seedAt 1) = .ok k ∧
      s' = { s with seeds := s.seeds + 2 }) (fun _ s' => Untouched fs0 s') := by
    unfold Ends generatePair
    simp only [hseeds]
    cases hx : liftP256 (Pair.fromMasterSeed E.prims (E.seedAt (0 + 1))) with
    | error e => exact hu
    | ok k => exact ⟨liftP256_ok hx, rfl⟩
  refine ends_mono g2 ?_ (fun _ _ h => .inl h)
  rintro live s2 ⟨hlive, rfl⟩
  let b : Boot := ⟨fwd, e, pivot, setup, live⟩
  have hb : b.Ok E reqs := ⟨⟨m, hm, hreq setup live⟩, c1, c2, c3, he, hsetup, hlive⟩
  have hu2 : Untouched fs0 { s with seeds := s.seeds + 2 } := hu
  refine ends_bind (ends_mono (lockCommitmentBank_ends E b _) ?_ (fun _ s' hd => .inl (hd.untouched hu2)))
  rintro _ s3 ⟨hd, evs, ht, hcom⟩
  refine ends_bind (ends_modify ?_)
  have hf3 : s3.files = fs0 := hd.files.trans hfiles
  have ht3 : s3.trace = evs := by
    rw [ht]
    show s.trace ++ evs = evs
    rw [htrace]; rfl
  have snap0 : b.Snapshot E reqs fs0 := by
    constructor
    · intro f hf; rw [h0 _ (mem_eph _)] at hf; cases hf
    · intro f hf; rw [h0 _ (mem_pivot _)] at hf; cases hf
    · intro f hf; rw [h0 _ (mem_manifest _)] at hf; cases hf
    · intro f hf; rw [h0 _ (mem_quorum _)] at hf; cases hf
  have hS3 : b.Since E reqs s3.trace s3.files := by
    refine ⟨hb, ⟨evs, [], by rw [ht3, List.append_nil], hcom, by simp, List.Pairwise.nil, by simp⟩, ?_⟩
    rw [hf3]; exact snap0
  have hq3 : s3.files E.paths.quorum = none := by rw [hf3]; exact h0 _ (mem_quorum _)
  have hne := hE.paths.ne
  refine ends_bind (ends_mono (putEphemeral_ends (b := b) (reqs := reqs) hE (s := { s3 with pending := some live })
    hS3 hq3 (.inl rfl)) ?_ (fun _ _ h => .inr ⟨b, rfl, rfl, h.1⟩))
  rintro _ s4 ⟨hS4, hR4, he4, ho4⟩
  have hq4 : s4.files E.paths.quorum = none := (ho4 _ (mem_quorum _) hne.1.symm).trans hq3
  refine ends_bind (ends_mono (putPivot_ends (b := b) (reqs := reqs) hE hS4 hq4) ?_
    (fun _ _ h => .inr ⟨b, rfl, rfl, h.1⟩))
  rintro _ s5 ⟨hS5, hR5, hp5, ho5⟩
  have hq5 : s5.files E.paths.quorum = none := (ho5 _ (mem_quorum _) hne.2.2.2.2.1).trans hq4
  refine ends_bind (ends_mono (putManifestEnvelope_ends (b := b) (reqs := reqs) hE hS5 hq5) ?_
    (fun _ _ h => .inr ⟨b, rfl, rfl, h.1⟩))
  rintro _ s6 ⟨hS6, hR6, ⟨buf, hm6, hm6'⟩, ho6⟩
  have hR : Rest { s3 with pending := some live } s6 := (hR4.trans hR5).trans hR6
  unfold postBootAttestationDoc
  refine callNsm_ends ⟨b, rfl, rfl, rfl, ?_, ?_, ?_, fun _ => rfl, ?_, ?_, ?_, ?_, ?_⟩
  · exact hS6.attest trivial
  · exact ⟨List.nil_sublist _, by simp, by simp⟩
  · have : s6.shares = [] := hR.shares.trans (hd.shares.trans hshares)
    show b.Decrypted E [] s6.shares
    rw [this]; exact List.Forall₂.nil
  · exact hR.pending
  · exact (he4.congr (ho5 _ (mem_eph _) hne.2.2.1)).congr (ho6 _ (mem_eph _) hne.2.1)
  · exact hp5.congr (ho6 _ (mem_pivot _) hne.2.2.2.2.2.symm)
  · refine ⟨buf, ?_, hm6'⟩
    rw [List.map_nil, Envelope.withShares_nil]; exact hm6
  · exact (ho6 _ (mem_quorum _) hne.2.2.2.1).trans hq5

/-- Publishing the quorum key. -/
theorem install_ends (hE : E.Ok) {s : St} {key : Pair} {posts : List (Bytes × Approval)}
    (hS : b.Since E reqs s.trace s.files) (hpost : b.Posted E reqs posts) (hpend : s.pending = some b.live)
    (hpivot : Holds s.files E.paths.pivot b.pivot)
    (hman : ∃ buf, (b.envelope.withShares (posts.map (·.2))).toStorageVec = some buf ∧
      Holds s.files E.paths.manifest buf)
    (hq : s.files E.paths.quorum = none)
    (hseed : key.seed.length = 32 ∧ Pair.fromMasterSeed E.prims key.seed = .ok key)
    (hname : (key.publicKey E.prims).toBytes = b.envelope.manifest.namespaceOf.quorumKey)
    (horig : b.Origin E reqs posts key) :
    Ends (installQuorumKey E key) s (fun _ s' => b.Provisioned E reqs posts key s' ∧ s'.pending = none)
      (fun _ s' => b.Since E reqs s'.trace s'.files) := by
  have hne := hE.paths.ne
  unfold installQuorumKey
  have ht : Ends takePending s (fun k s' => k = b.live ∧ s' = { s with pending := none })
      (fun _ s' => b.Since E reqs s'.trace s'.files) := by
    unfold takePending
    refine ends_bind (ends_get ?_)
    rw [hpend]
    exact ends_bind (ends_modify (ends_pure ⟨rfl, rfl⟩))
  refine ends_bind (ends_mono ht ?_ (fun _ _ h => h))
  rintro k s1 ⟨rfl, rfl⟩
  refine ends_bind (ends_mono (rotate_ends (b := b) (reqs := reqs) hE (s := { s with pending := none }) hS hq) ?_
    (fun _ _ h => h.1))
  rintro _ s2 ⟨hS2, hR2, he2, ho2⟩
  obtain ⟨buf, hm1, hm2⟩ := hman
  have hp2 := hpivot.congr (ho2 _ (mem_pivot _) hne.2.2.1.symm)
  have hmm2 := hm2.congr (ho2 _ (mem_manifest _) hne.2.1.symm)
  have hc : b.Complete E reqs s2.files key.toMasterSeedHex key posts :=
    ⟨rfl, hseed, hname, he2, hp2, ⟨buf, hm1, hmm2⟩, hpost, horig⟩
  refine ends_mono (putQuorumKey_ends (b := b) (reqs := reqs) hE hS2 hc) ?_ (fun _ _ h => h.1)
  rintro _ s3 ⟨hS3, hR3, hq3, ho3⟩
  exact ⟨⟨hS3, hq3, hc.congr (ho3 _ (mem_eph _) hne.1) (ho3 _ (mem_pivot _) hne.2.2.2.2.1.symm)
    (ho3 _ (mem_manifest _) hne.2.2.2.1.symm)⟩, hR3.pending.trans hR2.pending⟩

theorem provisionedPair_ok {q secret : Bytes} {k : Pair} (h : provisionedPair E q secret = .ok k) :
    secret.length = 32 ∧ Pair.fromMasterSeed E.prims secret = .ok k ∧ (k.publicKey E.prims).toBytes = q := by
  unfold provisionedPair at h
  split at h
  · cases h
  · rename_i hl
    split at h
    · cases h
    · rename_i hx
      split at h
      · cases h
      · rename_i hn
        cases h
        exact ⟨by simpa using hl, liftP256_ok hx, by simpa using hn⟩

theorem buildSecret_ok {shares : List Bytes} {secret : Bytes} (h : buildSecret shares = .ok secret) :
    Shamir.sharesReconstruct shares = .ok secret := by
  unfold buildSecret at h
  split at h
  · cases h
  · rename_i hx
    split at h
    · cases h
    · cases h; exact hx

theorem injectedPair_ok {q : Public} {seed : Bytes} {k : Pair} (h : injectedPair E q seed = .ok k) :
    seed.length = 32 ∧ Pair.fromMasterSeed E.prims seed = .ok k ∧ k.publicKey E.prims = q := by
  unfold injectedPair at h
  split at h
  · cases h
  · rename_i hl
    split at h
    · cases h
    · rename_i hx
      split at h
      · cases h
      · rename_i hn
        cases h
        exact ⟨by simpa using hl, hx, by simpa using hn⟩

theorem except_isOk {ε α : Type} {x : Except ε α} (h : x.isOk = true) : ∃ a, x = .ok a := by
  cases x with
  | ok a => exact ⟨a, rfl⟩
  | error e => cases h

/-- `provision` in the waiting phase. -/
theorem provision_ends (hE : E.Ok) {s : St} {posts : List (Bytes × Approval)} {reqs0 : List Msg} {x : Bytes}
    {a : Approval} (hw : b.Waiting E reqs0 posts s) (hf : b.forward = false)
    (hreqs : reqs = reqs0 ++ [.provisionRequest x a]) :
    Ends (provision E x a) s
      (fun r s' => if r then ∃ key, b.Provisioned E reqs (posts ++ [(x, a)]) key s' ∧ s'.pending = none
        else b.Waiting E reqs (posts ++ [(x, a)]) s' ∧
          (posts ++ [(x, a)]).length < b.envelope.manifest.shareSet.threshold.toNat)
      (fun _ s' => b.Since E reqs s'.trace s'.files) := by
  have hsub : reqs0.Sublist reqs := by rw [hreqs]; exact List.sublist_append_left _ _
  have hS := hw.since.mono hsub
  have hold := hw.posted.mono hsub
  have hne := hE.paths.ne
  obtain ⟨buf, hbuf, hhold⟩ := hw.manifest
  unfold provision
  refine ends_bind (getManifestEnvelope_ends (b.stored hE hS.ok hold) hbuf hhold ?_ hS)
  rw [Envelope.manifest_withShares]
  refine ends_bind (ends_lift (fun u hv => ?_) fun _ _ => hS)
  cases u
  refine ends_bind (ends_ensure (fun hmem => ?_) fun _ => hS)
  have hmem' : a.member ∈ b.envelope.manifest.shareSet.members := by simpa using hmem
  have hnew : b.Posted E reqs (posts ++ [(x, a)]) := by
    refine ⟨?_, ?_, ?_⟩
    · rw [hreqs, List.map_append]
      exact hw.posted.asked.append (List.Sublist.refl _)
    · intro y hy
      rcases List.mem_append.1 hy with h | h
      · exact hw.posted.signed y h
      · rw [List.mem_singleton.1 h]; exact hv
    · intro y hy
      rcases List.mem_append.1 hy with h | h
      · exact hw.posted.listed y h
      · rw [List.mem_singleton.1 h]; exact hmem'
  refine ends_bind (ends_mono (mutate_ends (b := b) (reqs := reqs) (s := bump s) hE hS hw.quorum hold hnew hbuf hhold) ?_
    (fun _ _ h => h.1))
  rintro _ s1 ⟨hS1, hR1, hm1, ho1⟩
  have he1 : Holds s1.files E.paths.ephemeral b.setup.toMasterSeedHex :=
    hw.ephemeral.congr (ho1 _ (mem_eph _) hne.2.1)
  obtain ⟨hsl, hsk⟩ := hS.ok.setup_seed hE
  refine ends_bind (readPair_ends hsl hsk he1 ?_ fun _ => hS1)
  cases hdec : b.setup.decrypt E.prims x with
  | error e => exact ends_fail hS1
  | ok share =>
    simp only
    unfold addShare
    refine ends_bind (ends_bind (ends_ensure (fun hsh => ends_modify ?_) fun _ => hS1))
    refine ends_bind (ends_get ?_)
    have hsh' : share ≠ [] := by simpa using hsh
    have hsh1 : s1.shares = s.shares := hR1.shares
    have hdecr : b.Decrypted E (posts ++ [(x, a)]) (s1.shares ++ [share]) := by
      rw [hsh1]
      refine List.rel_append hw.decrypted (.cons ⟨hdec, hsh'⟩ .nil)
    have hlen := hdecr.length_eq
    have hpiv : Holds s1.files E.paths.pivot b.pivot := hw.pivot.congr (ho1 _ (mem_pivot _) hne.2.2.2.2.2.symm)
    have hq1 : s1.files E.paths.quorum = none := (ho1 _ (mem_quorum _) hne.2.2.2.1).trans hw.quorum
    have hpend : s1.pending = some b.live := hR1.pending.trans hw.pending
    show Ends (if (s1.shares ++ [share]).length < b.envelope.manifest.shareSet.threshold.toNat then _ else _) _ _ _
    by_cases hth : (s1.shares ++ [share]).length < b.envelope.manifest.shareSet.threshold.toNat
    · rw [if_pos hth]
      refine ends_pure ?_
      rw [if_neg (by simp)]
      exact ⟨⟨hS1, hnew, hdecr, fun h => absurd (hf.symm.trans h) (by decide), hpend, he1, hpiv, hm1, hq1⟩,
        by rw [hlen]; exact hth⟩
    · rw [if_neg hth]
      refine ends_bind (ends_lift (fun secret hsec => ?_) fun _ _ => hS1)
      refine ends_bind (ends_modify ?_)
      refine ends_bind (ends_lift (fun pair hpair => ?_) fun _ _ => hS1)
      obtain ⟨hp1, hp2, hp3⟩ := provisionedPair_ok hpair
      have hps := pair_seed _ _ _ hp2
      have horig : b.Origin E reqs (posts ++ [(x, a)]) pair := by
        refine .provisioned _ hf hdecr (by rw [hlen]; exact Nat.le_of_not_lt hth) (by simp) ?_
        rw [hps]; exact buildSecret_ok hsec
      refine ends_bind (ends_mono (install_ends (b := b) (reqs := reqs)
        (s := bump { s1 with shares := [] }) hE hS1 hnew hpend hpiv hm1 hq1
        (by rw [hps]; exact ⟨hp1, hp2⟩) hp3 horig) ?_ (fun _ _ h => h))
      intro _ s2 h2
      refine ends_pure ?_
      rw [if_pos rfl]
      exact ⟨pair, h2⟩

/-- `inject_key` in the waiting phase. -/
theorem injectKey_ends (hE : E.Ok) {s : St} {reqs0 : List Msg} {ct sig : Bytes}
    (hw : b.Waiting E reqs0 [] s) (hf : b.forward = true)
    (hreqs : reqs = reqs0 ++ [.injectKeyRequest ct sig]) :
    Ends (injectKey E ct sig) s
      (fun _ s' => ∃ key, b.Provisioned E reqs [] key s' ∧ s'.pending = none)
      (fun _ s' => b.Since E reqs s'.trace s'.files) := by
  have hsub : reqs0.Sublist reqs := by rw [hreqs]; exact List.sublist_append_left _ _
  have hS := hw.since.mono hsub
  have hold := hw.posted.mono hsub
  obtain ⟨buf, hbuf, hhold⟩ := hw.manifest
  unfold injectKey
  refine ends_bind (getManifestEnvelope_ends (b.stored hE hS.ok hold) hbuf hhold ?_ hS)
  rw [Envelope.manifest_withShares]
  refine ends_bind (ends_lift (fun q hq => ?_) fun _ _ => hS)
  refine ends_bind (ends_ensure (fun hver => ?_) fun _ => hS)
  obtain ⟨u, hver⟩ := except_isOk hver
  cases u
  obtain ⟨hsl, hsk⟩ := hS.ok.setup_seed hE
  refine ends_bind (readPair_ends (s := bump s) hsl hsk hw.ephemeral ?_ fun _ => hS)
  refine ends_bind (ends_lift (fun seed hseed => ?_) fun _ _ => hS)
  refine ends_bind (ends_lift (fun pair hpair => ?_) fun _ _ => hS)
  obtain ⟨hp1, hp2, hp3⟩ := injectedPair_ok hpair
  have hps := pair_seed _ _ _ hp2
  have hq' := liftP256_ok hq
  refine ends_mono (install_ends (b := b) (reqs := reqs) (s := bump (bump s)) hE hS hold hw.pending hw.pivot
    ⟨buf, hbuf, hhold⟩ hw.quorum (by rw [hps]; exact ⟨hp1, hp2⟩) ?_ ?_) ?_ (fun _ _ h => h)
  · rw [hp3]; exact public_reencode _ _ _ hq'
  · refine .injected ct sig hf rfl (by rw [hreqs]; simp) (by rw [hp3]; exact hver) ?_
    rw [hps]; exact liftP256_ok hseed
  · intro _ s2 h2
    exact ⟨pair, h2⟩

end Qos
