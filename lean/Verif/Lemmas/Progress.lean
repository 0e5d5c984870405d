import Verif.Lemmas.DeviceLog
/-!
# Without I/O failures, and with the NSM model as device, the operations succeed
-/
namespace Qos
open P256 Handles Services StateMachine

variable {E : Env} {b : Boot} {reqs : List Msg}

/-- Impossible failure. -/
abbrev Never : ProtocolError → St → Prop := fun _ _ => False

theorem ends_never {α : Type} {m : M α} {s : St} {Q : α → St → Prop} (h : Ends m s Q Never) :
    ∃ a s', m s = (.ok a, s') ∧ Q a s' := by
  unfold Ends at h
  match hm : m s with
  | (.ok a, s') => rw [hm] at h; exact ⟨a, s', rfl, h⟩
  | (.error e, s') => rw [hm] at h; exact h.elim

/-- Combine a total run with other facts about its end. -/
theorem ends_and {α : Type} {m : M α} {s : St} {Q Q' : α → St → Prop} {X X' : ProtocolError → St → Prop}
    (h : Ends m s Q X) (h' : Ends m s Q' X') :
    Ends m s (fun a s' => Q a s' ∧ Q' a s') (fun e s' => X e s' ∧ X' e s') := by
  unfold Ends at *
  match hm : m s with
  | (.ok a, s') => rw [hm] at h h'; exact ⟨h, h'⟩
  | (.error e, s') => rw [hm] at h h'; exact ⟨h, h'⟩

theorem writeUpTo_total (q : String) (buf : Bytes) (k : Nat) (s : St) :
    ∃ s' m, writeUpTo E q buf k s = (.ok (), s') ∧ Rest s s' ∧ s'.files = s.files.set q (some ⟨buf.take k, m⟩) := by
  induction k with
  | zero => exact ⟨_, _, writeUpTo_zero E q buf s, ⟨rfl, rfl, rfl, rfl, rfl⟩, rfl⟩
  | succ k ih =>
    obtain ⟨s1, m, h1, h2, h3⟩ := ih
    rw [writeUpTo_succ]
    unfold M.bind
    rw [h1]
    refine ⟨_, m, rfl, h2.trans ⟨rfl, rfl, rfl, rfl, rfl⟩, ?_⟩
    show s1.files.set q _ = _
    rw [h3, set_set]
    simp [written, set_same]

theorem writeFile_total (hio : ReliableFiles E) (q : String) (buf : Bytes) (s : St) :
    ∃ s' m, writeFile E q buf s = (.ok true, s') ∧ Rest s s' ∧ s'.files = s.files.set q (some ⟨buf, m⟩) := by
  rw [writeFile_run, hio]
  obtain ⟨s1, m, h1, h2, h3⟩ := writeUpTo_total (E := E) q buf buf.length (bump s)
  simp only [M.bind, h1]
  refine ⟨s1, m, rfl, Rest.trans (b := bump s) ⟨rfl, rfl, rfl, rfl, rfl⟩ h2, ?_⟩
  rw [h3, List.take_length]; rfl

theorem chmod_total (hio : ReliableFiles E) {q : String} {f : File} (mode : Nat) {s : St} (hf : s.files q = some f) :
    ∃ s', chmod E q mode s = (.ok true, s') ∧ Rest s s' ∧ s'.files = s.files.set q (some ⟨f.data, mode⟩) := by
  rw [chmod_run, hio, hf]
  exact ⟨_, rfl, ⟨rfl, rfl, rfl, rfl, rfl⟩, rfl⟩

theorem writeAsReadOnly_total (hio : ReliableFiles E) {q : String} (hq : q ≠ withTmpExtension q) (buf : Bytes)
    (err : ProtocolError) {s : St} (hn : s.files q = none) :
    Ends (writeAsReadOnly E q buf err) s (fun _ s' => Rest s s' ∧ s'.files q = some ⟨buf, 0o444⟩ ∧
      ∀ x, x ≠ q → x ≠ withTmpExtension q → s'.files x = s.files x) Never := by
  unfold writeAsReadOnly
  refine ends_bind (ends_run (fileExists_run _ _) ?_)
  refine ends_bind (ends_ensure (fun _ => ?_) fun h => by rw [hn] at h; cases h)
  refine ends_bind (ends_run (makeParent_run _ _) ?_)
  refine ends_bind (ends_ensure (fun _ => ?_) fun h => by rw [hio] at h; simp at h)
  obtain ⟨s1, m, h1, h2, h3⟩ := writeFile_total hio (withTmpExtension q) buf (bump s)
  refine ends_bind (ends_run h1 ?_)
  refine ends_bind (ends_ensure (fun _ => ?_) fun h => by cases h)
  have hsrc : s1.files (withTmpExtension q) = some ⟨buf, m⟩ := by rw [h3, set_same]
  refine ends_bind (ends_run (by rw [renameFile_run, hio, hsrc]) ?_)
  refine ends_bind (ends_ensure (fun _ => ?_) fun h => by cases h)
  obtain ⟨s2, g1, g2, g3⟩ := chmod_total hio (q := q) (f := ⟨buf, m⟩) 0o444
    (s := (bump s1).put ((s1.files.set (withTmpExtension q) none).set q (some ⟨buf, m⟩))) (set_same _ _ _)
  refine ends_bind (ends_run g1 ?_)
  refine ends_ensure (fun _ => ?_) fun h => by cases h
  refine ⟨?_, by rw [g3, set_same], ?_⟩
  · exact Rest.trans (b := bump s) ⟨rfl, rfl, rfl, rfl, rfl⟩
      (h2.trans (Rest.trans (b := (bump s1).put _) ⟨rfl, rfl, rfl, rfl, rfl⟩ g2))
  · intro x hx hx'
    rw [g3, set_other _ _ hx]
    show ((s1.files.set (withTmpExtension q) none).set q (some ⟨buf, m⟩)) x = _
    rw [set_other _ _ hx, set_other _ _ hx', h3, set_other _ _ hx']
    rfl

theorem Paths.Distinct.tmpNe (h : E.paths.Distinct) {q : String} (hq : q ∈ E.paths.all) : q ≠ withTmpExtension q :=
  fun e => h.tmp q hq q hq e.symm

theorem putPivot_total (hio : ReliableFiles E) (x : Bytes) {s : St} (hn : s.files E.paths.pivot = none) :
    Ends (putPivot E x) s (fun _ s' => Rest s s' ∧ ∀ q, q ≠ E.paths.pivot → s'.files q = s.files q) Never := by
  unfold putPivot
  refine ends_bind (ends_run (fileExists_run _ _) ?_)
  refine ends_bind (ends_ensure (fun _ => ?_) fun h => by rw [hn] at h; cases h)
  refine ends_bind (ends_run (makeParent_run _ _) ?_)
  refine ends_bind (ends_ensure (fun _ => ?_) fun h => by rw [hio] at h; simp at h)
  obtain ⟨s1, m, h1, h2, h3⟩ := writeFile_total hio E.paths.pivot x (bump s)
  refine ends_bind (ends_run h1 ?_)
  refine ends_bind (ends_ensure (fun _ => ?_) fun h => by cases h)
  obtain ⟨s2, g1, g2, g3⟩ := chmod_total hio (q := E.paths.pivot) (f := ⟨x, m⟩) 0o111 (s := s1)
    (by rw [h3, set_same])
  refine ends_bind (ends_run g1 ?_)
  refine ends_ensure (fun _ => ?_) fun h => by cases h
  refine ⟨Rest.trans (b := bump s) ⟨rfl, rfl, rfl, rfl, rfl⟩ (h2.trans g2), ?_⟩
  intro q hq
  rw [g3, set_other _ _ hq, h3, set_other _ _ hq]
  rfl

/-! ## The device -/

/-- The state of the device. -/
def Sim (E : Env) (pki : MockNsm.Pki) (start : MockNsm.State) (s : St) (d : MockNsm.State) : Prop :=
  ∃ as, MockNsm.run E.prims pki start s.nsmHist = some (d, as)

theorem Sim.ask {pki : MockNsm.Pki} {start : MockNsm.State} (hd : HonestDevice E pki start) {s : St} {d d' : MockNsm.State} {r : NsmRequest}
    {a : NsmResponse} (hs : Sim E pki start s d) (hp : MockNsm.process E.prims pki d r = some (d', a)) :
    E.nsm s.nsmHist r = a ∧ Sim E pki start (ask E s r) d' := by
  obtain ⟨as, h⟩ := hs
  constructor
  · rw [hd.nsm]
    unfold mockDevice
    simp only [h, hp]
  · refine ⟨as ++ [a], ?_⟩
    show MockNsm.run E.prims pki start (s.nsmHist ++ [r]) = _
    rw [MockNsm.run_append, h]
    simp only [MockNsm.run, hp]

/-- Setting up the bank on a fresh device succeeds. -/
theorem lockCommitmentBank_total {pki : MockNsm.Pki} {start : MockNsm.State} (hd : HonestDevice E pki start) (mh k1 k2 : Bytes) {s : St}
    (hs : s.nsmHist = []) : Ends (lockCommitmentBank E mh k1 k2) s (fun _ _ => True) Never := by
  have s0 : Sim E pki start s start := ⟨[], by rw [hs]; rfl⟩
  obtain ⟨a1, s1⟩ := s0.ask hd (r := .describeNSM) rfl
  have hl0 : start.lockedList = [] := by
    unfold MockNsm.State.lockedList
    rw [List.filter_eq_nil_iff]
    intro i _ hi
    rw [hd.started.unlocked i] at hi
    cases hi
  unfold lockCommitmentBank describeNsm
  refine ends_bind (ends_bind (callNsm_ends ?_))
  rw [a1]
  refine ends_pure ?_
  refine ends_bind (ends_ensure (fun _ => ?_) fun h => by simp at h)
  refine ends_bind (ends_ensure (fun _ => ?_) fun h => by rw [hd.started.max] at h; exact absurd h (by decide))
  -- one extension
  have ext : ∀ (kind : Attest.Kind) (key : Bytes) (t : St) (d : MockNsm.State), Sim E pki start t d → d.maxPcrs = 32 →
      d.locked = (fun _ => false) → d.value (UInt16.ofNat kind.pcrIndex) = zeroPcr →
      Ends (extendCommitment E kind 32 [] mh key) t (fun x t' => x = extended E.prims
          (Attest.commitment E.prims kind mh key) ∧ ∃ d', Sim E pki start t' d' ∧ d'.maxPcrs = 32 ∧
        d'.locked = (fun _ => false) ∧ d'.value (UInt16.ofNat kind.pcrIndex) = x ∧
        ∀ j, j ≠ UInt16.ofNat kind.pcrIndex → d'.value j = d.value j) Never := by
    intro kind key t d ht hmax hlock hval
    have hlt : UInt16.ofNat kind.pcrIndex < 32 := by cases kind <;> decide
    have hnl : ¬ d.maxPcrs ≤ UInt16.ofNat kind.pcrIndex := by rw [hmax]; exact UInt16.not_le.2 hlt
    unfold extendCommitment describePcr
    refine ends_bind (ends_ensure (fun _ => ?_) fun h => by simp [hlt] at h)
    refine ends_bind (ends_ensure (fun _ => ?_) fun h => by simp at h)
    have p1 : MockNsm.process E.prims pki d (.describePCR (UInt16.ofNat kind.pcrIndex)) =
        some ({ d with pcrs := fun j => if j = UInt16.ofNat kind.pcrIndex then some zeroPcr else d.pcrs j },
          .describePCR false zeroPcr) := by
      simp only [MockNsm.process, if_neg hnl, hlock, hval]
    obtain ⟨b1, t1⟩ := ht.ask hd p1
    refine ends_bind (ends_bind (callNsm_ends ?_))
    rw [b1]
    refine ends_pure ?_
    refine ends_bind (ends_ensure (fun _ => ?_) fun h => by simp at h)
    refine ends_bind (ends_ensure (fun _ => ?_) fun h => by simp at h)
    have hp : pcrExtend E.prims zeroPcr (Attest.commitment E.prims kind mh key) =
        some (extended E.prims (Attest.commitment E.prims kind mh key)) := by
      simp [pcrExtend, extended, zeroPcr]
    simp only [hp]
    have p2 : MockNsm.process E.prims pki
        { d with pcrs := fun j => if j = UInt16.ofNat kind.pcrIndex then some zeroPcr else d.pcrs j }
        (.extendPCR (UInt16.ofNat kind.pcrIndex) (Attest.commitment E.prims kind mh key)) =
        some ({ d with pcrs := (fun j => if j = UInt16.ofNat kind.pcrIndex then (some (extended E.prims
            (Attest.commitment E.prims kind mh key))) else
              if j = UInt16.ofNat kind.pcrIndex then some zeroPcr else d.pcrs j) },
          .extendPCR (extended E.prims (Attest.commitment E.prims kind mh key))) := by
      simp only [MockNsm.process, if_neg hnl, hlock, MockNsm.State.value]
      simp [hp]
    obtain ⟨b2, t2⟩ := t1.ask hd p2
    refine ends_bind (callNsm_ends ?_)
    rw [b2]
    refine ends_bind (ends_ensure (fun _ => ?_) fun h => by simp at h)
    refine ends_pure ⟨rfl, _, t2, hmax, hlock, ?_, ?_⟩
    · simp [MockNsm.State.value]
    · intro j hj
      simp [MockNsm.State.value, hj]
  simp only [hl0, hd.started.max]
  refine ends_bind (ends_mono (ext .setup k1 _ _ s1 hd.started.max (funext hd.started.unlocked) hd.started.setup) ?_
    (fun _ _ h => h))
  rintro x1 t1 ⟨rfl, d1, hd1, m1, l1, v1, o1⟩
  refine ends_bind (ends_mono (ext .live k2 _ _ hd1 m1 l1 ?_) ?_ (fun _ _ h => h))
  · rw [o1 _ (by decide)]; exact hd.started.live
  rintro x2 t2 ⟨rfl, d2, hd2, m2, l2, v2, o2⟩
  have p3 : MockNsm.process E.prims pki d2 (.lockPCRs 32) =
      some ({ d2 with locked := fun j => j < 32 || d2.locked j }, .lockPCRs) := by
    simp [MockNsm.process, m2]
  obtain ⟨b3, h3⟩ := hd2.ask hd p3
  unfold lockBank
  refine ends_bind (ends_bind (callNsm_ends ?_))
  show Ends (match E.nsm t2.nsmHist (.lockPCRs 32) with | .lockPCRs => pure () | _ => _) (ask E t2 (.lockPCRs 32)) _ _
  rw [b3]
  refine ends_pure ?_
  refine ends_bind (ends_bind (callNsm_ends ?_))
  obtain ⟨b4, h4⟩ := h3.ask hd (r := .describeNSM) rfl
  rw [b4]
  refine ends_pure ?_
  refine ends_bind (ends_ensure (fun _ => ?_) fun h => by
    simp [m2] at h)
  unfold requireAllLocked
  refine ends_bind (ends_ensure (fun _ => ?_) fun h => ?_)
  · have fin : ∀ (kind : Attest.Kind) (v : Bytes) (t : St) (d : MockNsm.State), Sim E pki start t d → d.maxPcrs = 32 →
        d.locked (UInt16.ofNat kind.pcrIndex) = true → d.value (UInt16.ofNat kind.pcrIndex) = v →
        Ends (verifyLocked E kind v) t (fun _ t' => ∃ d', Sim E pki start t' d' ∧ d'.maxPcrs = 32 ∧
          d'.locked = d.locked ∧ ∀ j, d'.value j = d.value j) Never := by
      intro kind v t d ht hmax hlock hval
      have hlt : UInt16.ofNat kind.pcrIndex < 32 := by cases kind <;> decide
      have hnl : ¬ d.maxPcrs ≤ UInt16.ofNat kind.pcrIndex := by rw [hmax]; exact UInt16.not_le.2 hlt
      unfold verifyLocked describePcr
      have p1 : MockNsm.process E.prims pki d (.describePCR (UInt16.ofNat kind.pcrIndex)) =
          some ({ d with pcrs := fun j => if j = UInt16.ofNat kind.pcrIndex then some v else d.pcrs j },
            .describePCR true v) := by
        simp only [MockNsm.process, if_neg hnl, hlock, hval]
      obtain ⟨c1, c2⟩ := ht.ask hd p1
      refine ends_bind (ends_bind (callNsm_ends ?_))
      rw [c1]
      refine ends_pure ?_
      refine ends_bind (ends_ensure (fun _ => ?_) fun h => by simp at h)
      refine ends_ensure (fun _ => ?_) fun h => by simp at h
      refine ⟨_, c2, hmax, rfl, ?_⟩
      intro j
      unfold MockNsm.State.value at hval ⊢
      by_cases hj : j = UInt16.ofNat kind.pcrIndex
      · simp only [hj, if_true, Option.getD_some, hval]
      · simp only [hj, if_false]
    have hlk : ∀ kind : Attest.Kind, ((decide (UInt16.ofNat kind.pcrIndex < 32)) || d2.locked (UInt16.ofNat kind.pcrIndex)) = true := by
      intro kind; cases kind <;> simp [Attest.Kind.pcrIndex]
    refine ends_bind (ends_mono (fin .setup _ _ _ h4 m2 (hlk .setup) ?_) ?_ (fun _ _ h => h))
    · show d2.value (UInt16.ofNat Attest.Kind.setup.pcrIndex) = _
      rw [o2 _ (by decide), v1]
    rintro _ t3 ⟨d3, hd3, m3, l3, v3⟩
    refine ends_mono (fin .live _ _ _ hd3 m3 (by rw [l3]; exact hlk .live) ?_) (fun _ _ _ => trivial) (fun _ _ h => h)
    rw [v3]
    exact v2
  · exfalso
    have hall : ((List.range (32 : UInt16).toNat).all fun i =>
        (MockNsm.State.lockedList { d2 with locked := fun j => j < 32 || d2.locked j }).contains (UInt16.ofNat i)) = true := by
      rw [List.all_eq_true]
      intro i hi
      have hi' : i < 32 := by simpa using hi
      simp only [MockNsm.State.lockedList, m2, List.contains_iff_mem]
      rw [List.mem_filter]
      refine ⟨List.mem_map.2 ⟨i, List.mem_range.2 hi', rfl⟩, ?_⟩
      have : UInt16.ofNat i < 32 := by
        rw [UInt16.lt_iff_toNat_lt]
        simp [UInt16.toNat_ofNat]
        omega
      simp [this]
    rw [hall] at h
    cases h

/-! ## Boot, provisioning, injection -/

theorem fromMasterSeed_lift {seed : Bytes} {k : Pair} (h : Pair.fromMasterSeed E.prims seed = .ok k) :
    liftP256 (Pair.fromMasterSeed E.prims seed) = .ok k := by rw [h]; rfl

/-- A boot succeeds. -/
theorem putManifestAndPivot_total (hE : E.Ok) (hio : ReliableFiles E) {pki : MockNsm.Pki} {start : MockNsm.State} (hd : HonestDevice E pki start)
    {e : Envelope} {x : Bytes} (he : e.Ok) (hc : checkBoot E e x = .ok ())
    {k1 k2 : Pair} (h1 : Pair.fromMasterSeed E.prims (E.seedAt 0) = .ok k1)
    (h2 : Pair.fromMasterSeed E.prims (E.seedAt 1) = .ok k2) {s : St} (hf : Fresh E.paths s.files)
    (hs : s.nsmHist = []) (hn : s.seeds = 0) :
    Ends (putManifestAndPivot E e x) s (fun _ _ => True) Never := by
  have hne := hE.paths.ne
  unfold putManifestAndPivot
  refine ends_bind (ends_lift (fun _ _ => ?_) fun _ h => by rw [hc] at h; cases h)
  refine ends_bind (ends_run (a := k1) (s' := { s with seeds := s.seeds + 1 }) (by
    unfold generatePair; rw [hn, fromMasterSeed_lift h1]) ?_)
  refine ends_bind (ends_run (a := k2) (s' := { s with seeds := s.seeds + 2 }) (by
    unfold generatePair; simp only [hn]; rw [fromMasterSeed_lift (seed := E.seedAt (0 + 1)) h2]) ?_)
  refine ends_bind (ends_mono (ends_keeps (device_lockCommitmentBank E _ _ _)
    (lockCommitmentBank_total hd _ _ _ (s := { s with seeds := s.seeds + 2 }) hs)) ?_ (fun _ _ h => h.1))
  rintro _ s1 ⟨_, hdev⟩
  have hf1 : s1.files = s.files := hdev.files
  refine ends_bind (ends_modify ?_)
  unfold putEphemeralKey
  refine ends_bind (ends_mono (writeAsReadOnly_total hio (hE.paths.tmpNe (mem_eph _)) _ _ (s := { s1 with pending := some k2 })
    (by show s1.files _ = none; rw [hf1]; exact hf _ (mem_eph _))) ?_ (fun _ _ h => h))
  rintro _ s2 ⟨_, _, o2⟩
  have hf2 : ∀ q ∈ E.paths.all, q ≠ E.paths.ephemeral → s2.files q = none := by
    intro q hq hne
    rw [o2 q hne (fun h => hE.paths.tmp _ (mem_eph _) _ hq h.symm)]
    show s1.files q = none
    rw [hf1]; exact hf q hq
  refine ends_bind (ends_mono (putPivot_total hio x (hf2 _ (mem_pivot _) hne.2.2.1.symm)) ?_ (fun _ _ h => h))
  rintro _ s3 ⟨_, o3⟩
  unfold putManifestEnvelope
  obtain ⟨buf, hb, _⟩ := storage_roundtrip e he
  rw [hb]
  refine ends_bind (ends_mono (writeAsReadOnly_total hio (hE.paths.tmpNe (mem_manifest _)) _ _ (s := s3) ?_) ?_
    (fun _ _ h => h))
  · rw [o3 _ hne.2.2.2.2.2]; exact hf2 _ (mem_manifest _) hne.2.1.symm
  rintro _ s4 _
  exact callNsm_ends trivial

/-- Publishing the quorum key succeeds. -/
theorem install_total (hE : E.Ok) (hio : ReliableFiles E) (key : Pair) {s : St} {live : Pair} {d : Bytes}
    (hpend : s.pending = some live) (heph : Holds s.files E.paths.ephemeral d)
    (hq : s.files E.paths.quorum = none) : Ends (installQuorumKey E key) s (fun _ _ => True) Never := by
  have hne := hE.paths.ne
  obtain ⟨f, hf, _⟩ := heph
  unfold installQuorumKey takePending rotateEphemeralKey
  refine ends_bind (ends_bind (ends_get ?_))
  rw [hpend]
  refine ends_bind (ends_modify (ends_pure ?_))
  refine ends_bind (ends_bind (ends_run (fileExists_run _ _) ?_))
  refine ends_bind (ends_ensure (fun _ => ?_) fun h => by
    have h' : (s.files E.paths.ephemeral).isSome = false := h
    rw [hf] at h'; cases h')
  refine ends_bind (ends_run (a := true) (s' := (bump { s with pending := none }).put (s.files.set E.paths.ephemeral none))
    (by rw [removeFile_run, hio]; simp only [hf]) ?_)
  refine ends_bind (ends_ensure (fun _ => ?_) fun h => by cases h)
  refine ends_mono (writeAsReadOnly_total hio (hE.paths.tmpNe (mem_eph _)) _ _ (set_same _ _ _)) ?_ (fun _ _ h => h)
  rintro _ s2 ⟨_, _, o2⟩
  unfold putQuorumKey
  refine ends_mono (writeAsReadOnly_total hio (hE.paths.tmpNe (mem_quorum _)) _ _ ?_) (fun _ _ _ => trivial)
    (fun _ _ h => h)
  rw [o2 _ hne.1.symm (fun h => hE.paths.tmp _ (mem_eph _) _ (mem_quorum _) h.symm)]
  show (s.files.set E.paths.ephemeral none) E.paths.quorum = none
  rw [set_other _ _ hne.1.symm]; exact hq

theorem readPair_total (hio : ReliableFiles E) {s : St} {path : String} {wrap : P256Error → ProtocolError} {k : Pair}
    (hl : k.seed.length = 32) (hk : Pair.fromMasterSeed E.prims k.seed = .ok k)
    (hh : Holds s.files path k.toMasterSeedHex) : readPair E path wrap s = (.ok k, bump s) := by
  obtain ⟨f, hf, hd⟩ := hh
  unfold readPair
  rw [bind_run, readFile_run]
  simp only [hio s.ios, if_true, hf, Option.map_some, hd, hex_file_roundtrip _ _ hl, hk]
  rfl

theorem getManifestEnvelope_total (hio : ReliableFiles E) {s : St} {e : Envelope} {buf : Bytes} (he : e.Ok)
    (hb : e.toStorageVec = some buf) (hh : Holds s.files E.paths.manifest buf) :
    getManifestEnvelope E s = (.ok e, bump s) := by
  obtain ⟨f, hf, rfl⟩ := hh
  obtain ⟨b', hb', hr⟩ := storage_roundtrip e he
  rw [hb, Option.some.injEq] at hb'
  subst hb'
  unfold getManifestEnvelope
  rw [bind_run, readFile_run]
  simp only [hio s.ios, if_true, hf, Option.map_some, hr]
  rfl

theorem mutate_total (hio : ReliableFiles E) {s : St} {e : Envelope} {buf : Bytes} (he : e.Ok)
    (hb : e.toStorageVec = some buf) (hh : Holds s.files E.paths.manifest buf) (f : Envelope → Envelope)
    (hf : (f e).Ok) : Ends (mutateManifestEnvelope E f) s
      (fun _ s' => Rest s s' ∧ ∀ q, q ≠ E.paths.manifest → s'.files q = s.files q) Never := by
  unfold mutateManifestEnvelope
  refine ends_bind (ends_run (getManifestEnvelope_total hio he hb hh) ?_)
  obtain ⟨g, hg, _⟩ := hh
  obtain ⟨s1, h1, r1, f1⟩ := chmod_total hio (q := E.paths.manifest) (f := g) 0o666 (s := bump s) hg
  refine ends_bind (ends_run h1 ?_)
  refine ends_bind (ends_ensure (fun _ => ?_) fun h => by cases h)
  obtain ⟨buf', hb', _⟩ := storage_roundtrip _ hf
  rw [hb']
  obtain ⟨s2, m, h2, r2, f2⟩ := writeFile_total hio E.paths.manifest buf' s1
  refine ends_bind (ends_run h2 ?_)
  refine ends_bind (ends_ensure (fun _ => ?_) fun h => by cases h)
  obtain ⟨s3, h3, r3, f3⟩ := chmod_total hio (q := E.paths.manifest) (f := ⟨buf', m⟩) 0o444 (s := s2)
    (by rw [f2, set_same])
  refine ends_bind (ends_run h3 ?_)
  refine ends_ensure (fun _ => ?_) fun h => by cases h
  refine ⟨Rest.trans (b := bump s) ⟨rfl, rfl, rfl, rfl, rfl⟩ ((r1.trans r2).trans r3), ?_⟩
  intro q hq
  rw [f3, set_other _ _ hq, f2, set_other _ _ hq, f1, set_other _ _ hq]
  rfl

/-- What makes one more share acceptable. -/
structure Boot.Postable (E : Env) (b : Boot) (x : Bytes) (a : Approval) (share : Bytes) : Prop where
  signed : a.verify E.prims (b.hash E) = .ok ()
  listed : a.member ∈ b.envelope.manifest.shareSet.members
  decrypted : b.setup.decrypt E.prims x = .ok share
  nonempty : share ≠ []

/-- One more share is accepted; when it completes the threshold the shares must reconstruct the quorum key. -/
theorem provision_total (hE : E.Ok) (hio : ReliableFiles E) {s : St} {posts : List (Bytes × Approval)} {x : Bytes}
    {a : Approval} {share : Bytes} (hw : b.Waiting E reqs posts s) (hp : b.Postable E x a share)
    (hlast : b.envelope.manifest.shareSet.threshold.toNat ≤ (s.shares ++ [share]).length →
      ∃ seed key, Shamir.sharesReconstruct (s.shares ++ [share]) = .ok seed ∧ seed.length = 32 ∧
        Pair.fromMasterSeed E.prims seed = .ok key ∧
        (key.publicKey E.prims).toBytes = b.envelope.manifest.namespaceOf.quorumKey) :
    Ends (provision E x a) s (fun r _ => r =
      decide (b.envelope.manifest.shareSet.threshold.toNat ≤ (s.shares ++ [share]).length)) Never := by
  have hne := hE.paths.ne
  obtain ⟨buf, hbuf, hhold⟩ := hw.manifest
  have hst := b.stored hE hw.since.ok hw.posted
  unfold provision
  refine ends_bind (ends_run (getManifestEnvelope_total hio hst hbuf hhold) ?_)
  rw [Envelope.manifest_withShares]
  refine ends_bind (ends_lift (fun _ _ => ?_) fun _ h => by
    have := hp.signed; unfold Boot.hash at this; rw [this] at h; cases h)
  refine ends_bind (ends_ensure (fun _ => ?_) fun h => by
    have := hp.listed; simp [this] at h)
  have hao : JCodec.approval.ok a := approval_ok hE.laws hw.since.ok.wellFormed hp.signed hp.listed
  refine ends_bind (ends_mono (mutate_total (s := bump s) hio hst hbuf hhold _ ?_) ?_ (fun _ _ h => h))
  · rw [Envelope.push_eq]
    exact Envelope.withShares_ok hst (fun y hy => by rw [List.mem_singleton.1 hy]; exact hao)
  rintro _ s1 ⟨hR1, ho1⟩
  have he1 : Holds s1.files E.paths.ephemeral b.setup.toMasterSeedHex :=
    hw.ephemeral.congr (ho1 _ hne.2.1)
  obtain ⟨hsl, hsk⟩ := hw.since.ok.setup_seed hE
  refine ends_bind (ends_run (readPair_total hio hsl hsk he1) ?_)
  simp only [hp.decrypted]
  unfold addShare
  refine ends_bind (ends_bind (ends_ensure (fun _ => ends_modify ?_) fun h => by
    have := hp.nonempty; simp [this] at h))
  refine ends_bind (ends_get ?_)
  have hsh1 : s1.shares = s.shares := hR1.shares
  show Ends (if (s1.shares ++ [share]).length < b.envelope.manifest.shareSet.threshold.toNat then _ else _) _ _ _
  rw [hsh1]
  by_cases hth : (s.shares ++ [share]).length < b.envelope.manifest.shareSet.threshold.toNat
  · rw [if_pos hth]
    refine ends_pure ?_
    rw [decide_eq_false (Nat.not_le.2 hth)]
  · rw [if_neg hth]
    have hge := Nat.le_of_not_lt hth
    obtain ⟨seed, key, h1, h2, h3, h4⟩ := hlast hge
    have hbs : buildSecret (s.shares ++ [share]) = .ok seed := by
      unfold buildSecret
      rw [h1]
      have : seed.isEmpty = false := by
        cases seed with
        | nil => cases h2
        | cons _ _ => rfl
      simp [this]
    have hpp : provisionedPair E b.envelope.manifest.namespaceOf.quorumKey seed = .ok key := by
      unfold provisionedPair
      rw [if_neg (by simp [h2]), fromMasterSeed_lift h3]
      simp [h4]
    refine ends_bind (ends_lift (fun sec hsec => ?_) fun e h => ?_)
    · have hsec' : buildSecret (s.shares ++ [share]) = .ok sec := by
        rw [← hsh1]; exact hsec
      rw [hbs] at hsec'
      cases hsec'
      refine ends_bind (ends_modify ?_)
      refine ends_bind (ends_lift (fun pair hpair => ?_) fun e h => ?_)
      · refine ends_bind (ends_mono (install_total hE hio pair (s := bump { s1 with shares := [] })
          (live := b.live) (d := b.setup.toMasterSeedHex) (hR1.pending.trans hw.pending) he1
          ((ho1 _ hne.2.2.2.1).trans hw.quorum)) ?_ (fun _ _ h => h))
        intro _ s2 _
        refine ends_pure ?_
        rw [decide_eq_true hge]
      · rw [hpp] at h; cases h
    · have h' : buildSecret (s.shares ++ [share]) = .error e := by
        rw [← hsh1]; exact h
      rw [hbs] at h'; cases h'

/-- What makes an injection acceptable: signed by the manifest's quorum key and decrypting under the setup key to the
seed of exactly that key. -/
structure Boot.Injectable (E : Env) (b : Boot) (ct sig : Bytes) (key : Pair) : Prop where
  names : Public.fromBytes E.prims b.envelope.manifest.namespaceOf.quorumKey = .ok (key.publicKey E.prims)
  signed : (key.publicKey E.prims).verify E.prims ct sig = .ok ()
  decrypted : b.setup.decrypt E.prims ct = .ok key.seed
  length : key.seed.length = 32
  pair : Pair.fromMasterSeed E.prims key.seed = .ok key

theorem injectKey_total (hE : E.Ok) (hio : ReliableFiles E) {s : St} {ct sig : Bytes} {key : Pair}
    (hw : b.Waiting E reqs [] s) (hi : b.Injectable E ct sig key) :
    Ends (injectKey E ct sig) s (fun _ _ => True) Never := by
  obtain ⟨buf, hbuf, hhold⟩ := hw.manifest
  have hst := b.stored hE hw.since.ok hw.posted
  unfold injectKey
  refine ends_bind (ends_run (getManifestEnvelope_total hio hst hbuf hhold) ?_)
  rw [Envelope.manifest_withShares, hi.names]
  refine ends_bind (ends_lift (fun q hq => ?_) fun _ h => by cases h)
  cases hq
  refine ends_bind (ends_ensure (fun _ => ?_) fun h => by rw [hi.signed] at h; cases h)
  obtain ⟨hsl, hsk⟩ := hw.since.ok.setup_seed hE
  refine ends_bind (ends_run (readPair_total (s := bump s) hio hsl hsk hw.ephemeral) ?_)
  rw [hi.decrypted]
  refine ends_bind (ends_lift (fun q hq => ?_) fun _ h => by cases h)
  cases hq
  have hip : injectedPair E (key.publicKey E.prims) key.seed = .ok key := by
    unfold injectedPair
    rw [if_neg (by simp [hi.length]), hi.pair]
    simp
  rw [hip]
  refine ends_bind (ends_lift (fun q hq => ?_) fun _ h => by cases h)
  exact install_total hE hio q (s := bump (bump s)) hw.pending hw.ephemeral hw.quorum

end Qos
