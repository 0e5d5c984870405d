import Verif.Props.Reaper
import Verif.Props.Forward
import Verif.Props.Scenario
/-!
# C34: the reaper beside the protocol server

The two run concurrently on the same files. `Sees` lets the reaper look at any moments of any enclave history, in order,
including the intermediate states of writes in progress.
-/
namespace Qos.Reaper
open Pool (Address)
open Lifecycle

variable {E : Env} {fs0 : Files} {h : List (Msg × Msg)} {s : St} {c : Config} {ts : List Tick}

/-- The reaper looks at moments of this enclave run, in order. -/
structure Sees (fs0 : Files) (s : St) (ts : List Tick) : Prop where
  moments : ∀ t ∈ ts, Moment fs0 s t.files
  ordered : ts.Pairwise fun a b => InOrder fs0 s a.files b.files

/-- C34: whatever the enclave is asked and however the two are interleaved, the pivot is started only after the quorum key
has been installed, and what is started is the pivot of a boot request approved by the manifest set: at that moment the
pivot file is exactly the approved pivot, and the arguments and the output mode are those of the approved manifest. Every
manifest the reaper can have read is that one, so (`run_shape`) bridges, resolvers and restart policy are the approved
ones too. -/
theorem launches_approved_pivot (H : History E fs0 h s) (hc : c.paths = E.paths) {t : Tick} (hs : Sees fs0 s (ts ++ [t]))
    {l : Launch} {new : List Act} (hnew : (run c (ts ++ [t])).2 = (run c ts).2 ++ new) (hl : Act.launch l ∈ new) :
    ∃ (e : Envelope) (pivot : Bytes) (key : P256.Pair), (∃ m ∈ requests h, m.BootsWith e pivot) ∧
      ApprovedBoot E.prims e pivot ∧ PivotOf c e.manifest l ∧ Holds t.files l.path pivot ∧
      Holds t.files E.paths.quorum (Hex.encode key.seed) ∧
      (key.publicKey E.prims).toBytes = e.manifest.namespaceOf.quorumKey ∧
      ∀ m, Ready c m ts → m = e.manifest := by
  obtain ⟨m0, hr0, hp0⟩ := launch_only_when_ready hnew hl
  -- every ready manifest comes from a moment with a quorum key, and the key is still there
  have key : ∀ m, Ready c m ts → (∃ fs, Moment fs0 s fs ∧ fs E.paths.quorum ≠ none ∧ Stores c m fs) ∧
      t.files E.paths.quorum ≠ none := by
    rintro m ⟨pre, tq, tp, tm, tl, post, rfl, hq, _, _, hst⟩
    have hq' : ∃ f, tq.files E.paths.quorum = some f := by
      rw [hc] at hq
      exact Option.ne_none_iff_exists'.1 hq
    obtain ⟨f, hf⟩ := hq'
    have ho := hs.ordered
    have htl : tl ∈ (pre ++ tq :: tp :: tm :: tl :: post) ++ [t] := by simp
    have hto : InOrder fs0 s tq.files tl.files := by
      have : [tq, tl].Sublist ((pre ++ tq :: tp :: tm :: tl :: post) ++ [t]) := by
        have h1 : [tq, tl].Sublist (tq :: tp :: tm :: tl :: post) := by
          refine List.Sublist.cons_cons _ (List.Sublist.cons _ (List.Sublist.cons _ ?_))
          exact List.Sublist.cons_cons _ (List.nil_sublist _)
        exact (h1.trans (List.sublist_append_right _ _)).trans (List.sublist_append_left _ _)
      have hx := List.Pairwise.sublist this ho
      rwa [List.pairwise_pair] at hx
    have hto' : InOrder fs0 s tq.files t.files := by
      have := (List.pairwise_append.1 ho).2.2 tq (by simp) t (by simp)
      exact this
    obtain ⟨f1, h1, _⟩ := quorum_key_written_once H hto hf
    obtain ⟨f2, h2, _⟩ := quorum_key_written_once H hto' hf
    exact ⟨⟨tl.files, hs.moments tl htl, by rw [h1]; simp, hst⟩, by rw [h2]; simp⟩
  obtain ⟨_, hqt⟩ := key m0 hr0
  obtain ⟨f, hf⟩ := Option.ne_none_iff_exists'.1 hqt
  obtain ⟨b, hb, hsn⟩ := H.moment (hs.moments t (by simp)) (mem_quorum _) hf
  obtain ⟨k, posts, hcm⟩ := hsn.quorum f hf
  have hok := hb.since.ok
  have all : ∀ m, Ready c m ts → m = b.envelope.manifest := by
    intro m hr
    obtain ⟨⟨fs, hm, hqn, g, e, hg, he, rfl⟩, _⟩ := key m hr
    obtain ⟨f', hf'⟩ := Option.ne_none_iff_exists'.1 hqn
    have hsn' : b.Snapshot E (requests h) fs := by
      rcases hm with hm | hm | hm
      · rw [hm, H.fresh _ (mem_quorum _)] at hf'; cases hf'
      · exact hb.since.snapshot hm
      · rw [hm]; exact hb.since.now
    obtain ⟨k', posts', hcm'⟩ := hsn'.quorum f' hf'
    obtain ⟨buf, hb1, g', hg', hd⟩ := hcm'.manifest
    rw [hc, hg'] at hg
    injection hg with hg
    subst hg
    obtain ⟨buf', r1, r2⟩ := storage_roundtrip _ (b.stored H.env hok hcm'.posted)
    rw [hb1] at r1
    injection r1 with r1
    rw [hd, r1, r2] at he
    injection he with he
    rw [← he, Envelope.manifest_withShares]
  refine ⟨b.envelope, b.pivot, k, hok.asked, hok.approvedBoot, (all m0 hr0) ▸ hp0, ?_, ⟨f, hf, hcm.content⟩, hcm.names,
    all⟩
  rw [hp0.path, hc]
  exact hcm.pivot

/-- Whatever manifest the reaper has read after it saw the quorum key is the one the manifest set approved. -/
theorem ready_approved (H : History E fs0 h s) (hc : c.paths = E.paths) (hs : Sees fs0 s ts) {m : VersionedManifest}
    (hr : Ready c m ts) : ∃ (e : Envelope) (pivot : Bytes), (∃ r ∈ requests h, r.BootsWith e pivot) ∧
      ApprovedBoot E.prims e pivot ∧ m = e.manifest := by
  obtain ⟨pre, tq, tp, tm, tl, post, rfl, hq, -, -, g, e, hg, he, rfl⟩ := hr
  rw [hc] at hq
  obtain ⟨f, hf⟩ := Option.ne_none_iff_exists'.1 hq
  have hto : InOrder fs0 s tq.files tl.files := by
    have : [tq, tl].Sublist (pre ++ tq :: tp :: tm :: tl :: post) := by
      have h1 : [tq, tl].Sublist (tq :: tp :: tm :: tl :: post) := by
        refine List.Sublist.cons_cons _ (List.Sublist.cons _ (List.Sublist.cons _ ?_))
        exact List.Sublist.cons_cons _ (List.nil_sublist _)
      exact h1.trans (List.sublist_append_right _ _)
    have hx := List.Pairwise.sublist this hs.ordered
    rwa [List.pairwise_pair] at hx
  obtain ⟨f1, h1, -⟩ := quorum_key_written_once H hto hf
  have hm : Moment fs0 s tl.files := hs.moments tl (by simp)
  obtain ⟨b, hb, hsn⟩ := H.moment hm (mem_quorum _) h1
  obtain ⟨k, posts, hcm⟩ := hsn.quorum f1 h1
  have hok := hb.since.ok
  refine ⟨b.envelope, b.pivot, hok.asked, hok.approvedBoot, ?_⟩
  obtain ⟨buf, hb1, g', hg', hd⟩ := hcm.manifest
  rw [hc, hg'] at hg
  injection hg with hg
  subst hg
  obtain ⟨buf', r1, r2⟩ := storage_roundtrip _ (b.stored H.env hok hcm.posted)
  rw [hb1] at r1
  injection r1 with r1
  rw [hd, r1, r2] at he
  injection he with he
  rw [← he, Envelope.manifest_withShares]

/-- C34: if a pivot has ever been started, then everything the reaper has done before follows one manifest that the manifest
set approved: the resolvers it wrote, the bridges it set up and the pivot it started, and what it did after follows its restart
policy. -/
theorem setup_approved (H : History E fs0 h s) (hc : c.paths = E.paths) (hs : Sees fs0 s ts) {l : Launch}
    (hl : Act.launch l ∈ (run c ts).2) : ∃ (e : Envelope) (pivot : Bytes) (su rest : List Act) (l' : Launch),
      (∃ r ∈ requests h, r.BootsWith e pivot) ∧ ApprovedBoot E.prims e pivot ∧
      (run c ts).2 = su ++ .launch l' :: rest ∧ SetUp c e.manifest su ∧ PivotOf c e.manifest l' ∧
      (e.manifest.restart = .always → Relaunches l' rest) ∧ (e.manifest.restart = .never → RunsOnce rest) := by
  rcases run_shape c ts with ⟨h1, -⟩ | ⟨m, l', su, rest, h1, h2, h3, h4, h5, h6⟩
  · exact absurd hl (h1 l)
  · obtain ⟨e, pivot, g1, g2, rfl⟩ := ready_approved H hc hs h2
    exact ⟨e, pivot, su, rest, l', g1, g2, h1, h3, h4, h5, h6⟩

/-! ## Progress -/

/-- A favourable step: all three files are there, the manifest is readable and system calls succeed. -/
structure Good (c : Config) (m : VersionedManifest) (t : Tick) : Prop where
  quorum : t.files c.paths.quorum ≠ none
  pivot : t.files c.paths.pivot ≠ none
  stores : Stores c m t.files
  callOk : t.callOk = true

/-- The bridges of the manifest can be set up on a vsock enclave. -/
structure Bridgeable (c : Config) (m : VersionedManifest) : Prop where
  vsock : ∃ cid port flags, c.core = .vsock cid port flags
  ports : ∀ p ∈ serverPorts m.bridgeConfig, p.toNat < 65534
  egress : HasClient m.bridgeConfig → c.egress = true

theorem Good.load {c : Config} {m : VersionedManifest} {t : Tick} (g : Good c m t) : Reaper.load c t = some m := by
  obtain ⟨f, e, h1, h2, h3⟩ := g.stores
  unfold Reaper.load
  rw [if_pos g.callOk, h1]
  simp [h2, h3]

theorem Good.manifest {c : Config} {m : VersionedManifest} {t : Tick} (g : Good c m t) :
    (t.files c.paths.manifest).isSome := by
  obtain ⟨f, e, h1, _⟩ := g.stores
  simp [h1]

theorem ne_none_isSome {α : Type} {x : Option α} (h : x ≠ none) : x.isSome = true := by cases x <;> simp_all

theorem bridges_progress {c : Config} {m : VersionedManifest} (hv : ∃ cid port flags, c.core = .vsock cid port flags) :
    ∀ (left : List BridgeConfig) (on : Bool) (ts : List Tick), (∀ p ∈ serverPorts left, p.toNat < 65534) →
      (HasClient left → on = true ∨ c.egress = true) → (∀ t ∈ ts, t.callOk = true) → left.length + 2 ≤ ts.length →
      Act.launch (command c m) ∈ (runFrom c ⟨.bridges m left on, false⟩ ts).2
  | [], on, ts, _, _, hg, hl => by
    match ts, hl with
    | t1 :: t2 :: ts, _ =>
      have h2 := hg t2 (by simp)
      simp [runFrom, step, h2]
  | b :: left, on, ts, hp, he, hg, hl => by
    match ts, hl with
    | t :: ts, hl =>
      have hg' : ∀ t ∈ ts, t.callOk = true := fun t ht => hg t (by simp [ht])
      have hl' : left.length + 2 ≤ ts.length := by simp at hl; omega
      have hstep : step c t ⟨.bridges m (b :: left) on, false⟩ =
        bridgeStep c m b left on ⟨.bridges m (b :: left) on, false⟩ := rfl
      have hp' : ∀ p ∈ serverPorts left, p.toNat < 65534 := fun p hm => hp p (by
        have : serverPorts (b :: left) = serverPorts [b] ++ serverPorts left := by
          rw [show b :: left = [b] ++ left from rfl]; unfold serverPorts; rw [List.filterMap_append]
        rw [this]; exact List.mem_append_right _ hm)
      obtain ⟨cid, port0, flags, hcore⟩ := hv
      unfold runFrom
      rw [hstep]
      refine List.mem_append_right _ ?_
      cases b with
      | server port host =>
        have hpt : port.toNat < 65534 := hp port (by simp [serverPorts])
        have hi : ingressOf c.core port = some (.ingress (.vsock cid (UInt32.ofNat port.toNat) flags) port) := by
          unfold ingressOf
          rw [hcore]
          simp only [withPort]
          rw [if_pos (by omega)]
        unfold bridgeStep
        simp only [hi]
        exact bridges_progress ⟨cid, port0, flags, hcore⟩ left on ts hp' (fun hcl => he (hasClient_append.2 (.inr hcl) :
          HasClient ([_] ++ left))) hg' hl'
      | client port host =>
        unfold bridgeStep
        cases on with
        | true =>
          simp only [if_true]
          exact bridges_progress ⟨cid, port0, flags, hcore⟩ left true ts hp' (fun _ => .inl rfl) hg' hl'
        | false =>
          have hen : c.egress = true := (he (hasClient_append.2 (.inl (hasClient_client port host)) :
            HasClient ([_] ++ left))).resolve_left (by simp)
          have hx : egressOf c = some (.egress (egressHelper cid)) := by
            unfold egressOf
            rw [hcore]
            simp only [hen, if_true]
          simp only [Bool.false_eq_true, if_false, hx]
          exact bridges_progress ⟨cid, port0, flags, hcore⟩ left true ts hp' (fun _ => .inl rfl) hg' hl'

/-- C34, progress: after waiting for any time without a quorum key, the reaper starts the pivot within `8` steps plus one
per bridge once the files are there (and system calls succeed). -/
theorem launches_when_ready {m : VersionedManifest} (hbr : Bridgeable c m) {idle good : List Tick}
    (hidle : ∀ t ∈ idle, t.files c.paths.quorum = none) (hgood : ∀ t ∈ good, Good c m t)
    (hlen : m.bridgeConfig.length + 8 ≤ good.length) :
    ∃ l, PivotOf c m l ∧ Act.launch l ∈ (run c (idle ++ good)).2 := by
  refine ⟨command c m, command_pivotOf c m, ?_⟩
  have hw : (run c idle).1 = ⟨.poll, false⟩ ∨ (run c idle).1 = ⟨.quorum, false⟩ := by
    induction idle using List.reverseRecOn with
    | nil => exact .inl rfl
    | append_singleton ts t ih =>
      rw [run_snoc]
      have ht := hidle t (by simp)
      rcases ih (fun t ht => hidle t (by simp [ht])) with h | h
      · rw [h]; exact .inr rfl
      · rw [h]; left; simp [step, ht]
  have tail : ∀ ts : List Tick, (∀ t ∈ ts, Good c m t) → m.bridgeConfig.length + 7 ≤ ts.length →
      Act.launch (command c m) ∈ (runFrom c ⟨.quorum, false⟩ ts).2 := by
    intro ts hg hl
    match ts, hl with
    | t1 :: t2 :: t3 :: t4 :: t5 :: ts, hl =>
      have g1 := hg t1 (by simp)
      have g2 := hg t2 (by simp)
      have g3 := hg t3 (by simp)
      have g4 := hg t4 (by simp)
      have g5 := hg t5 (by simp)
      have s1 : step c t1 ⟨.quorum, false⟩ = (⟨.pivot, false⟩, []) := by simp [step, ne_none_isSome g1.quorum]
      have s2 : step c t2 ⟨.pivot, false⟩ = (⟨.manifest, false⟩, []) := by simp [step, ne_none_isSome g2.pivot]
      have s3 : step c t3 ⟨.manifest, false⟩ = (⟨.load, false⟩, []) := by simp [step, g3.manifest]
      have s4 : step c t4 ⟨.load, false⟩ = (⟨.dns m, false⟩, []) := by simp [step, g4.load]
      have s5 : (step c t5 ⟨.dns m, false⟩).1 = ⟨.bridges m m.bridgeConfig false, false⟩ := by
        simp only [step]
        cases m.dnsConfig with
        | none => rfl
        | some d => simp [g5.callOk]
      simp only [runFrom, s1, s2, s3, s4, s5, List.nil_append]
      refine List.mem_append_right _ ?_
      exact bridges_progress hbr.vsock _ _ _ hbr.ports (fun hcl => .inr (hbr.egress hcl))
        (fun t ht => (hg t (by simp [ht])).callOk) (by simp at hl; omega)
  unfold run
  rw [runFrom_append]
  refine List.mem_append_right _ ?_
  have hrun : (runFrom c R.start idle).1 = (run c idle).1 := rfl
  rw [hrun]
  rcases hw with hw | hw
  · rw [hw]
    match good, hlen with
    | t :: good, hlen =>
      have s0 : step c t ⟨.poll, false⟩ = (⟨.quorum, false⟩, []) := rfl
      simp only [runFrom, s0, List.nil_append]
      exact tail good (fun t ht => hgood t (by simp [ht])) (by simp at hlen; omega)
  · rw [hw]
    exact tail good hgood (by omega)

/-- C34, progress: a provisioned enclave gets its pivot started. -/
theorem provisioned_enclave_launches (H : History E fs0 h s) (hp : s.phase = .quorumKeyProvisioned)
    (hc : c.paths = E.paths) :
    ∃ (e : Envelope) (pivot : Bytes), ApprovedBoot E.prims e pivot ∧ Holds s.files E.paths.pivot pivot ∧
      (Bridgeable c e.manifest → ∀ idle good : List Tick, (∀ t ∈ idle, t.files c.paths.quorum = none) →
        (∀ t ∈ good, t.files = s.files ∧ t.callOk = true) → e.manifest.bridgeConfig.length + 8 ≤ good.length →
        ∃ l, PivotOf c e.manifest l ∧ Act.launch l ∈ (run c (idle ++ good)).2) := by
  obtain ⟨b, key, hw, hin⟩ := H.provisioned hp
  refine ⟨b.envelope, b.pivot, hw.since.ok.approvedBoot, hin.pivot, fun hbr idle good hi hg hl => ?_⟩
  refine launches_when_ready hbr hi (fun t ht => ?_) hl
  obtain ⟨h1, h2⟩ := hg t ht
  obtain ⟨buf, hb1, f, hf, hd⟩ := hin.manifest
  obtain ⟨buf', r1, r2⟩ := hin.readable
  obtain ⟨g, hg1, _⟩ := hin.pivot
  have hq : s.files E.paths.quorum ≠ none := by
    obtain ⟨q, hq1, _⟩ := hw.quorum
    rw [hq1]; simp
  refine ⟨by rw [h1, hc]; exact hq, by rw [h1, hc, hg1]; simp, ?_, h2⟩
  rw [hb1] at r1
  injection r1 with r1
  exact ⟨f, _, by rw [h1, hc]; exact hf, by rw [hd, r1]; exact r2, Envelope.manifest_withShares ..⟩

/-- A server bridge on port 65534 or 65535 is accepted in a manifest, but such an enclave never starts its pivot: the
assertion of `HostBridge::new` fails. -/
theorem high_port_never_launches {m : VersionedManifest} {port : UInt16}
    (hport : port ∈ serverPorts m.bridgeConfig) (hhigh : 65534 ≤ port.toNat) (honly : ∀ m', Ready c m' ts → m' = m)
    (l : Launch) : Act.launch l ∉ (run c ts).2 := by
  rcases run_shape c ts with ⟨hl, _⟩ | ⟨m', l', su, rest, _, hr, hs, _⟩
  · exact hl l
  · exfalso
    rw [honly m' hr] at hs
    rw [← hs.ports] at hport
    obtain ⟨x, hx, rfl⟩ := List.mem_map.1 hport
    have := (hs.sockets x hx).2
    omega

/-! ## A concrete case -/

/-- The provisioned enclave of `Props/Scenario`, its reaper polling twice before and then seeing the provisioned files: the
hypotheses of the theorems above are met and the pivot is started. -/
theorem toy_launch : ∃ (h : List (Msg × Msg)) (s : St) (c : Config) (t : Tick) (ts : List Tick) (l : Launch) (new : List Act),
    History toyEnv noFiles h s ∧ c.paths = toyEnv.paths ∧ Sees noFiles s (ts ++ [t]) ∧
    (run c (ts ++ [t])).2 = (run c ts).2 ++ new ∧ Act.launch l ∈ new := by
  obtain ⟨setup, h0, H, ⟨doc, hdoc⟩, hph, hin, heph⟩ := toy_boot (m := .bootStandardRequest toyEnvelope [1, 2, 3]) (.inl rfl)
  obtain ⟨h, s, q1, q2, q3, q4⟩ := toy_provision (a := toyApproval 4 toyHash) H hph
    (by rcases hdoc with hd | hd <;> rw [hd] <;> rfl) h0 hin heph List.mem_cons_self
    ((approval_verify_iff ..).1 toy_share_approval)
  let c : Config := ⟨toyEnv.paths, .vsock 16 3 0, true⟩
  let t : Tick := ⟨s.files, true, none⟩
  let t0 : Tick := ⟨noFiles, true, none⟩
  have hgood : Good c toyEnvelope.manifest t := by
    obtain ⟨b, key, hw, _⟩ := q1.provisioned q2
    obtain ⟨q, hq, _⟩ := hw.quorum
    obtain ⟨g, hg, _⟩ := q3.pivot
    obtain ⟨buf, hb1, f, hf, hd⟩ := q3.manifest
    obtain ⟨buf', r1, r2⟩ := q3.readable
    rw [hb1] at r1
    injection r1 with r1
    refine ⟨?_, ?_, ⟨f, _, hf, by rw [hd, r1]; exact r2, Envelope.manifest_withShares ..⟩, rfl⟩
    · show s.files toyEnv.paths.quorum ≠ none
      rw [hq]; simp
    · show s.files toyEnv.paths.pivot ≠ none
      rw [hg]; simp
  have hrun := launches_when_ready (c := c) (m := toyEnvelope.manifest) (idle := [t0, t0])
    (good := List.replicate (toyEnvelope.manifest.bridgeConfig.length + 8) t)
    ⟨⟨16, 3, 0, rfl⟩, (by intro p hp; exact absurd hp (by show p ∉ serverPorts []; simp [serverPorts])),
      (by rintro ⟨p, x, hm⟩; exact absurd hm (by show BridgeConfig.client p x ∉ []; simp))⟩
    (by intro t ht; simp at ht; subst ht; rfl) (by intro t ht; rw [List.mem_replicate] at ht; rw [ht.2]; exact hgood)
    (by simp)
  obtain ⟨l, _, hl⟩ := hrun
  -- the step at which it appears
  have split : ∀ all : List Tick, Act.launch l ∈ (run c all).2 → ∃ ts t post new, all = ts ++ t :: post ∧
      (run c (ts ++ [t])).2 = (run c ts).2 ++ new ∧ Act.launch l ∈ new := by
    intro all
    induction all using List.reverseRecOn with
    | nil => intro h; simp [run, runFrom] at h
    | append_singleton ts t ih =>
      intro h
      by_cases hin : Act.launch l ∈ (run c ts).2
      · obtain ⟨ts', t', post, new, h1, h2⟩ := ih hin
        exact ⟨ts', t', post ++ [t], new, by rw [h1]; simp, h2⟩
      · rw [run_snoc] at h
        refine ⟨ts, t, [], (step c t (run c ts).1).2, by simp, by rw [run_snoc], ?_⟩
        exact (List.mem_append.1 h).resolve_left hin
  obtain ⟨ts, t', post, new, h1, h2, h3⟩ := split _ hl
  have hall : Sees noFiles s ([t0, t0] ++ List.replicate (toyEnvelope.manifest.bridgeConfig.length + 8) t) := by
    constructor
    · intro x hx
      rcases List.mem_append.1 hx with hx | hx
      · simp at hx; subst hx; exact .inl rfl
      · rw [List.mem_replicate] at hx; rw [hx.2]; exact .inr (.inr rfl)
    · rw [List.pairwise_append]
      refine ⟨?_, ?_, ?_⟩
      · rw [List.pairwise_pair]; exact .inr (.inr (.inr rfl))
      · exact List.pairwise_replicate.2 (.inr (.inr (.inr (.inr rfl))))
      · intro a ha b hb
        simp at ha; subst ha
        rw [List.mem_replicate] at hb
        rw [hb.2]
        exact .inl ⟨rfl, .inr (.inr rfl)⟩
  have hsub : (ts ++ [t']).Sublist ([t0, t0] ++ List.replicate (toyEnvelope.manifest.bridgeConfig.length + 8) t) := by
    rw [h1]
    exact List.Sublist.append (List.Sublist.refl _) (List.Sublist.cons_cons _ (List.nil_sublist _))
  exact ⟨h, s, c, t', ts, l, new, q1, rfl,
    ⟨fun x hx => hall.moments x (hsub.subset hx), hall.ordered.sublist hsub⟩, h2, h3⟩

end Qos.Reaper

namespace Qos.Reaper

/-- Two complete runs, for each policy: the pivot exits with status 7; with `Never` the reaper stops the server and returns,
with `Always` it starts the pivot again. -/
theorem complete_runs {c : Config} {m : VersionedManifest} {fs : Files} (g : Good c m ⟨fs, true, none⟩)
    (hd : m.dnsConfig = none) (hb : m.bridgeConfig = []) :
    Ready c m (List.replicate 10 ⟨fs, true, some 7⟩) ∧
    (m.restart = .never → (run c (List.replicate 11 ⟨fs, true, some 7⟩)).2 =
      [.launch (command c m), .exited 7, .stopServer, .returned]) ∧
    (m.restart = .always → (run c (List.replicate 11 ⟨fs, true, some 7⟩)).2 =
      [.launch (command c m), .exited 7, .launch (command c m)]) := by
  have hl : load c ⟨fs, true, some 7⟩ = some m := by
    have := g.load
    simpa [load] using this
  have hq := ne_none_isSome g.quorum
  have hp := ne_none_isSome g.pivot
  have hm := g.manifest
  simp only at hq hp hm
  refine ⟨?_, ?_, ?_⟩
  · exact ⟨[], ⟨fs, true, some 7⟩, ⟨fs, true, some 7⟩, ⟨fs, true, some 7⟩, ⟨fs, true, some 7⟩, List.replicate 6 _, rfl,
      g.quorum, g.pivot, isSome_ne_none hm, g.stores⟩
  · intro hr
    simp [run, List.replicate, runFrom, step, R.start, hl, hq, hp, hm, hd, hb, hr]
  · intro hr
    simp [run, List.replicate, runFrom, step, R.start, hl, hq, hp, hm, hd, hb, hr]

end Qos.Reaper
