import Verif.Spec.Reaper
import Verif.Lemmas.Ip
import Mathlib.Data.List.Induction
/-!
# Lemmas: the runs of the reaper
-/
namespace Qos.Reaper
open Pool (Address)

theorem runFrom_append (c : Config) (r : R) (a b : List Tick) :
    runFrom c r (a ++ b) =
      ((runFrom c (runFrom c r a).1 b).1, (runFrom c r a).2 ++ (runFrom c (runFrom c r a).1 b).2) := by
  induction a generalizing r with
  | nil => simp [runFrom]
  | cons t ts ih => simp [runFrom, ih, List.append_assoc]

theorem run_snoc (c : Config) (ts : List Tick) (t : Tick) :
    run c (ts ++ [t]) = ((step c t (run c ts).1).1, (run c ts).2 ++ (step c t (run c ts).1).2) := by
  unfold run
  rw [runFrom_append]
  simp [runFrom]

/-- A launch followed by an exit, for each status. -/
def cycles (l : Launch) (ss : List Int) : List Act := ss.flatMap fun s => [.launch l, .exited s]

/-- Set-up of the DNS entries and of these bridge entries. -/
structure PartSetUp (c : Config) (m : VersionedManifest) (bs : List BridgeConfig) (acts : List Act) : Prop where
  only : ∀ a ∈ acts, a.IsSetup
  dns : resolvers acts = match m.dnsConfig with
    | none => []
    | some d => [String.join (d.resolvers.map fun r => "nameserver " ++ Ip.display r ++ "\n")]
  ports : (ingresses acts).map (·.2) = serverPorts bs
  sockets : ∀ x ∈ ingresses acts, SocketFor c.core x.2 x.1 ∧ x.2.toNat < 65534
  client : HasClient bs → ∃ cid port flags, c.core = .vsock cid port flags ∧ c.egress = true ∧
    egresses acts = [⟨"/egress", ["--cid", toString cid.toNat, "--vsock-to-host", "false"], [], .inherited⟩]
  noClient : ¬ HasClient bs → egresses acts = []

theorem PartSetUp.full {c : Config} {m : VersionedManifest} {acts : List Act} (h : PartSetUp c m m.bridgeConfig acts) :
    SetUp c m acts := ⟨h.only, h.dns, h.ports, h.sockets, h.client, h.noClient⟩

/-- The bank of facts for each place in `execute`. -/
inductive At (c : Config) (ts : List Tick) : R → List Act → Prop
  | poll : At c ts ⟨.poll, false⟩ []
  | quorum : At c ts ⟨.quorum, false⟩ []
  | pivot (pre : List Tick) (tq : Tick) : ts = pre ++ [tq] → tq.files c.paths.quorum ≠ none → At c ts ⟨.pivot, false⟩ []
  | manifest (pre : List Tick) (tq tp : Tick) : ts = pre ++ [tq, tp] → tq.files c.paths.quorum ≠ none →
      tp.files c.paths.pivot ≠ none → At c ts ⟨.manifest, false⟩ []
  | load (pre : List Tick) (tq tp tm : Tick) : ts = pre ++ [tq, tp, tm] → tq.files c.paths.quorum ≠ none →
      tp.files c.paths.pivot ≠ none → tm.files c.paths.manifest ≠ none → At c ts ⟨.load, false⟩ []
  | dns (m : VersionedManifest) : Ready c m ts → At c ts ⟨.dns m, false⟩ []
  | bridges (m : VersionedManifest) (before left : List BridgeConfig) (on : Bool) (acts : List Act) : Ready c m ts →
      m.bridgeConfig = before ++ left → (on = true ↔ HasClient before) → PartSetUp c m before acts →
      At c ts ⟨.bridges m left on, false⟩ acts
  | spawn (m : VersionedManifest) (su : List Act) (ss : List Int) : Ready c m ts → SetUp c m su →
      (ss ≠ [] → m.restart = .always) → At c ts ⟨.spawn m, false⟩ (su ++ cycles (command c m) ss)
  | wait (m : VersionedManifest) (su : List Act) (ss : List Int) : Ready c m ts → SetUp c m su →
      (ss ≠ [] → m.restart = .always) →
      At c ts ⟨.wait m, false⟩ (su ++ cycles (command c m) ss ++ [.launch (command c m)])
  | again (m : VersionedManifest) (su : List Act) (ss : List Int) (s : Int) : Ready c m ts → SetUp c m su →
      (ss ≠ [] → m.restart = .always) →
      At c ts ⟨.again m, false⟩ (su ++ cycles (command c m) ss ++ [.launch (command c m), .exited s])
  | closing (m : VersionedManifest) (su : List Act) (s : Int) : Ready c m ts → SetUp c m su → m.restart = .never →
      At c ts ⟨.closing, true⟩ (su ++ [.launch (command c m), .exited s, .stopServer])
  | returned (m : VersionedManifest) (su : List Act) (s : Int) : Ready c m ts → SetUp c m su → m.restart = .never →
      At c ts ⟨.done, true⟩ (su ++ [.launch (command c m), .exited s, .stopServer, .returned])
  | early (acts : List Act) : (∀ a ∈ acts, a.IsSetup) → At c ts ⟨.done, false⟩ (acts ++ [.panicked])
  | failedSpawn (m : VersionedManifest) (su : List Act) (ss : List Int) : Ready c m ts → SetUp c m su →
      (ss ≠ [] → m.restart = .always) →
      At c ts ⟨.done, false⟩ (su ++ cycles (command c m) ss ++ [.panicked])
  | failedWait (m : VersionedManifest) (su : List Act) (ss : List Int) : Ready c m ts → SetUp c m su →
      (ss ≠ [] → m.restart = .always) →
      At c ts ⟨.done, false⟩ (su ++ cycles (command c m) ss ++ [.launch (command c m), .panicked])

theorem Ready.snoc {c : Config} {m : VersionedManifest} {ts : List Tick} (h : Ready c m ts) (t : Tick) :
    Ready c m (ts ++ [t]) := by
  obtain ⟨pre, tq, tp, tm, tl, post, rfl, h⟩ := h
  exact ⟨pre, tq, tp, tm, tl, post ++ [t], by simp, h⟩

theorem isSome_ne_none {α : Type} {x : Option α} (h : x.isSome = true) : x ≠ none := by
  cases x <;> simp_all

theorem load_stores {c : Config} {t : Tick} {m : VersionedManifest} (h : load c t = some m) : Stores c m t.files := by
  unfold load at h
  by_cases hc : t.callOk
  · rw [if_pos hc] at h
    cases hf : t.files c.paths.manifest with
    | none => rw [hf] at h; cases h
    | some f =>
      rw [hf] at h
      cases he : Envelope.tryFromSliceCompat f.data with
      | none => simp [he] at h
      | some e =>
        simp [he] at h
        exact ⟨f, e, hf, he, h⟩
  · rw [if_neg hc] at h; cases h

theorem withPort_socket {core a : Address} {port : UInt16} (h : withPort port core = some a) : SocketFor core port a := by
  cases core with
  | vsock cid p flags => unfold withPort at h; injection h with h; exact h.symm
  | unix path =>
    simp only [withPort] at h
    by_cases hp : path = []
    · rw [if_pos hp] at h; cases h
    · rw [if_neg hp] at h
      unfold Pool.unixAddr at h
      split at h
      · rename_i heq
        split at heq
        · injection heq with heq
          injection h with h
          subst h
          rw [← heq]
          unfold SocketFor
          simp only
          rw [natText_toString]
        · cases heq
      · cases h

theorem ingressOf_some {core : Address} {port : UInt16} {a : Act} (h : ingressOf core port = some a) :
    ∃ s, a = .ingress s port ∧ SocketFor core port s ∧ port.toNat < 65534 := by
  unfold ingressOf at h
  cases hw : withPort port core with
  | none => rw [hw] at h; cases h
  | some s =>
    rw [hw] at h
    simp only at h
    by_cases hp : 1 + port.toNat < 65535
    · rw [if_pos hp] at h
      injection h with h
      exact ⟨s, h.symm, withPort_socket hw, by omega⟩
    · rw [if_neg hp] at h; cases h

theorem egressOf_some {c : Config} {a : Act} (h : egressOf c = some a) :
    ∃ cid port flags, c.core = .vsock cid port flags ∧ c.egress = true ∧
      a = .egress ⟨"/egress", ["--cid", toString cid.toNat, "--vsock-to-host", "false"], [], .inherited⟩ := by
  unfold egressOf at h
  cases hc : c.core with
  | unix p => rw [hc] at h; cases h
  | vsock cid port flags =>
    rw [hc] at h
    simp only at h
    by_cases he : c.egress = true
    · rw [if_pos he] at h
      injection h with h
      refine ⟨cid, port, flags, rfl, he, ?_⟩
      rw [← h]
      unfold egressHelper
      rw [← natText_toString, String.ofList_toList]
    · rw [if_neg he] at h; cases h

theorem hasClient_append {a b : List BridgeConfig} : HasClient (a ++ b) ↔ HasClient a ∨ HasClient b := by
  unfold HasClient
  constructor
  · rintro ⟨p, h, hm⟩
    rcases List.mem_append.1 hm with hm | hm
    · exact .inl ⟨p, h, hm⟩
    · exact .inr ⟨p, h, hm⟩
  · rintro (⟨p, h, hm⟩ | ⟨p, h, hm⟩)
    · exact ⟨p, h, List.mem_append_left _ hm⟩
    · exact ⟨p, h, List.mem_append_right _ hm⟩

theorem hasClient_server (port : UInt16) (host : String) : ¬ HasClient [.server port host] := by
  rintro ⟨p, h, hm⟩
  simp at hm

theorem hasClient_client (port : UInt16) (host : Option String) : HasClient [.client port host] := ⟨port, host, by simp⟩

theorem PartSetUp.server {c : Config} {m : VersionedManifest} {bs : List BridgeConfig} {acts : List Act}
    (h : PartSetUp c m bs acts) {port : UInt16} {host : String} {s : Address}
    (hs : SocketFor c.core port s ∧ port.toNat < 65534) :
    PartSetUp c m (bs ++ [.server port host]) (acts ++ [.ingress s port]) where
  only := by
    intro a ha
    rcases List.mem_append.1 ha with ha | ha
    · exact h.only a ha
    · simp at ha; subst ha; trivial
  dns := by rw [← h.dns]; simp [resolvers]
  ports := by
    have := h.ports
    unfold ingresses serverPorts at *
    simp [List.filterMap_append, this]
  sockets := by
    intro x hx
    have hx' : x ∈ ingresses acts ∨ x = (s, port) := by
      unfold ingresses at *
      simpa [List.filterMap_append] using hx
    rcases hx' with hx' | rfl
    · exact h.sockets x hx'
    · exact hs
  client := by
    intro hc
    have hc : HasClient bs := (hasClient_append.1 hc).resolve_right (hasClient_server _ _)
    obtain ⟨cid, p, fl, h1, h2, h3⟩ := h.client hc
    refine ⟨cid, p, fl, h1, h2, ?_⟩
    rw [← h3]; simp [egresses]
  noClient := by
    intro hc
    rw [← h.noClient (fun hx => hc (hasClient_append.2 (.inl hx)))]
    simp [egresses]

theorem PartSetUp.clientOn {c : Config} {m : VersionedManifest} {bs : List BridgeConfig} {acts : List Act}
    (h : PartSetUp c m bs acts) {port : UInt16} {host : Option String} (hon : HasClient bs) :
    PartSetUp c m (bs ++ [.client port host]) acts where
  only := h.only
  dns := h.dns
  ports := by rw [h.ports]; simp [serverPorts]
  sockets := h.sockets
  client := fun _ => h.client hon
  noClient := fun hn => absurd (hasClient_append.2 (.inr (hasClient_client _ _))) hn

theorem PartSetUp.clientNew {c : Config} {m : VersionedManifest} {bs : List BridgeConfig} {acts : List Act}
    (h : PartSetUp c m bs acts) {port : UInt16} {host : Option String} (hoff : ¬ HasClient bs) {a : Act}
    (ha : ∃ cid port flags, c.core = .vsock cid port flags ∧ c.egress = true ∧
      a = .egress ⟨"/egress", ["--cid", toString cid.toNat, "--vsock-to-host", "false"], [], .inherited⟩) :
    PartSetUp c m (bs ++ [.client port host]) (acts ++ [a]) := by
  obtain ⟨cid, p, fl, h1, h2, rfl⟩ := ha
  refine ⟨?_, ?_, ?_, ?_, ?_, ?_⟩
  · intro a ha
    rcases List.mem_append.1 ha with ha | ha
    · exact h.only a ha
    · rw [List.mem_singleton] at ha; subst ha; trivial
  · rw [← h.dns]; unfold resolvers; rw [List.filterMap_append]; simp
  · rw [show ingresses (acts ++ [Act.egress _]) = ingresses acts by
      unfold ingresses; rw [List.filterMap_append]; simp, h.ports]
    simp [serverPorts]
  · rw [show ingresses (acts ++ [Act.egress _]) = ingresses acts by
      unfold ingresses; rw [List.filterMap_append]; simp]
    exact h.sockets
  · intro _
    refine ⟨cid, p, fl, h1, h2, ?_⟩
    have := h.noClient hoff
    unfold egresses at *
    rw [List.filterMap_append, this]; simp
  · intro hn
    exact absurd (hasClient_append.2 (.inr (hasClient_client _ _))) hn

theorem cycles_snoc (l : Launch) (ss : List Int) (s : Int) :
    cycles l (ss ++ [s]) = cycles l ss ++ [.launch l, .exited s] := by
  simp [cycles]

theorem at_step {c : Config} {ts : List Tick} {r : R} {acts : List Act} (h : At c ts r acts) (t : Tick) :
    At c (ts ++ [t]) (step c t r).1 (acts ++ (step c t r).2) := by
  cases h with
  | poll => exact .quorum
  | quorum =>
    unfold step
    by_cases hq : (t.files c.paths.quorum).isSome
    · simp only [hq, if_true, List.append_nil]
      exact .pivot ts t rfl (isSome_ne_none hq)
    · simp only [hq, if_false, List.append_nil]
      exact .poll
  | pivot pre tq h1 h2 =>
    unfold step
    by_cases hq : (t.files c.paths.pivot).isSome
    · simp only [hq, if_true, List.append_nil]
      exact .manifest pre tq t (by rw [h1]; simp) h2 (isSome_ne_none hq)
    · simp only [hq, if_false, List.append_nil]
      exact .poll
  | manifest pre tq tp h1 h2 h3 =>
    unfold step
    by_cases hq : (t.files c.paths.manifest).isSome
    · simp only [hq, if_true, List.append_nil]
      exact .load pre tq tp t (by rw [h1]; simp) h2 h3 (isSome_ne_none hq)
    · simp only [hq, if_false, List.append_nil]
      exact .poll
  | load pre tq tp tm h1 h2 h3 h4 =>
    unfold step
    simp only
    cases hl : load c t with
    | none => exact .early [] (by simp)
    | some m =>
      exact .dns m ⟨pre, tq, tp, tm, t, [], by rw [h1]; simp, h2, h3, h4, load_stores hl⟩
  | dns m hr =>
    have hr := hr.snoc t
    unfold step
    simp only
    cases hd : m.dnsConfig with
    | none =>
      refine .bridges m [] _ false [] hr rfl (by simp [HasClient]) ?_
      exact ⟨by simp, by simp [hd, resolvers], rfl, (by simp [ingresses]), (by rintro ⟨_, _, h⟩; simp at h), fun _ => rfl⟩
    | some d =>
      simp only
      by_cases hc : t.callOk
      · rw [if_pos hc]
        refine .bridges m [] _ false _ hr rfl (by simp [HasClient]) ?_
        refine ⟨by simp [Act.IsSetup], ?_, rfl, (by simp [ingresses]), (by rintro ⟨_, _, h⟩; simp at h), fun _ => rfl⟩
        rw [hd]; rfl
      · rw [if_neg hc]
        exact .early [] (by simp)
  | bridges m before left on acts hr hb hon hs =>
    have hr := hr.snoc t
    cases left with
    | nil =>
      rw [List.append_nil] at hb
      have := At.spawn (c := c) (ts := ts ++ [t]) m acts [] hr (hb ▸ hs).full (by simp)
      simpa [step, cycles] using this
    | cons b left =>
      have hb' : m.bridgeConfig = (before ++ [b]) ++ left := by rw [hb]; simp
      have hstep : step c t ⟨.bridges m (b :: left) on, false⟩ =
        bridgeStep c m b left on ⟨.bridges m (b :: left) on, false⟩ := rfl
      rw [hstep]
      cases b with
      | server port host =>
        unfold bridgeStep
        simp only
        cases hi : ingressOf c.core port with
        | none => exact .early acts hs.only
        | some a =>
          obtain ⟨s, rfl, hsock⟩ := ingressOf_some hi
          refine .bridges m _ left on _ hr hb' ?_ (hs.server hsock)
          rw [hasClient_append, hon]
          exact ⟨.inl, fun h => h.resolve_right (hasClient_server _ _)⟩
      | client port host =>
        unfold bridgeStep
        simp only
        cases on with
        | true =>
          have hcl := hon.1 rfl
          simp only [if_true, List.append_nil]
          exact .bridges m _ left true _ hr hb'
            ⟨fun _ => hasClient_append.2 (.inr (hasClient_client _ _)), fun _ => rfl⟩ (hs.clientOn hcl)
        | false =>
          have hcl : ¬ HasClient before := fun h => by cases hon.2 h
          simp only [Bool.false_eq_true, if_false]
          cases he : egressOf c with
          | none => exact .early acts hs.only
          | some a =>
            exact .bridges m _ left true _ hr hb'
              ⟨fun _ => hasClient_append.2 (.inr (hasClient_client _ _)), fun _ => rfl⟩
              (hs.clientNew hcl (egressOf_some he))
  | spawn m su ss hr hs ha =>
    have hr := hr.snoc t
    unfold step
    simp only
    by_cases hc : t.callOk
    · rw [if_pos hc]
      exact .wait m su ss hr hs ha
    · rw [if_neg hc]
      exact .failedSpawn m su ss hr hs ha
  | wait m su ss hr hs ha =>
    have hr := hr.snoc t
    unfold step
    simp only
    by_cases hc : t.callOk
    · rw [if_pos hc]
      cases t.exit with
      | none => simp only [List.append_nil]; exact .wait m su ss hr hs ha
      | some s => simpa using At.again (c := c) (ts := ts ++ [t]) m su ss s hr hs ha
    · rw [if_neg hc]
      simpa [crash] using At.failedWait (c := c) (ts := ts ++ [t]) m su ss hr hs ha
  | again m su ss s hr hs ha =>
    have hr := hr.snoc t
    unfold step
    simp only
    cases hre : m.restart with
    | always =>
      have := At.spawn (c := c) (ts := ts ++ [t]) m su (ss ++ [s]) hr hs (fun _ => hre)
      rw [cycles_snoc] at this
      simpa using this
    | never =>
      have : ss = [] := by
        by_contra hne
        rw [ha hne] at hre; cases hre
      subst this
      simpa [cycles] using At.closing (c := c) (ts := ts ++ [t]) m su s hr hs hre
  | closing m su s hr hs hn =>
    have hr := hr.snoc t
    simpa [step] using At.returned (c := c) (ts := ts ++ [t]) m su s hr hs hn
  | returned m su s hr hs hn =>
    have hr := hr.snoc t
    simpa [step] using At.returned (c := c) (ts := ts ++ [t]) m su s hr hs hn
  | early acts h =>
    simpa [step] using At.early (c := c) (ts := ts ++ [t]) acts h
  | failedSpawn m su ss hr hs ha =>
    have hr := hr.snoc t
    simpa [step] using At.failedSpawn (c := c) (ts := ts ++ [t]) m su ss hr hs ha
  | failedWait m su ss hr hs ha =>
    have hr := hr.snoc t
    simpa [step] using At.failedWait (c := c) (ts := ts ++ [t]) m su ss hr hs ha

theorem at_run (c : Config) (ts : List Tick) : At c ts (run c ts).1 (run c ts).2 := by
  induction ts using List.reverseRecOn with
  | nil => exact .poll
  | append_singleton ts t ih =>
    rw [run_snoc]
    exact at_step ih t

end Qos.Reaper
