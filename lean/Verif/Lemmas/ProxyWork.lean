import Verif.Spec.ProxyLive
import Verif.Lemmas.Proxy
import Verif.Lemmas.NetWork
import Mathlib.Logic.Relation
import Mathlib.Tactic.ByContra
/-!
# Lemmas: the proxy's work ends
-/
namespace Qos.Proxy
open Net (total total_set Down down_wf)

variable {Ip : Type} {A : Addresses Ip}

theorem LocalWork.step {s s' : Session Ip} (h : LocalWork A s s') : Local A s s' := by
  cases h with
  | read buf n m h1 h2 h3 h4 h5 => exact .read _ _ _ _ h1 h2 h4 h5
  | receive buf req h1 h2 => exact .receive _ _ _ h1 h2
  | dispatch req h1 => exact .dispatch _ _ h1
  | buildFailed hn text p k h1 => exact .buildFailed _ _ _ _ _ h1
  | query hn text p r a h1 => exact .query _ _ _ _ _ _ h1
  | connected text a p h1 => exact .connected _ _ _ _ h1
  | refused text e a p h1 => exact .refused _ _ _ _ _ h1
  | reply m h1 h2 => exact .reply _ _ h1 h2
  | write rest n h1 h2 h3 => exact .write _ _ _ h1
  | answered h1 h2 => exact .answered _ h1 h2
  | upRead u d n h1 h2 h3 h4 => exact .upRead _ _ _ _ h1 h2 h4
  | upWrite u d t n h1 h2 h3 h4 => exact .upWrite _ _ _ _ _ h1 h2
  | upEof u d h1 h2 h3 h4 => exact .upEof _ _ _ h1 h3 h4
  | upDone u d t h1 h2 h3 h4 h5 => exact .upDone _ _ _ _ h1 h3 h4 h5
  | downRead u d t n h1 h2 h3 h4 h5 => exact .downRead _ _ _ _ _ h1 h2 h3 h5
  | downWrite u d n h1 h2 h3 => exact .downWrite _ _ _ _ h1
  | downEof u d t h1 h2 h3 h4 h5 => exact .downEof _ _ _ _ h1 h3 h4 h5
  | downDone u d h1 h2 h3 h4 => exact .downDone _ _ _ h1 h3 h4

theorem GivesUp.active {s : Session Ip} (h : GivesUp s) : s.task.active = true := by
  cases h with
  | oversized buf h => rw [h]; rfl
  | hangup buf m h => rw [h]; rfl
  | tooLong m h => rw [h]; rfl

/-! ## The measure -/

def flags (h : Half) : Nat := (!h.eof).toNat + (!h.done).toNat

theorem flags_le (h : Half) : flags h ≤ 2 := by
  unfold flags
  cases h.eof <;> cases h.done <;> decide

def rank : Task Ip → Nat
  | .queued => 20
  | .reading _ => 18
  | .received _ => 17
  | .seeking _ _ _ => 16
  | .building _ _ _ => 15
  | .querying _ _ _ => 14
  | .dialing _ _ _ => 13
  | .replying _ => 12
  | .writing _ => 11
  | .piping u d => 6 + flags u + flags d
  | .closed _ => 0

def left : Task Ip → Nat
  | .writing rest => rest.length
  | .piping u d => u.pending.length + d.pending.length
  | _ => 0

def remote : Option Tcp → Nat
  | none => 0
  | some t => t.incoming.length - t.taken

def weight (s : Session Ip) : Nat := (s.inp.length - s.inpRead) + remote s.tcp + rank s.task
def outWeight (s : Session Ip) : Nat := left s.task
def gateWeight (g : Gate) : Nat := if g.held then 0 else 1

def effort (σ : Sys Ip) : Nat × Nat × Nat :=
  (0, total weight σ.sessions + total gateWeight σ.gates, total outWeight σ.sessions)

theorem rank_active {t : Task Ip} (h : t.active = true) : 0 < rank t := by
  cases t <;> simp [rank, Task.active] at h ⊢

theorem rank_next (a : Action Ip) : rank a.next < 17 := by cases a <;> simp [rank, Action.next]

theorem rank_afterQuery (hn text : String) (p : UInt16) (a : Option (List Ip)) : rank (afterQuery A hn p text a) < 14 := by
  match a with
  | none => simp [afterQuery, rank]
  | some [] => simp [afterQuery, rank]
  | some (a :: as) => simp [afterQuery, rank]

theorem LocalWork.down {s s' : Session Ip} (h : LocalWork A s s') :
    weight s' < weight s ∨ (weight s' = weight s ∧ outWeight s' < outWeight s) := by
  cases h with
  | read buf n m h1 h2 h3 h4 h5 => left; simp only [weight, h1, rank]; omega
  | receive buf req h1 h2 => left; simp only [weight, h1, rank]; omega
  | dispatch req h1 => left; have := rank_next (Proxy.dispatch A req); have e : rank (.received req : Task Ip) = 17 := rfl; simp only [weight, h1]; omega
  | buildFailed hn text p k h1 => left; simp only [weight, h1, rank]; omega
  | query hn text p r a h1 =>
    left; have := rank_afterQuery (A := A) hn text p a
    have e : rank (.querying hn p r : Task Ip) = 14 := rfl
    simp only [weight, h1]; omega
  | connected text a p h1 => left; simp only [weight, h1, rank, Session.connected, remote, Tcp.fresh, List.length_nil]; omega
  | refused text e a p h1 => left; simp only [weight, h1, rank, Session.refused]; omega
  | reply m h1 h2 => left; simp only [weight, h1, rank]; omega
  | write rest n h1 h2 h3 =>
    right; exact ⟨by simp only [weight, h1, rank], by simp only [outWeight, left, h1, List.length_drop]; omega⟩
  | answered h1 h2 =>
    left; simp only [weight, h1, rank, flags]; simp
  | upRead u d n h1 h2 h3 h4 => left; simp only [weight, h1, rank, flags]; omega
  | upWrite u d t n h1 h2 h3 h4 =>
    right; exact ⟨by simp only [weight, h1, h2, rank, flags, remote], by simp only [outWeight, left, h1, List.length_drop]; omega⟩
  | upEof u d h1 h2 h3 h4 => left; simp only [weight, h1, rank, flags, h2]; simp
  | upDone u d t h1 h2 h3 h4 h5 => left; simp only [weight, h1, h5, rank, flags, remote, h2]; simp
  | downRead u d t n h1 h2 h3 h4 h5 => left; simp only [weight, h1, h3, rank, flags, remote]; omega
  | downWrite u d n h1 h2 h3 =>
    right; exact ⟨by simp only [weight, h1, rank, flags], by simp only [outWeight, left, h1, List.length_drop]; omega⟩
  | downEof u d t h1 h2 h3 h4 h5 => left; simp only [weight, h1, rank, flags, h2]; simp
  | downDone u d h1 h2 h3 h4 => left; simp only [weight, h1, rank, flags, h2]; simp

theorem gate_total {gs : List Gate} {l : Nat} {g g' : Gate} (h : gs[l]? = some g) (he : g'.held = g.held) :
    total gateWeight (gs.set l g') = total gateWeight gs := by
  have := total_set gateWeight gs l g' g h
  have e : gateWeight g' = gateWeight g := by simp only [gateWeight, he]
  omega

/-- A session goes down, and the gates do not matter. -/
theorem down_session {σ σ' : Sys Ip} {j : Nat} {s s' : Session Ip} (h1 : σ.sessions[j]? = some s)
    (h2 : σ'.sessions = σ.sessions.set j s') (hg : total gateWeight σ'.gates = total gateWeight σ.gates)
    (h3 : weight s' < weight s ∨ (weight s' = weight s ∧ outWeight s' < outWeight s)) : Down (effort σ') (effort σ) := by
  have e1 := total_set weight σ.sessions j s' s h1
  have e2 := total_set outWeight σ.sessions j s' s h1
  refine .inr ⟨rfl, ?_⟩
  simp only [effort, h2, hg]
  rcases h3 with h3 | ⟨h3, h4⟩
  · left; omega
  · right; omega

theorem weight_end {s : Session Ip} (ok : Bool) (h : s.task.active = true) : weight (s.end ok) < weight s := by
  have := rank_active h
  have e : rank (.closed ok : Task Ip) = 0 := rfl
  simp only [weight, Session.end]
  omega

variable [DecidableEq Ip] {σ σ' : Sys Ip}

theorem Work.step (h : Work A σ σ') : Step A σ σ' := by
  cases h with
  | permit l n g h1 h2 h3 h4 => exact .permit _ _ _ _ h1 h2 h3 h4
  | accept l j g s h1 h2 h3 h4 h5 h6 => exact .accept _ _ _ _ _ h1 h2 h3 h4 h5 h6
  | session j s s' h1 h2 => exact .session _ _ _ _ h1 h2.step
  | found j r s hn p k h1 h2 h3 => exact .found _ _ _ _ _ _ _ h1 h2 h3
  | missing j s hn p k h1 h2 h3 => exact .missing _ _ _ _ _ _ h1 h2 h3
  | insert j s hn p k h1 h2 => exact .insert _ _ _ _ _ _ h1 h2
  | finish j s u d g h1 h2 h3 h4 h5 => exact .finish _ _ _ _ _ _ h1 h2 h3 h4 h5
  | missingConnection j s g h1 h2 h3 h4 => exact .missingConnection _ _ _ _ h1 h2 h3 h4
  | giveUp j s g h1 h2 h3 => exact .abort _ _ _ _ h1 h2.active h3

theorem TimedWork.step (h : TimedWork A σ σ') : Step A σ σ' := by
  cases h with
  | work _ h => exact h.step
  | timeout j s g h1 h2 h3 => exact .abort _ _ _ _ h1 h2 h3

theorem insertResolver_sessions (σ : Sys Ip) (key : Key Ip) : (σ.insertResolver key).1.sessions = σ.sessions ∧
    (σ.insertResolver key).1.gates = σ.gates := by
  unfold Sys.insertResolver
  split <;> exact ⟨rfl, rfl⟩

theorem TimedWork.down (h : TimedWork A σ σ') : Down (effort σ') (effort σ) := by
  cases h with
  | timeout j s g h1 h2 h3 =>
    exact down_session h1 rfl (gate_total h3 rfl) (.inl (weight_end false h2))
  | work _ h =>
    cases h with
    | permit l n g h1 h2 h3 h4 =>
      refine .inr ⟨rfl, .inl ?_⟩
      have := total_set gateWeight σ.gates l ⟨n, true, true⟩ g h1
      simp only [gateWeight, h3] at this
      simp only [effort, Sys.setGate]
      simp at this
      omega
    | accept l j g s h1 h2 h3 h4 h5 h6 =>
      refine .inr ⟨rfl, .inl ?_⟩
      have e1 := total_set gateWeight σ.gates l ⟨g.permits, false, true⟩ g h1
      have e2 := total_set weight σ.sessions j { s with task := .reading [] } s h4
      have e3 : weight { s with task := .reading [] } + 2 = weight s := by simp only [weight, h6, rank]
      simp only [gateWeight, h3] at e1
      simp only [effort, Sys.setGate, Sys.setSession]
      simp at e1
      omega
    | session j s s' h1 h2 => exact down_session h1 rfl rfl h2.down
    | found j r s hn p k h1 h2 h3 => exact down_session h1 rfl rfl (.inl (by simp only [weight, h2, rank]; omega))
    | missing j s hn p k h1 h2 h3 => exact down_session h1 rfl rfl (.inl (by simp only [weight, h2, rank]; omega))
    | insert j s hn p k h1 h2 =>
      exact down_session (s' := { s with task := .querying hn p (σ.insertResolver k).2 }) h1
        (by simp only [Sys.setSession, (insertResolver_sessions σ k).1])
        (by simp only [Sys.setSession, (insertResolver_sessions σ k).2]) (.inl (by simp only [weight, h2, rank]; omega))
    | finish j s u d g h1 h2 h3 h4 h5 =>
      exact down_session h1 rfl (gate_total h5 rfl) (.inl (weight_end true (by rw [h2]; rfl)))
    | missingConnection j s g h1 h2 h3 h4 =>
      exact down_session h1 rfl (gate_total h4 rfl) (.inl (weight_end false (by rw [h2]; rfl)))
    | giveUp j s g h1 h2 h3 => exact down_session h1 rfl (gate_total h3 rfl) (.inl (weight_end false h2.active))

theorem timedWork_wf (A : Addresses Ip) : WellFounded fun σ' σ : Sys Ip => TimedWork A σ σ' :=
  Subrelation.wf (fun h => h.down) (InvImage.wf effort down_wf)

/-- A relation without endless runs comes to an end from everywhere. -/
theorem to_settled {R : Sys Ip → Sys Ip → Prop} (wf : WellFounded fun σ' σ => R σ σ') (σ : Sys Ip) :
    ∃ σ', Relation.ReflTransGen R σ σ' ∧ Settled R σ' := by
  induction σ using wf.induction with
  | _ σ ih =>
    by_cases h : ∃ σ1, R σ σ1
    · obtain ⟨σ1, h1⟩ := h
      obtain ⟨σ', h2, h3⟩ := ih σ1 h1
      exact ⟨σ', .head h1 h2, h3⟩
    · exact ⟨σ, .refl, fun σ' hw => h ⟨σ', hw⟩⟩

/-! ## Invariants -/

/-- The ends that have been passed on. -/
def Told (s : Session Ip) : Prop :=
  match s.task with
  | .piping u d => (u.done = true → ∃ t, s.tcp = some t ∧ t.shut = true) ∧ (d.done = true → s.outShut = true)
  | .closed true => s.outShut = true ∧ ∃ t, s.tcp = some t ∧ t.shut = true
  | _ => True

theorem Told.step {s s' : Session Ip} (h : Told s) (hs : Local A s s') : Told s' := by
  cases hs with
  | clientWrite bytes ho => exact h
  | clientClose => exact h
  | remoteSend t bytes h1 h2 =>
    unfold Told at *
    dsimp only
    cases ht : s.task with
    | piping u d =>
      rw [ht] at h
      refine ⟨fun hu => ?_, h.2⟩
      obtain ⟨t', e, f⟩ := h.1 hu
      rw [h1] at e; cases e
      exact ⟨_, rfl, f⟩
    | closed ok =>
      cases ok with
      | false => trivial
      | true =>
        rw [ht] at h
        obtain ⟨a, t', e, f⟩ := h
        rw [h1] at e; cases e
        exact ⟨a, _, rfl, f⟩
    | _ => trivial
  | remoteClose t h1 =>
    unfold Told at *
    dsimp only
    cases ht : s.task with
    | piping u d =>
      rw [ht] at h
      refine ⟨fun hu => ?_, h.2⟩
      obtain ⟨t', e, f⟩ := h.1 hu
      rw [h1] at e; cases e
      exact ⟨_, rfl, f⟩
    | closed ok =>
      cases ok with
      | false => trivial
      | true =>
        rw [ht] at h
        obtain ⟨a, t', e, f⟩ := h
        rw [h1] at e; cases e
        exact ⟨a, _, rfl, f⟩
    | _ => trivial
  | read buf n m ht => trivial
  | receive buf req ht => trivial
  | dispatch req ht =>
    unfold Told
    dsimp only
    cases Proxy.dispatch A req <;> trivial
  | buildFailed hn t p k ht => trivial
  | query hn text p r answer ht =>
    unfold Told
    dsimp only
    match answer with
    | none => trivial
    | some [] => trivial
    | some (a :: as) => trivial
  | connected t a p ht => trivial
  | refused t e a p ht => trivial
  | reply m ht => trivial
  | write r n ht => trivial
  | answered ht => exact ⟨(fun x => by cases x), (fun x => by cases x)⟩
  | upRead u d n ht => unfold Told at h; rw [ht] at h; exact h
  | upWrite u d t n ht h1 =>
    unfold Told at h; rw [ht] at h
    refine ⟨fun hu => ?_, h.2⟩
    obtain ⟨t', e, f⟩ := h.1 hu
    rw [h1] at e; cases e
    exact ⟨_, rfl, f⟩
  | upEof u d ht => unfold Told at h; rw [ht] at h; exact h
  | upDone u d t ht => unfold Told at h; rw [ht] at h; exact ⟨fun _ => ⟨_, rfl, rfl⟩, h.2⟩
  | downRead u d t n ht _ h1 =>
    unfold Told at h; rw [ht] at h
    refine ⟨fun hu => ?_, h.2⟩
    obtain ⟨t', e, f⟩ := h.1 hu
    rw [h1] at e; cases e
    exact ⟨_, rfl, f⟩
  | downWrite u d n ht => unfold Told at h; rw [ht] at h; exact h
  | downEof u d t ht => unfold Told at h; rw [ht] at h; exact h
  | downDone u d ht => unfold Told at h; rw [ht] at h; exact ⟨h.1, fun _ => rfl⟩

/-- Both, for all sessions. -/
def LiveInv (σ : Sys Ip) : Prop :=
  ∀ (j : Nat) (s : Session Ip), σ.sessions[j]? = some s → Told s ∧ (s.task.active = true → s.listener < σ.gates.length)

theorem LiveInv.set {σ : Sys Ip} (h : LiveInv σ) {j : Nat} {s s' : Session Ip} (hj : σ.sessions[j]? = some s)
    {gs : List Gate} (hg : gs.length = σ.gates.length) {σ' : Sys Ip} (e1 : σ'.sessions = σ.sessions.set j s')
    (e2 : σ'.gates = gs) (ht : Told s') (hl : s'.listener = s.listener)
    (ha : s'.task.active = true → s.task.active = true ∨ s.listener < σ.gates.length) : LiveInv σ' := by
  intro i x hx
  rw [e1] at hx
  rw [e2, hg]
  rcases Net.get_set hx with ⟨rfl, rfl⟩ | ⟨_, hx⟩
  · refine ⟨ht, fun h' => ?_⟩
    rw [hl]
    rcases ha h' with h' | h'
    · exact (h _ _ hj).2 h'
    · exact h'
  · exact h _ _ hx

theorem LiveInv.step (h : LiveInv σ) (hs : Step A σ σ') : LiveInv σ' := by
  cases hs with
  | connect l =>
    intro i x hx
    rcases Net.get_snoc hx with hx | ⟨_, rfl⟩
    · exact h _ _ hx
    · exact ⟨trivial, (fun e => by cases e)⟩
  | permit l n g h1 h2 h3 h4 =>
    intro i x hx
    have := h _ _ hx
    simpa [Sys.setGate] using this
  | acceptFailed l g h1 h2 h3 =>
    intro i x hx
    have := h _ _ hx
    simpa [Sys.setGate] using this
  | accept l j g s h1 h2 h3 h4 h5 h6 =>
    exact h.set h4 (List.length_set ..) rfl rfl (by trivial) rfl fun _ => .inr (by rw [h5]; exact Net.get_lt h1)
  | session j s s' h1 h2 =>
    exact h.set h1 rfl rfl rfl ((h _ _ h1).1.step h2) h2.keeps.1 fun e => .inl (h2.keeps.2.1 ▸ e)
  | found j r s hn p k h1 h2 h3 => exact h.set h1 rfl rfl rfl (by trivial) rfl fun _ => .inl (by rw [h2]; rfl)
  | missing j s hn p k h1 h2 h3 => exact h.set h1 rfl rfl rfl (by trivial) rfl fun _ => .inl (by rw [h2]; rfl)
  | insert j s hn p k h1 h2 =>
    exact h.set (s' := { s with task := .querying hn p (σ.insertResolver k).2 }) h1 rfl
      (by simp only [Sys.setSession, (insertResolver_sessions σ k).1])
      (by simp only [Sys.setSession, (insertResolver_sessions σ k).2]) (by trivial) rfl fun _ => .inl (by rw [h2]; rfl)
  | finish j s u d g h1 h2 h3 h4 h5 =>
    refine h.set h1 (List.length_set ..) rfl rfl ?_ rfl (fun e => by cases e)
    have := (h _ _ h1).1
    unfold Told at this
    rw [h2] at this
    exact ⟨this.2 h4, this.1 h3⟩
  | missingConnection j s g h1 h2 h3 h4 =>
    exact h.set h1 (List.length_set ..) rfl rfl (by trivial) rfl (fun e => by cases e)
  | abort j s g h1 h2 h3 => exact h.set h1 (List.length_set ..) rfl rfl (by trivial) rfl (fun e => by cases e)

theorem liveInv_reachable {listeners max : Nat} (hr : Reachable A (Sys.start listeners max) σ) : LiveInv σ := by
  induction hr with
  | refl => intro j s h; simp [Sys.start] at h
  | tail _ hs ih => exact ih.step hs

end Qos.Proxy
