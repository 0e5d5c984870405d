import Verif.Spec.NetLive
import Verif.Lemmas.NetClient
/-!
# Lemmas: work ends
-/
namespace Qos.Net
open Stream (frame wire maxPayloadSize)

variable {S : Type} {P : Processor S} {σ σ' : Sys S}

theorem Work.step (h : Work P σ σ') : Step P σ σ' := by
  cases h with
  | get k i c h h1 h2 h3 h4 => exact .get _ _ _ _ _ h1 h2 h3 h4
  | connect k i c h h1 h2 h3 => exact .connect _ _ _ _ _ h1 h2 h3
  | begin k i j c h1 h2 h3 => exact .begin _ _ _ _ _ h1 h2 h3
  | tooLong k i j c h1 h2 h3 => exact .abort _ _ _ h1 (by rw [h2]; rfl)
  | write k i j n c d rest h1 h2 h3 h4 h5 => exact .write _ _ _ _ _ _ _ _ h1 h2 h3
  | await k i j c h1 h2 => exact .await _ _ _ _ _ h1 h2
  | read k i j n m c d buf h1 h2 h3 h4 h5 h6 h7 => exact .read _ _ _ _ _ _ _ _ _ h1 h2 h3 h4 h6 h7
  | finish k i j c buf resp h1 h2 h3 => exact .finish _ _ _ _ _ _ _ h1 h2 h3
  | badReply k i j c buf h1 h2 h3 => exact .abort _ _ _ h1 (by rw [h2]; rfl)
  | eof k i j m c d buf h1 h2 h3 h4 h5 h6 => exact .abort _ _ _ h1 (by rw [h2]; rfl)
  | permit l g n h1 h2 h3 => exact .permit _ _ _ _ h1 h2 h3
  | accept l j g d h1 h2 h3 h4 h5 => exact .accept _ _ _ _ _ h1 h2 h3 h4 h5
  | serverRead j n m d buf h1 h2 h3 h4 h5 h6 => exact .serverRead _ _ _ _ _ _ h1 h2 h3 h5 h6
  | serverReceived j d buf req h1 h2 h3 => exact .serverReceived _ _ _ _ _ h1 h2 h3
  | refuse j d buf g h1 h2 h3 h4 => exact .serverClose _ _ _ _ h1 (.inl ⟨_, h2⟩) h4
  | hangup j m d buf g h1 h2 h3 h4 h5 h6 => exact .serverClose _ _ _ _ h1 (.inl ⟨_, h2⟩) h6
  | answerDirect j d req resp h1 h2 h3 => exact .answerDirect _ _ _ _ _ h1 h2 h3
  | lock j d req h1 h2 h3 h4 => exact .lock _ _ _ _ h1 h2 h3 h4
  | unlock j d req resp s' h1 h2 => exact .unlock _ _ _ _ _ _ h1 h2
  | replyBegin j d resp h1 h2 h3 => exact .replyBegin _ _ _ _ h1 h2 h3
  | refuseReply j d resp g h1 h2 h3 h4 => exact .serverClose _ _ _ _ h1 (.inr (.inl ⟨_, h2⟩)) h4
  | serverWrite j n d rest h1 h2 h3 h4 => exact .serverWrite _ _ _ _ _ h1 h2
  | serverNext j d h1 h2 => exact .serverNext _ _ _ h1 h2

/-! ## The measure -/

def callWeight (c : Call) : Nat :=
  match c.st with
  | .waiting => c.req.length + 15
  | .got _ => c.req.length + 14
  | .ready _ _ => c.req.length + 13
  | .sending _ _ rest => rest.length + 3
  | .receiving _ _ _ => 2
  | .finished _ => 0

def readWeight (buf : Bytes) : Nat :=
  match progress buf with
  | .done _ => 6
  | _ => 1

def stage : Serve S → Nat
  | .queued => 7
  | .reading buf => readWeight buf
  | .received _ => 5
  | .handling _ _ _ => 4
  | .replying _ => 3
  | .writing _ => 2
  | .closed => 0

def left : Serve S → Nat
  | .writing rest => rest.length
  | _ => 0

def connWeight (d : Conn S) : Nat := 10 * (d.inp.length - d.inpRead) + stage d.serve
def outWeight (d : Conn S) : Nat := 2 * left d.serve + (d.out.length - d.outRead)
def gateWeight (g : Gate) : Nat := if g.held then 0 else 1

def total {α : Type} (f : α → Nat) (l : List α) : Nat := (l.map f).sum

theorem total_set {α : Type} (f : α → Nat) : ∀ (l : List α) (i : Nat) (a b : α), l[i]? = some b →
    total f (l.set i a) + f b = total f l + f a
  | [], _, _, _, h => by simp at h
  | x :: l, 0, a, b, h => by
    simp at h
    subst h
    simp [total]; omega
  | x :: l, i + 1, a, b, h => by
    simp at h
    have := total_set f l i a b h
    simp [total] at this ⊢
    omega

theorem readWeight_le (buf : Bytes) : readWeight buf ≤ 6 := by unfold readWeight; split <;> omega
theorem readWeight_more {buf : Bytes} {m : Nat} (h : progress buf = .more m) : readWeight buf = 1 := by
  unfold readWeight; rw [h]
theorem readWeight_done {buf x : Bytes} (h : progress buf = .done x) : readWeight buf = 6 := by
  unfold readWeight; rw [h]
theorem readWeight_pos (buf : Bytes) : 0 < readWeight buf := by unfold readWeight; split <;> omega
theorem readWeight_nil : readWeight [] = 1 := rfl

def calling (σ : Sys S) : Nat := total callWeight σ.calls
def serving (σ : Sys S) : Nat := total connWeight σ.conns + total gateWeight σ.gates
def flowing (σ : Sys S) : Nat := total outWeight σ.conns

/-- The measure goes down. -/
def Down (a b : Nat × Nat × Nat) : Prop :=
  a.1 < b.1 ∨ (a.1 = b.1 ∧ (a.2.1 < b.2.1 ∨ (a.2.1 = b.2.1 ∧ a.2.2 < b.2.2)))

theorem down_wf : WellFounded Down := by
  refine Subrelation.wf (r := Prod.Lex (· < ·) (Prod.Lex (· < ·) (· < ·))) ?_
    (Prod.lex Nat.lt_wfRel (Prod.lex Nat.lt_wfRel Nat.lt_wfRel)).wf
  rintro ⟨a, b, c⟩ ⟨x, y, z⟩ h
  rcases h with h | ⟨h, h' | ⟨h', h''⟩⟩
  · exact .left _ _ h
  · simp only at h; subst h; exact .right _ (.left _ _ h')
  · simp only at h h'; subst h h'; exact .right _ (.right _ h'')

def effort (σ : Sys S) : Nat × Nat × Nat := (calling σ, serving σ, flowing σ)

theorem down_call {k : Nat} {c : Call} {st : CallSt} (h1 : σ.calls[k]? = some c)
    (h2 : σ'.calls = σ.calls.set k { c with st }) (h3 : callWeight { c with st } < callWeight c) :
    Down (effort σ') (effort σ) := by
  left
  have := total_set callWeight σ.calls k { c with st } c h1
  simp only [effort, calling, h2]
  omega

theorem release_calls (σ : Sys S) (st : CallSt) : (σ.release st).calls = σ.calls := by
  unfold Sys.release
  split
  · rfl
  · split
    · rfl
    · unfold Sys.closeIfDropped
      split
      · rfl
      · split
        · rfl
        · split <;> rfl

theorem connectCall_calls (σ : Sys S) (k : Nat) (c : Call) (i : Nat) (h : Handle) :
    ∃ j, (σ.connectCall k c i h).calls = σ.calls.set k { c with st := .ready i j } := by
  unfold Sys.connectCall
  split
  · exact ⟨_, rfl⟩
  · exact ⟨_, rfl⟩

theorem down_conn {j : Nat} {d d' : Conn S} (h1 : σ.conns[j]? = some d) (hc : σ'.calls = σ.calls)
    (h2 : σ'.conns = σ.conns.set j d') (hg : total gateWeight σ'.gates = total gateWeight σ.gates)
    (h3 : connWeight d' < connWeight d) :
    Down (effort σ') (effort σ) := by
  refine .inr ⟨by simp only [effort, calling, hc], .inl ?_⟩
  have := total_set connWeight σ.conns j d' d h1
  simp only [effort, serving, h2, hg]
  omega

theorem down_out {j : Nat} {d d' : Conn S} (h1 : σ.conns[j]? = some d) (hc : calling σ' = calling σ)
    (h2 : σ'.conns = σ.conns.set j d') (hg : σ'.gates = σ.gates)
    (h3 : connWeight d' = connWeight d) (h4 : outWeight d' < outWeight d) :
    Down (effort σ') (effort σ) := by
  refine .inr ⟨hc, .inr ⟨?_, ?_⟩⟩
  · have := total_set connWeight σ.conns j d' d h1
    simp only [effort, serving, h2, hg]
    omega
  · have := total_set outWeight σ.conns j d' d h1
    simp only [effort, flowing, h2]
    omega

theorem gate_total {gs : List Gate} {l : Nat} {g g' : Gate} (h : gs[l]? = some g) (he : g'.held = g.held) :
    total gateWeight (gs.set l g') = total gateWeight gs := by
  have := total_set gateWeight gs l g' g h
  have e : gateWeight g' = gateWeight g := by simp only [gateWeight, he]
  omega

theorem Work.down (h : Work P σ σ') : Down (effort σ') (effort σ) := by
  cases h with
  | get k i c h h1 h2 h3 h4 => exact down_call h1 rfl (by simp [callWeight, h2])
  | connect k i c h h1 h2 h3 =>
    obtain ⟨j, hj⟩ := connectCall_calls σ k c i h
    exact down_call h1 hj (by simp [callWeight, h2])
  | begin k i j c h1 h2 h3 => exact down_call h1 rfl (by simp [callWeight, h2, encode]; omega)
  | tooLong k i j c h1 h2 h3 => exact down_call h1 (st := .finished _) (by simp only [Sys.setCall, release_calls]; rfl) (by simp [callWeight, h2])
  | write k i j n c d rest h1 h2 h3 h4 h5 => exact down_call h1 rfl (by simp [callWeight, h2]; omega)
  | await k i j c h1 h2 => exact down_call h1 rfl (by simp [callWeight, h2])
  | read k i j n m c d buf h1 h2 h3 h4 h5 h6 h7 =>
    refine down_out (j := j) (d := d) h3 ?_ rfl rfl rfl ?_
    · have := total_set callWeight σ.calls k { c with st := .receiving i j (buf ++ (d.out.drop d.outRead).take n) } c h1
      have e1 : callWeight c = 2 := by simp only [callWeight, h2]
      have e2 : callWeight { c with st := .receiving i j (buf ++ (d.out.drop d.outRead).take n) } = 2 := rfl
      simp only [calling, Sys.setCall, Sys.setConn]
      omega
    · simp only [outWeight]; omega
  | finish k i j c buf resp h1 h2 h3 =>
    exact down_call h1 (st := .finished _) (by simp only [Sys.setCall, release_calls]; rfl) (by simp [callWeight, h2])
  | badReply k i j c buf h1 h2 h3 =>
    exact down_call h1 (st := .finished _) (by simp only [Sys.setCall, release_calls]; rfl) (by simp [callWeight, h2])
  | eof k i j m c d buf h1 h2 h3 h4 h5 h6 =>
    exact down_call h1 (st := .finished _) (by simp only [Sys.setCall, release_calls]; rfl) (by simp [callWeight, h2])
  | permit l g n h1 h2 h3 =>
    refine .inr ⟨rfl, .inl ?_⟩
    have := total_set gateWeight σ.gates l ⟨n, true⟩ g h1
    have e1 : gateWeight g = 1 := by simp [gateWeight, h2]
    have e2 : gateWeight ⟨n, true⟩ = 0 := rfl
    simp only [effort, serving, Sys.setGate]
    omega
  | accept l j g d h1 h2 h3 h4 h5 =>
    refine .inr ⟨rfl, .inl ?_⟩
    have a := total_set gateWeight σ.gates l ⟨g.permits, false⟩ g h1
    have b := total_set connWeight σ.conns j { d with serve := .reading [] } d h3
    have e1 : gateWeight ⟨g.permits, false⟩ = 1 := rfl
    have e2 : gateWeight g = 0 := by simp [gateWeight, h2]
    have e3 : connWeight d = 10 * (d.inp.length - d.inpRead) + 7 := by simp [connWeight, h5, stage]
    have e4 : connWeight (S := S) { d with serve := .reading [] } = 10 * (d.inp.length - d.inpRead) + 1 := by
      simp [connWeight, stage, readWeight_nil]
    simp only [effort, serving, Sys.setGate, Sys.setConn]
    omega
  | serverRead j n m d buf h1 h2 h3 h4 h5 h6 =>
    refine down_conn h1 rfl rfl rfl ?_
    have := readWeight_le (buf ++ (d.inp.drop d.inpRead).take n)
    simp only [connWeight, h2, stage, readWeight_more h3]
    omega
  | serverReceived j d buf req h1 h2 h3 =>
    refine down_conn h1 rfl rfl rfl ?_
    simp only [connWeight, h2, stage, readWeight_done h3]
    omega
  | refuse j d buf g h1 h2 h3 h4 =>
    refine down_conn h1 rfl rfl (gate_total h4 rfl) ?_
    have := readWeight_pos buf
    simp only [connWeight, h2, stage]
    omega
  | hangup j m d buf g h1 h2 h3 h4 h5 h6 =>
    refine down_conn h1 rfl rfl (gate_total h6 rfl) ?_
    have := readWeight_pos buf
    simp only [connWeight, h2, stage]
    omega
  | answerDirect j d req resp h1 h2 h3 => exact down_conn h1 rfl rfl rfl (by simp only [connWeight, h2, stage]; omega)
  | lock j d req h1 h2 h3 h4 => exact down_conn h1 rfl rfl rfl (by simp only [connWeight, h2, stage]; omega)
  | unlock j d req resp s' h1 h2 => exact down_conn h1 rfl rfl rfl (by simp only [connWeight, h2, stage]; omega)
  | replyBegin j d resp h1 h2 h3 => exact down_conn h1 rfl rfl rfl (by simp only [connWeight, h2, stage]; omega)
  | refuseReply j d resp g h1 h2 h3 h4 =>
    exact down_conn h1 rfl rfl (gate_total h4 rfl) (by simp only [connWeight, h2, stage]; omega)
  | serverWrite j n d rest h1 h2 h3 h4 =>
    refine down_out h1 rfl rfl rfl (by simp only [connWeight, h2, stage]) ?_
    simp only [outWeight, h2, left, List.length_append, List.length_take, List.length_drop]
    omega
  | serverNext j d h1 h2 =>
    exact down_conn h1 rfl rfl rfl (by simp only [connWeight, h2, stage, readWeight_nil]; omega)

/-- There is no endless work. -/
theorem work_wf (P : Processor S) : WellFounded fun σ' σ : Sys S => Work P σ σ' :=
  Subrelation.wf (fun h => h.down) (InvImage.wf effort down_wf)

/-- Work can always be brought to an end. -/
theorem works_to_settled (P : Processor S) (σ : Sys S) : ∃ σ', Works P σ σ' ∧ Settled P σ' := by
  induction σ using (work_wf P).induction with
  | _ σ ih =>
    by_cases h : ∃ σ1, Work P σ σ1
    · obtain ⟨σ1, h1⟩ := h
      obtain ⟨σ', h2, h3⟩ := ih σ1 h1
      refine ⟨σ', ?_, h3⟩
      clear ih h3
      induction h2 with
      | refl => exact .tail .refl h1
      | tail _ h4 ih => exact .tail ih h4
    · exact ⟨σ, .refl, fun σ' hw => h ⟨σ', hw⟩⟩

end Qos.Net
