import Verif.Model.NetEnclave
import Verif.Props.Net
import Verif.Props.WireState
/-!
# C35, C36 for the enclave: every schedule is a history

Whatever concurrent clients send, in whatever encoding and however split, the state of the enclave is the final state of one
history of well-formed requests, so that the theorems about histories (C06–C20) hold for every schedule.
-/
namespace Qos.Net
open Wire StateMachine

variable {E : Env} {addresses : List Nat} {listeners max : Nat} {fs0 : Files} {σ : Sys St}

/-- The bytes of the response `r` to a request read in the encoding `enc`. -/
def Written (r : Msg) (enc : Encoding) (resp : Bytes) : Prop :=
  toWire r enc = .ok resp ∨
  ((∃ e, toWire r enc = .error e) ∧ fromWire resp = .ok (.protocolErrorResponse .invalidMsg, .json))

/-- A processed request that was refused before the state was looked at: too long, or not a message. -/
def Refused (e : Entry) : Prop :=
  (e.req.length > 128 * 1024 * 1024 ∧ fromWire e.resp = .ok (.protocolErrorResponse .oversizedPayload, .json)) ∨
  (∃ err, e.req.length ≤ 128 * 1024 * 1024 ∧ fromWire e.req = .error err ∧
    fromWire e.resp = .ok (.protocolErrorResponse err, .json))

/-- The log carries the history: its entries are refusals, and the requests and responses of the history, in order. -/
inductive Carries : List Entry → List (Msg × Msg) → Prop
  | nil : Carries [] []
  | refused {log : List Entry} {h : List (Msg × Msg)} (e : Entry) : Carries log h → Refused e → Carries (log ++ [e]) h
  | served {log : List Entry} {h : List (Msg × Msg)} (e : Entry) (q r : Msg) (enc : Encoding) : Carries log h →
      fromWire e.req = .ok (q, enc) → Written r enc e.resp → Carries (log ++ [e]) (h ++ [(q, r)])

theorem process_enclave (E : Env) (s : St) (bs : Bytes) :
    (Wire.process E bs s).1 = some ((enclave E).process s bs).1 ∧ (Wire.process E bs s).2 = ((enclave E).process s bs).2 := by
  have tot : ∀ e, ∃ r, errorAnswer e = some r := fun e => ⟨_, (errorAnswer_reads e).choose_spec.1⟩
  by_cases hl : bs.length > maxEncodedMsgLen
  · obtain ⟨r, hr⟩ := tot .oversizedPayload
    have hd : (enclave E).direct bs = some r := by
      simp only [enclave]
      rw [if_pos hl, hr]
    simp only [Processor.process, hd]
    unfold Wire.process
    rw [if_pos hl, hr]
    exact ⟨rfl, rfl⟩
  · cases hf : fromWire bs with
    | error e =>
      obtain ⟨r, hr⟩ := tot e
      have hd : (enclave E).direct bs = some r := by
        simp only [enclave]
        rw [if_neg hl, hf]
        exact hr
      simp only [Processor.process, hd]
      unfold Wire.process
      rw [if_neg hl, hf]
      exact ⟨hr, rfl⟩
    | ok x =>
      have hd : (enclave E).direct bs = none := by
        simp only [enclave]
        rw [if_neg hl, hf]
      simp only [Processor.process, hd]
      obtain ⟨r, hr⟩ := process_total E bs s
      simp only [enclave, hr, Option.getD_some, and_self]

/-- One request: refused, or served. -/
theorem enclave_step (E : Env) (s : St) (bs : Bytes) (j : Nat) :
    (Refused ⟨j, bs, ((enclave E).process s bs).1⟩ ∧ ((enclave E).process s bs).2 = s) ∨
    ∃ q enc, fromWire bs = .ok (q, enc) ∧ Written (handle E q s).1 enc ((enclave E).process s bs).1 ∧
      ((enclave E).process s bs).2 = (handle E q s).2 := by
  obtain ⟨p1, p2⟩ := process_enclave E s bs
  by_cases hl : bs.length > 128 * 1024 * 1024
  · obtain ⟨r, h1, h2⟩ := process_oversized E bs s hl
    rw [h1] at p1 p2
    injection p1 with p1
    exact .inl ⟨.inl ⟨hl, by rw [← p1]; exact h2⟩, p2.symm⟩
  · have hle : bs.length ≤ 128 * 1024 * 1024 := by omega
    cases hf : fromWire bs with
    | error e =>
      obtain ⟨_, r, h1, h2⟩ := process_undecodable E bs s hle e hf
      rw [h1] at p1 p2
      injection p1 with p1
      exact .inl ⟨.inr ⟨e, hle, hf, by rw [← p1]; exact h2⟩, p2.symm⟩
    | ok x =>
      obtain ⟨q, enc⟩ := x
      refine .inr ⟨q, enc, rfl, ?_⟩
      cases enc with
      | json =>
        obtain ⟨r, h1, h2⟩ := process_json E bs s hle q hf
        rw [h1] at p1 p2
        injection p1 with p1
        exact ⟨.inl (by rw [← p1]; exact h2), p2.symm⟩
      | borsh =>
        rcases process_borsh E bs s hle q hf with ⟨r, h1, h2⟩ | ⟨r, e, h1, h2, h3⟩
        · rw [h1] at p1 p2
          injection p1 with p1
          exact ⟨.inl (by rw [← p1]; exact h2), p2.symm⟩
        · rw [h1] at p1 p2
          injection p1 with p1
          exact ⟨.inr ⟨⟨e, h2⟩, by rw [← p1]; exact h3⟩, p2.symm⟩

theorem sequential_history (log : List Entry) (s : St)
    (h : (enclave E).sequential (St.initial fs0) (reqs log) = (resps log, s)) :
    ∃ hist, Reach E fs0 hist s ∧ (∀ q ∈ requests hist, q.WellFormed) ∧ Carries log hist := by
  induction log using List.reverseRecOn generalizing s with
  | nil =>
    cases h
    exact ⟨[], .start, by simp [requests], .nil⟩
  | append_singleton log e ih =>
    have hr : reqs (log ++ [e]) = reqs log ++ [e.req] := List.map_append
    rw [hr, sequential_snoc, resps_append] at h
    obtain ⟨h1, h2⟩ := Prod.mk.inj h
    obtain ⟨h3, h4⟩ := List.append_inj' h1 (by simp)
    obtain ⟨hist, g1, g2, g3⟩ := ih ((enclave E).sequential (St.initial fs0) (reqs log)).2 (Prod.ext h3 rfl)
    have h5 : ((enclave E).process ((enclave E).sequential (St.initial fs0) (reqs log)).2 e.req).1 = e.resp := by
      simpa using h4
    rcases enclave_step E ((enclave E).sequential (St.initial fs0) (reqs log)).2 e.req e.conn with ⟨k1, k2⟩ | ⟨q, enc, k1, k2, k3⟩
    · rw [k2] at h2
      rw [h5] at k1
      subst h2
      exact ⟨hist, g1, g2, .refused e g3 k1⟩
    · rw [k3] at h2
      rw [h5] at k2
      subst h2
      refine ⟨_, .step q g1, ?_, .served e q _ enc g3 k1 k2⟩
      intro m hm
      rw [requests_append] at hm
      rcases List.mem_append.1 hm with hm | hm
      · exact g2 m hm
      · simp [requests] at hm
        subst hm
        exact decoded_well_formed _ _ _ k1

/-- C36 for the enclave: however many clients talk to it at once, and whatever bytes they send, the state of the enclave is
that of one history of well-formed requests, and the responses are those of that history, in order, refusals apart. -/
theorem every_schedule_is_a_history (hE : E.Ok) (hf : Fresh E.paths fs0)
    (hr : Reachable (enclave E) (Sys.start addresses listeners max (St.initial fs0)) σ) :
    ∃ h, History E fs0 h σ.state ∧ Carries σ.log h := by
  obtain ⟨h, h1, h2, h3⟩ := sequential_history σ.log σ.state (serialised hr)
  exact ⟨h, ⟨hE, hf, h1, h2⟩, h3⟩

end Qos.Net
