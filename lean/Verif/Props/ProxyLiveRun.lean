import Verif.Props.ProxyLive
/-!
# C83: concrete cases
-/
namespace Qos.Proxy
open Relation (ReflTransGen)

/-- A listener for one session: the first connection has been accepted and is silent, the second waits. -/
def crowded : Sys Nat := ⟨[{ Session.fresh 0 with task := .reading [] }, .fresh 0], [⟨0, false, true⟩], [], []⟩

/-- C83, concrete case: it is reachable, and without a time-out nothing more happens by itself: the second connection waits
for as long as the first is open (first and second position of `settled_session`). The time-out goes on from here, and
then the second connection is accepted. -/
theorem silent_session : Reachable toyAddresses (Sys.start 1 1) crowded ∧ Settled (Work toyAddresses) crowded ∧
    crowded.serving 0 = 1 ∧ ∃ σ s, ReflTransGen (TimedWork toyAddresses) crowded σ ∧ σ.sessions[1]? = some s ∧
      s.task = .reading [] := by
  refine ⟨?_, ?_, by decide, ?_⟩
  · have a1 := Step.connect (A := toyAddresses) (Sys.start 1 1) 0
    have a2 := Step.connect (A := toyAddresses) ⟨[.fresh 0], [⟨1, false, true⟩], [], []⟩ 0
    have a3 := Step.permit (A := toyAddresses) ⟨[.fresh 0, .fresh 0], [⟨1, false, true⟩], [], []⟩ 0 0 ⟨1, false, true⟩ rfl rfl rfl rfl
    have a4 := Step.accept (A := toyAddresses) ⟨[.fresh 0, .fresh 0], [⟨0, true, true⟩], [], []⟩ 0 0 ⟨0, true, true⟩
      (.fresh 0) rfl rfl rfl rfl rfl rfl
    exact (((Reachable.refl.tail a1).tail a2).tail a3).tail a4
  · have gate : ∀ {l : Nat} {g : Gate}, crowded.gates[l]? = some g → g = ⟨0, false, true⟩ := by
      intro l g h
      match l with
      | 0 => exact (Option.some.inj h).symm
      | l + 1 => cases h
    have sess : ∀ {j : Nat} {s : Session Nat}, crowded.sessions[j]? = some s →
        s = { Session.fresh 0 with task := .reading [] } ∨ s = .fresh 0 := by
      intro j s h
      match j with
      | 0 => exact .inl (Option.some.inj h).symm
      | 1 => exact .inr (Option.some.inj h).symm
      | j + 2 => cases h
    intro σ' h
    cases h with
    | permit l n g h1 h2 h3 h4 => rw [gate h1] at h4; cases h4
    | accept l j g s h1 h2 h3 h4 h5 h6 => rw [gate h1] at h3; cases h3
    | session j s s' h1 h2 =>
      rcases sess h1 with rfl | rfl
      · cases h2 with
        | read buf n m h1 h2 h3 h4 h5 => simp [Session.fresh] at h5; omega
        | receive buf req h1 h2 => cases h1; cases h2
        | answered h1 => cases h1
        | dispatch _ h1 => cases h1
        | buildFailed _ _ _ _ h1 => cases h1
        | query _ _ _ _ _ h1 => cases h1
        | connected _ _ _ h1 => cases h1
        | refused _ _ _ _ h1 => cases h1
        | reply _ h1 => cases h1
        | write _ _ h1 => cases h1
        | upRead _ _ _ h1 => cases h1
        | upWrite _ _ _ _ h1 => cases h1
        | upEof _ _ h1 => cases h1
        | upDone _ _ _ h1 => cases h1
        | downRead _ _ _ _ h1 => cases h1
        | downWrite _ _ _ h1 => cases h1
        | downEof _ _ _ h1 => cases h1
        | downDone _ _ h1 => cases h1
      · have := h2.step.keeps
        cases h2 with
        | read buf n m h1 => cases h1
        | receive buf req h1 => cases h1
        | answered h1 => cases h1
        | dispatch _ h1 => cases h1
        | buildFailed _ _ _ _ h1 => cases h1
        | query _ _ _ _ _ h1 => cases h1
        | connected _ _ _ h1 => cases h1
        | refused _ _ _ _ h1 => cases h1
        | reply _ h1 => cases h1
        | write _ _ h1 => cases h1
        | upRead _ _ _ h1 => cases h1
        | upWrite _ _ _ _ h1 => cases h1
        | upEof _ _ h1 => cases h1
        | upDone _ _ _ h1 => cases h1
        | downRead _ _ _ _ h1 => cases h1
        | downWrite _ _ _ h1 => cases h1
        | downEof _ _ _ h1 => cases h1
        | downDone _ _ h1 => cases h1
    | found j r s hn p k h1 h2 h3 => rcases sess h1 with rfl | rfl <;> cases h2
    | missing j s hn p k h1 h2 h3 => rcases sess h1 with rfl | rfl <;> cases h2
    | insert j s hn p k h1 h2 => rcases sess h1 with rfl | rfl <;> cases h2
    | finish j s u d g h1 h2 => rcases sess h1 with rfl | rfl <;> cases h2
    | missingConnection j s g h1 h2 => rcases sess h1 with rfl | rfl <;> cases h2
    | giveUp j s g h1 h2 =>
      rcases sess h1 with rfl | rfl
      · cases h2 with
        | oversized buf e1 e2 => cases e1; cases e2
        | hangup buf m e1 e2 e3 => cases e3
        | tooLong m e1 => cases e1
      · cases h2 with
        | oversized buf e1 e2 => cases e1
        | hangup buf m e1 e2 e3 => cases e1
        | tooLong m e1 => cases e1
  · have b1 := TimedWork.timeout (A := toyAddresses) crowded 0 { Session.fresh 0 with task := .reading [] } ⟨0, false, true⟩
      rfl rfl rfl
    have b2 := Work.permit (A := toyAddresses) ⟨[{ Session.fresh 0 with task := .closed false }, .fresh 0], [⟨1, false, true⟩], [], []⟩
      0 0 ⟨1, false, true⟩ rfl rfl rfl rfl
    have b3 := Work.accept (A := toyAddresses) ⟨[{ Session.fresh 0 with task := .closed false }, .fresh 0], [⟨0, true, true⟩], [], []⟩
      0 1 ⟨0, true, true⟩ (.fresh 0) rfl rfl rfl rfl rfl rfl
    exact ⟨_, _, ((ReflTransGen.refl.tail b1).tail (.work _ _ b2)).tail (.work _ _ b3), rfl, rfl⟩

/-- C83, concrete case of `every_request_is_answered`: a connection that asks for the status waits to be accepted, at a
listener for one session. However the proxy goes on by itself, it comes to rest; and whenever it has, the status has been
answered, or the listener is busy. In fact it is never busy here: the session is over, and exactly the status has been
written. -/
theorem status_answered : ∃ (σ : Sys Nat) (s : Session Nat), Reachable toyAddresses (Sys.start 1 1) σ ∧
    σ.sessions = [s] ∧ s.task = .queued ∧
    (∃ σ', ReflTransGen (Work toyAddresses) σ σ' ∧ Settled (Work toyAddresses) σ') ∧
    ∀ σ', ReflTransGen (Work toyAddresses) σ σ' → Settled (Work toyAddresses) σ' →
      ∃ s', σ'.sessions = [s'] ∧ s'.task = .closed false ∧ s'.out = Net.encode (msgCodec.enc (.statusResponse 0)) ∧
        s'.dials = [] := by
  obtain ⟨req, hreq⟩ : ∃ req, req = msgCodec.enc .statusRequest := ⟨_, rfl⟩
  have he : Encodes req .statusRequest := ⟨hreq, by show msgCodec.ok .statusRequest; trivial⟩
  have hlen : req.length = 1 := by rw [hreq]; decide
  obtain ⟨inp, hinp⟩ : ∃ inp, inp = leBytes 8 req.length ++ req := ⟨_, rfl⟩
  have hf : FirstFrame inp req := ⟨by omega, [], by rw [List.append_nil]; exact hinp.symm⟩
  have a1 := Step.connect (A := toyAddresses) (Sys.start 1 1) 0
  have a2 := Step.session (A := toyAddresses) { Sys.start (Ip := Nat) 1 1 with sessions := [.fresh 0] } 0 (.fresh 0)
    _ rfl (.clientWrite (.fresh 0) inp rfl)
  have hr : Reachable toyAddresses (Sys.start 1 1) ⟨[{ Session.fresh 0 with inp := inp }], [⟨1, false, true⟩], [], []⟩ :=
    (Reachable.refl.tail a1).tail a2
  refine ⟨_, _, hr, rfl, rfl, (comes_to_rest _ _).1, fun σ' hw hs => ?_⟩
  have hr' := hr.trans (work_is_step (works_timed hw))
  -- there is only this session, and the listener runs
  have one : σ'.sessions.length = 1 ∧ ∀ g ∈ σ'.gates, g.running = true := by
    clear hs hr'
    induction hw with
    | refl => exact ⟨rfl, by simp⟩
    | tail _ h ih =>
      obtain ⟨i1, i2⟩ := ih
      have setG : ∀ {gs : List Gate} {l : Nat} {g : Gate}, (∀ x ∈ gs, x.running = true) → g.running = true →
          ∀ x ∈ gs.set l g, x.running = true := by
        intro gs l g h1 h2 x hx
        rcases List.mem_or_eq_of_mem_set hx with hx | rfl
        · exact h1 x hx
        · exact h2
      cases h with
      | permit => exact ⟨i1, setG i2 rfl⟩
      | accept => exact ⟨by simpa [Sys.setSession, Sys.setGate] using i1, setG i2 rfl⟩
      | session => exact ⟨by simpa [Sys.setSession] using i1, i2⟩
      | found => exact ⟨by simpa [Sys.setSession] using i1, i2⟩
      | missing => exact ⟨by simpa [Sys.setSession] using i1, i2⟩
      | insert =>
        exact ⟨by simpa [Sys.setSession, insertResolver_sessions] using i1,
          by simpa only [Sys.setSession, insertResolver_sessions] using i2⟩
      | finish _ _ _ _ g _ _ _ _ hg =>
        exact ⟨by simpa [Sys.setSession, Sys.setGate] using i1, setG i2 (i2 g (List.mem_of_getElem? hg))⟩
      | missingConnection _ _ g _ _ _ hg =>
        exact ⟨by simpa [Sys.setSession, Sys.setGate] using i1, setG i2 (i2 g (List.mem_of_getElem? hg))⟩
      | giveUp _ _ g _ _ hg =>
        exact ⟨by simpa [Sys.setSession, Sys.setGate] using i1, setG i2 (i2 g (List.mem_of_getElem? hg))⟩
  obtain ⟨s', h1, h2, -, h3⟩ := every_request_is_answered hr (j := 0) rfl (show 0 < 1 by decide) (fun ok h => by cases h) hf hw hs
  have hone : σ'.sessions = [s'] := by
    match hx : σ'.sessions with
    | [] => rw [hx] at one; cases one.1
    | [x] => rw [hx] at h1; cases h1; rfl
    | _ :: _ :: _ => rw [hx] at one; simp at one
  refine ⟨s', hone, ?_⟩
  rcases h3 with ⟨q, ⟨g, hg, hrun⟩ | hb⟩ | ⟨m, ht, hm⟩
  · rw [one.2 g (List.mem_of_getElem? hg)] at hrun; cases hrun
  · unfold Sys.serving at hb
    rw [hone] at hb
    simp [q, Task.active] at hb
  · have hms : m = .statusResponse 0 ∧ s'.dials = [] := by
      generalize s'.queries = qs at ht
      generalize s'.dials = ds at ht ⊢
      cases ht with
      | unreadable h => exact absurd he (h _)
      | status => exact ⟨rfl, rfl⟩
      | echo e h => exact nomatch Encodes.unique h he
      | notRequest m' h h' =>
        cases Encodes.unique h he
        rcases h' with ⟨_, h'⟩ | ⟨_, h'⟩ <;> cases h'
      | badIp ip p h => exact nomatch Encodes.unique h he
      | ipConnected ip p a h => exact nomatch Encodes.unique h he
      | ipRefused ip t p a h => exact nomatch Encodes.unique h he
      | badResolver hn p rs dp h => exact nomatch Encodes.unique h he
      | noResolver hn t p rs dp ips h => exact nomatch Encodes.unique h he
      | queryFailed hn t p rs dp ips r h => exact nomatch Encodes.unique h he
      | queryEmpty hn p rs dp ips r h => exact nomatch Encodes.unique h he
      | nameConnected hn p rs dp ips r a as h => exact nomatch Encodes.unique h he
      | nameRefused hn t p rs dp ips r a as h => exact nomatch Encodes.unique h he
    obtain ⟨rfl, hd⟩ := hms
    rw [if_pos (by decide)] at hm
    rcases hm with ⟨-, -, k2, k3⟩ | ⟨⟨d, k1, -⟩, -⟩
    · exact ⟨k2, k3, hd⟩
    · rw [hd] at k1; cases k1

end Qos.Proxy
