import Verif.Props.NetExamples
import Verif.Props.Net
import Verif.Props.ProxyRuns
/-!
# Concrete cases, part C: the socket server under concurrency
-/
namespace Qos.Net

theorem again {S : Type} {P : Processor S} {σ0 σ : Sys S} (_ : Reachable P σ0 σ) : Reachable P σ σ := .refl

/-- A first call runs to its end; in between, the request is queued, then received, then handled. Then a second call runs to its
end on another connection. -/
theorem two_calls_run : ∃ (queued received handling first last : Sys Nat),
    Reachable counting (Sys.start [0] 1 2 0) queued ∧ (∃ d, queued.conns[0]? = some d ∧ d.listener = 0 ∧ d.serve = .queued) ∧
    queued.serving 0 = 0 ∧
    Reachable counting (Sys.start [0] 1 2 0) received ∧ (∃ d, received.conns[0]? = some d ∧ d.serve = .received [1]) ∧
    Reachable counting (Sys.start [0] 1 2 0) handling ∧ (∃ c, handling.conns[0]? = some c ∧ c.serve.isHandling = true) ∧
    Reachable counting (Sys.start [0] 1 2 0) first ∧ first.calls = [⟨[1], .finished (some [1, 0])⟩] ∧
    Reachable counting first last ∧
    last.calls = [⟨[1], .finished (some [1, 0])⟩, ⟨[2], .finished (some [2, 1])⟩] ∧
    last.log = [⟨0, [1], [1, 0]⟩, ⟨1, [2], [2, 1]⟩] ∧ last.state = 2 := by
  have r := (Reachable.refl (P := counting) (σ0 := Sys.start [0] 1 2 0)).tail (.call _ [1])
  have r := r.tail (.get _ 0 0 _ _ rfl rfl rfl rfl)
  have r := r.tail (.connect _ 0 0 _ _ rfl rfl rfl)
  have r := r.tail (.begin _ 0 0 0 _ rfl rfl (by decide))
  have r := r.tail (.write _ 0 0 0 100 _ _ _ rfl rfl rfl)
  have r1 := r.tail (.await _ 0 0 0 _ rfl rfl)
  have r := r1.tail (.permit _ 0 _ 1 rfl rfl rfl)
  have r := r.tail (.accept _ 0 0 _ _ rfl rfl rfl rfl rfl)
  have r := r.tail (.serverRead _ 0 8 8 _ _ rfl rfl rfl (by decide) (by decide))
  have r := r.tail (.serverRead _ 0 1 1 _ _ rfl rfl rfl (by decide) (by decide))
  have r2 := r.tail (.serverReceived _ 0 _ _ _ rfl rfl rfl)
  have r3 := r2.tail (.lock _ 0 _ _ rfl rfl rfl rfl)
  have r := r3.tail (.unlock _ 0 _ _ _ _ rfl rfl)
  have r := r.tail (.replyBegin _ 0 _ _ rfl rfl (by decide))
  have r := r.tail (.serverWrite _ 0 100 _ _ rfl rfl)
  have r := r.tail (.read _ 0 0 0 8 8 _ _ _ rfl rfl rfl rfl (by decide) (by decide))
  have r := r.tail (.read _ 0 0 0 2 2 _ _ _ rfl rfl rfl rfl (by decide) (by decide))
  have r4 := r.tail (.finish _ 0 0 0 _ _ _ rfl rfl rfl)
  have q := (again r4).tail (.call _ [2])
  have q := q.tail (.get _ 1 0 _ _ rfl rfl rfl rfl)
  have q := q.tail (.connect _ 1 0 _ _ rfl rfl rfl)
  have q := q.tail (.begin _ 1 0 1 _ rfl rfl (by decide))
  have q := q.tail (.write _ 1 0 1 100 _ _ _ rfl rfl rfl)
  have q := q.tail (.await _ 1 0 1 _ rfl rfl)
  have q := q.tail (.permit _ 0 _ 0 rfl rfl rfl)
  have q := q.tail (.accept _ 0 1 _ _ rfl rfl rfl rfl rfl)
  have q := q.tail (.serverRead _ 1 8 8 _ _ rfl rfl rfl (by decide) (by decide))
  have q := q.tail (.serverRead _ 1 1 1 _ _ rfl rfl rfl (by decide) (by decide))
  have q := q.tail (.serverReceived _ 1 _ _ _ rfl rfl rfl)
  have q := q.tail (.lock _ 1 _ _ rfl rfl rfl rfl)
  have q := q.tail (.unlock _ 1 _ _ _ _ rfl rfl)
  have q := q.tail (.replyBegin _ 1 _ _ rfl rfl (by decide))
  have q := q.tail (.serverWrite _ 1 100 _ _ rfl rfl)
  have q := q.tail (.read _ 1 0 1 8 8 _ _ _ rfl rfl rfl rfl (by decide) (by decide))
  have q := q.tail (.read _ 1 0 1 2 2 _ _ _ rfl rfl rfl rfl (by decide) (by decide))
  have q := q.tail (.finish _ 1 0 1 _ _ _ rfl rfl rfl)
  exact ⟨_, _, _, _, _, r1, ⟨_, rfl, rfl, rfl⟩, rfl, r2, ⟨_, rfl, rfl⟩, r3, ⟨_, rfl, rfl⟩, r4, rfl, q, rfl, rfl, rfl⟩

/-- `real_time_order`, `call_gets_own_response` and `serialised` apply to it. -/
example : ∃ last : Sys Nat, (∃ j1 j2 a b c, last.log = a ++ ⟨j1, [1], [1, 0]⟩ :: b ++ ⟨j2, [2], [2, 1]⟩ :: c) ∧
    (∃ j, last.processedFor 1 = [⟨j, [2], [2, 1]⟩]) ∧ counting.sequential 0 [[1], [2]] = ([[1, 0], [2, 1]], 2) := by
  obtain ⟨-, -, -, first, last, -, -, -, -, -, -, -, r, hc, q, hl, hlog, hst⟩ := two_calls_run
  have rq := r.trans q
  refine ⟨last, real_time_order r q 0 1 ⟨[1], .finished (some [1, 0])⟩ ⟨[2], .finished (some [2, 1])⟩ [1, 0] [2, 1] (by rw [hc]; rfl) rfl
    (by rw [hc]; decide) (by rw [hl]; rfl) rfl,
    (call_gets_own_response rq 1 ⟨[2], .finished (some [2, 1])⟩ (by rw [hl]; rfl)).2 _ rfl, ?_⟩
  have := serialised rq
  rw [hlog, hst] at this
  exact this

/-- `can_accept`: the queued connection can be accepted. -/
example : ∃ σ σ' : Sys Nat, Reachable counting σ σ' ∧ ∃ d', σ'.conns[0]? = some d' ∧ d'.serve = .reading [] := by
  obtain ⟨queued, -, -, -, -, r, ⟨d, h1, h2, h3⟩, h4, -⟩ := two_calls_run
  exact ⟨queued, can_accept r 0 (by decide) (by rw [h4]; decide) 0 d h1 h2 h3⟩

/-- `can_answer`: the received request can be answered. -/
example : ∃ σ σ' : Sys Nat, ∃ resp, Reachable counting σ σ' ∧ ⟨0, [1], resp⟩ ∈ σ'.log.drop σ.log.length := by
  obtain ⟨-, received, -, -, -, -, -, -, r, ⟨d, h1, h2⟩, -⟩ := two_calls_run
  exact ⟨received, can_answer r 0 d [1] h1 h2⟩

/-- `one_at_a_time`: while the request is handled, no other one is. -/
example : ∃ σ : Sys Nat, ∀ (j : Nat) (d : Conn Nat), σ.conns[j]? = some d → d.serve.isHandling = true → 0 = j := by
  obtain ⟨-, -, handling, -, -, -, -, -, -, -, r, ⟨c, h1, h2⟩, -⟩ := two_calls_run
  exact ⟨handling, fun j d hj hd => one_at_a_time r 0 j c d h1 hj h2 hd⟩

/-- `connections_bounded`, `permits_add_up` at the full server of the run above. -/
example : ∃ σ : Sys Nat, σ.serving 0 = 2 ∧ ∃ g, σ.gates[0]? = some g ∧ g.permits = 0 := by
  obtain ⟨σ, r, -, -, hs, -⟩ := late_response_run
  obtain ⟨g, h1, h2⟩ := permits_add_up r 0 (by decide)
  exact ⟨σ, hs, g, h1, by omega⟩

end Qos.Net

namespace Qos.Proxy

/-- A session that asks for a name, and what `name_can_be_reached` then gives. -/
theorem toy_named : ∃ σ : Sys Nat, ∃ s r, Reachable toyAddresses (Sys.start 1 1) σ ∧ σ.sessions[0]? = some s ∧
    σ.built[r]? = some ([7], 53) ∧ s.queries = [⟨r, "db", some [7]⟩] ∧ s.dials = [⟨7, 5432, true⟩] := by
  obtain ⟨req, hreq⟩ : ∃ req, req = msgCodec.enc (.connectByName "db" 5432 ["1.2.3.4"] 53) := ⟨_, rfl⟩
  have he : Encodes req (.connectByName "db" 5432 ["1.2.3.4"] 53) := ⟨hreq, by
    show (utf8 "db").length < 2 ^ 32 ∧ (5432 : UInt16).toNat < 256 ^ 2 ∧
      ((["1.2.3.4"].length < 2 ^ 32 ∧ ∀ a ∈ ["1.2.3.4"], (utf8 a).length < 2 ^ 32) ∧ (53 : UInt16).toNat < 256 ^ 2)
    decide⟩
  have hlen : req.length = 26 := by rw [hreq]; decide
  obtain ⟨inp, hinp⟩ : ∃ inp, inp = leBytes 8 req.length ++ req ++ [] := ⟨_, rfl⟩
  have hf : FirstFrame inp req := ⟨by omega, [], hinp.symm⟩
  have a1 := Step.connect (A := toyAddresses) (Sys.start 1 1) 0
  have a2 := Step.session (A := toyAddresses) { Sys.start (Ip := Nat) 1 1 with sessions := [.fresh 0] } 0 (.fresh 0)
    _ rfl (.clientWrite (.fresh 0) inp rfl)
  have a3 := Step.permit (A := toyAddresses) { Sys.start (Ip := Nat) 1 1 with sessions := [{ Session.fresh 0 with inp := inp }] } 0 0
    ⟨1, false, true⟩ rfl rfl rfl rfl
  have a4 := Step.accept (A := toyAddresses) ⟨[{ Session.fresh 0 with inp := inp }], [⟨0, true, true⟩], [], []⟩ 0 0 ⟨0, true, true⟩
    { Session.fresh 0 with inp := inp } rfl rfl rfl rfl rfl rfl
  have r0 : Reachable toyAddresses (Sys.start 1 1) ⟨[{ Session.fresh 0 with inp := inp, task := .reading [] }], [⟨0, false, true⟩], [], []⟩ :=
    (((Reachable.refl.tail a1).tail a2).tail a3).tail a4
  obtain ⟨σ, s, r, h1, h2, h3, h4, h5, -⟩ := name_can_be_reached r0 (j := 0) rfl rfl rfl hf he (ips := [7])
    (show ["1.2.3.4"].map toyAddresses.parse = [7].map some by decide) 7 [] (by decide)
  exact ⟨σ, s, r, r0.trans h1, h2, h3, h4, h5⟩

/-- `session_explained`, `dials_only_what_was_asked`, `one_resolver_per_configuration` and `sessions_bounded` apply to it. -/
example : ∃ σ : Sys Nat, ∃ s, Explained toyAddresses (fun r key => σ.built[r]? = some key) s ∧ s.dials.length = 1 ∧ σ.serving 0 ≤ 1 ∧
    ∀ q ∈ s.queries, σ.built[q.resolver]? = some ([7], 53) ∧
      ∀ s' ∈ σ.sessions, ∀ q' ∈ s'.queries, σ.built[q'.resolver]? = some ([7], 53) → q.resolver = q'.resolver := by
  obtain ⟨σ, s, r, h, h1, h2, h3, h4⟩ := toy_named
  have hm := List.mem_of_getElem? h1
  have := (dials_only_what_was_asked h hm).1
  refine ⟨σ, s, session_explained h hm, by rw [h4]; rfl, sessions_bounded h 0 (by decide), ?_⟩
  intro q hq
  have hq' : q ∈ [⟨r, "db", some [7]⟩] := h3 ▸ hq
  have e := List.mem_singleton.mp hq'
  have hb : σ.built[q.resolver]? = some ([7], 53) := by rw [e]; exact h2
  exact ⟨hb, fun s' hs' q' hq' hb' => one_resolver_per_configuration h hm hs' hq hq' (hb.trans hb'.symm)⟩

end Qos.Proxy
