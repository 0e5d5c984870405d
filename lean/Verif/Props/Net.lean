import Verif.Lemmas.NetClient
import Mathlib.Data.List.Induction
/-!
# C35, C36: concurrent clients, pooled connections and the serialised enclave

All theorems quantify over every request processor, every pool, every number of listeners and permits, and every run:
every interleaving of calls, tasks and other clients, every splitting of the byte streams, every time-out,
cancellation and failure.

Concrete cases: `Props/NetExamples.lean`.
-/
namespace Qos.Net
open Stream (frame wire maxPayloadSize)

variable {S : Type} {P : Processor S} {addresses : List Nat} {listeners max : Nat} {s0 : S} {σ σ' : Sys S}

/-! ### The start satisfies the invariants -/

theorem start_server : ServerInv (Sys.start addresses listeners max s0).conns (Sys.start addresses listeners max s0).log :=
  ⟨fun j c h => by simp [Sys.start] at h, fun e h => by simp [Sys.start] at h⟩

theorem start_client : ClientInv (Sys.start addresses listeners max s0) := by
  have hh : ∀ (i : Nat) (h : Handle), (Sys.start addresses listeners max s0).handles[i]? = some h → h.holder = none ∧ h.inner = none := by
    intro i h hi
    simp only [Sys.start, List.getElem?_map, Option.map_eq_some_iff] at hi
    obtain ⟨_, _, rfl⟩ := hi
    exact ⟨rfl, rfl⟩
  constructor
  · exact fun i h hi _ => (hh i h hi).2
  · intro i h k hi hk
    rw [(hh i h hi).1] at hk
    cases hk
  · intro j d k hj; simp [Sys.start] at hj
  · intro k c hk; simp [Sys.start] at hk

theorem start_seq : SeqInv P s0 (Sys.start addresses listeners max s0) :=
  ⟨rfl, fun j c _ _ _ h _ => by simp [Sys.start] at h⟩

theorem start_gates : GateInv max (Sys.start addresses listeners max s0).gates (Sys.start addresses listeners max s0).conns := by
  intro l g hg
  simp only [Sys.start] at hg
  have : g = ⟨max, false⟩ := by
    have := List.mem_of_getElem? hg
    exact List.eq_of_mem_replicate this
  subst this
  simp [Sys.start]

/-! ### What was processed for a call -/

theorem filter_conn {log : List Entry} {j : Nat} {p : Entry → Bool} (h : ∀ e ∈ log, p e = true ↔ e.conn = j) :
    log.filter p = onConn log j := by
  unfold onConn
  apply List.filter_congr
  intro e he
  rw [Bool.eq_iff_iff, h e he, decide_eq_true_iff]

theorem processedFor_none {k : Nat} (h : NoConn σ.conns k) : σ.processedFor k = [] := by
  unfold Sys.processedFor
  rw [List.filter_eq_nil_iff]
  intro e _
  simp only [decide_eq_true_eq]
  intro hc
  obtain ⟨d, h1, h2⟩ := Option.bind_eq_some_iff.1 hc
  exact h e.conn d h1 h2

theorem processedFor_own {k j : Nat} {Q : Conn S → Prop} (h : Own σ.conns k j Q) : σ.processedFor k = onConn σ.log j := by
  apply filter_conn
  intro e _
  simp only [decide_eq_true_eq]
  constructor
  · intro hc
    obtain ⟨d, h1, h2⟩ := Option.bind_eq_some_iff.1 hc
    exact h.only e.conn d h1 h2
  · intro he
    obtain ⟨d, h1, h2, _⟩ := h.it
    rw [he, h1]
    exact h2

theorem onConn_single {log : List Entry} {j : Nat} {req : Bytes} (h : reqs (onConn log j) = [req]) :
    ∃ resp, onConn log j = [⟨j, req, resp⟩] := by
  match hl : onConn log j with
  | [] => rw [hl] at h; cases h
  | [e] =>
    rw [hl] at h
    have hm : e ∈ onConn log j := by rw [hl]; simp
    simp only [onConn, List.mem_filter, decide_eq_true_eq] at hm
    simp only [reqs, List.map_cons, List.map_nil, List.cons.injEq, and_true] at h
    obtain ⟨c, q, r⟩ := e
    obtain rfl : c = j := hm.2
    obtain rfl : q = req := h
    exact ⟨r, rfl⟩
  | _ :: _ :: _ => rw [hl] at h; cases h

/-- A connection on which the client wrote a part of one request. -/
theorem part_processed {es : List Entry} {d : Conn S} {req : Bytes} (h : ServeOk es d)
    (hi : d.inp = [] ∨ (req.length ≤ maxPayloadSize ∧ d.inp <+: frame req)) : reqs es = [] ∨ reqs es = [req] := by
  obtain ⟨h1, h2, _⟩ := h.facts
  rcases hi with hi | ⟨hl, hi⟩
  · rw [hi, List.prefix_nil] at h1
    left
    cases hr : reqs es with
    | nil => rfl
    | cons a l =>
      rw [hr] at h1
      simp [wire] at h1
      exact absurd h1.1 (frame_ne_nil a)
  · exact wire_in_frame h2 hl (h1.trans hi)

/-- C35: at every moment of every run, each call has been processed at most once, and what was processed is its own
request; a call that returned a response has been processed exactly once, and what it returned is the response to its own
request. -/
theorem call_gets_own_response (hr : Reachable P (Sys.start addresses listeners max s0) σ) (k : Nat) (c : Call)
    (hk : σ.calls[k]? = some c) :
    (σ.processedFor k = [] ∨ ∃ j resp, σ.processedFor k = [⟨j, c.req, resp⟩]) ∧
    ∀ resp, c.st = .finished (some resp) → ∃ j, σ.processedFor k = [⟨j, c.req, resp⟩] := by
  have ci := clientInv_reachable start_client hr
  have si := serverInv_reachable start_server hr
  have ok := ci.ok k c hk
  have part : ∀ {j : Nat}, (Own σ.conns k j fun d => d.inp = [] ∨ (c.req.length ≤ maxPayloadSize ∧ d.inp <+: frame c.req)) →
      σ.processedFor k = [] ∨ ∃ j resp, σ.processedFor k = [⟨j, c.req, resp⟩] := by
    intro j ho
    rw [processedFor_own ho]
    obtain ⟨d, h1, _, h3⟩ := ho.it
    rcases part_processed (si.conn j d h1) h3 with h | h
    · exact .inl (List.map_eq_nil_iff.1 h)
    · obtain ⟨resp, h⟩ := onConn_single h
      exact .inr ⟨j, resp, h⟩
  cases hst : c.st with
  | waiting =>
    rw [hst] at ok
    exact ⟨.inl (processedFor_none ok), fun _ h => by cases h⟩
  | got i =>
    rw [hst] at ok
    exact ⟨.inl (processedFor_none ok.2), fun _ h => by cases h⟩
  | ready i j =>
    rw [hst] at ok
    exact ⟨part (ok.2.weaken fun d q => .inl q.1), fun _ h => by cases h⟩
  | sending i j rest =>
    rw [hst] at ok
    exact ⟨part (ok.2.2.weaken fun d q => .inr ⟨ok.2.1, _, q.1⟩), fun _ h => by cases h⟩
  | receiving i j buf =>
    rw [hst] at ok
    exact ⟨part (ok.2.2.2.weaken fun d q => .inr ⟨ok.2.1, by rw [q.1]; exact List.prefix_rfl⟩), fun _ h => by cases h⟩
  | finished r =>
    rw [hst] at ok
    cases r with
    | none =>
      refine ⟨?_, fun _ h => by cases h⟩
      rcases ok with ok | ⟨j, ok⟩
      · exact .inl (processedFor_none ok)
      · exact part ok
    | some resp =>
      obtain ⟨o1, o2, j, o3⟩ := ok
      have key : σ.processedFor k = [⟨j, c.req, resp⟩] := by
        rw [processedFor_own o3]
        obtain ⟨d, h1, _, h3, h4⟩ := o3.it
        have so := si.conn j d h1
        obtain ⟨_, _, n, f3, f4⟩ := so.facts
        obtain ⟨l', hl'⟩ := frame_in_wire f4 o2 (h4.trans f3)
        rcases part_processed (req := c.req) so (.inr ⟨o1, by rw [h3]; exact List.prefix_rfl⟩) with h | h
        · exfalso
          rw [List.map_eq_nil_iff.1 h] at hl'
          simp at hl'
        · obtain ⟨r, hrr⟩ := onConn_single h
          rw [hrr] at hl' ⊢
          cases n with
          | zero => simp at hl'
          | succ n =>
            simp at hl'
            rw [hl'.1]
      refine ⟨.inr ⟨j, resp, key⟩, ?_⟩
      intro resp' h
      cases h
      exact ⟨j, key⟩

/-- C35: a pooled stream is used by at most one call at a time, and only while that call is under way: no stream is ever
lost, whatever happens to the call that used it. -/
theorem streams_exclusive (hr : Reachable P (Sys.start addresses listeners max s0) σ) :
    (∀ (k1 k2 : Nat) (c1 c2 : Call) (i : Nat), σ.calls[k1]? = some c1 → σ.calls[k2]? = some c2 → c1.st.stream = some i → c2.st.stream = some i →
      k1 = k2) ∧
    ∀ (i : Nat) (h : Handle), σ.handles[i]? = some h → h.holder ≠ none →
      ∃ (k : Nat) (c : Call), σ.calls[k]? = some c ∧ c.st.isFinished = false ∧ c.st.stream = some i := by
  have ci := clientInv_reachable start_client hr
  have hold : ∀ (k : Nat) (c : Call) (i : Nat), σ.calls[k]? = some c → c.st.stream = some i → ∃ a o, σ.handles[i]? = some ⟨a, some k, o⟩ := by
    intro k c i hk hs
    have ok := ci.ok k c hk
    cases hst : c.st <;> rw [hst] at hs ok <;> cases hs
    · obtain ⟨a, ha⟩ := ok.1; exact ⟨a, _, ha⟩
    · obtain ⟨a, ha⟩ := ok.1; exact ⟨a, _, ha⟩
    · obtain ⟨a, ha⟩ := ok.1; exact ⟨a, _, ha⟩
    · obtain ⟨a, ha⟩ := ok.1; exact ⟨a, _, ha⟩
  constructor
  · intro k1 k2 c1 c2 i h1 h2 g1 g2
    obtain ⟨_, _, e1⟩ := hold k1 c1 i h1 g1
    obtain ⟨_, _, e2⟩ := hold k2 c2 i h2 g2
    rw [e1] at e2
    simp only [Option.some.injEq, Handle.mk.injEq] at e2
    exact e2.2.1
  · intro i h hi hn
    obtain ⟨k, hk⟩ := Option.ne_none_iff_exists'.1 hn
    obtain ⟨c, h1, h2⟩ := ci.held i h k hi hk
    refine ⟨k, c, h1, ?_, h2⟩
    cases hst : c.st <;> rw [hst] at h2 <;> first | rfl | cases h2

/-! ### Serialisation -/

/-- C36: all that was processed, on all connections, is one sequential run of the processor, and the present state is its
final state. -/
theorem serialised (hr : Reachable P (Sys.start addresses listeners max s0) σ) :
    P.sequential s0 (σ.log.map (·.req)) = (σ.log.map (·.resp), σ.state) :=
  (seqInv_reachable start_seq hr).seq

/-- C36: what is processed on a connection is what was received on it, in order, and what is written to it are the
responses, in that order. -/
theorem connection_order (hr : Reachable P (Sys.start addresses listeners max s0) σ) (j : Nat) (d : Conn S)
    (hj : σ.conns[j]? = some d) :
    wire ((onConn σ.log j).map (·.req)) <+: d.inp ∧ d.out <+: wire ((onConn σ.log j).map (·.resp)) := by
  obtain ⟨h1, _, n, h2, _⟩ := ((serverInv_reachable start_server hr).conn j d hj).facts
  refine ⟨h1, h2.trans ?_⟩
  have : wire (resps (onConn σ.log j)) = wire ((resps (onConn σ.log j)).take n) ++ wire ((resps (onConn σ.log j)).drop n) := by
    rw [← wire_append, List.take_append_drop]
  show _ <+: wire (resps (onConn σ.log j))
  rw [this]
  exact List.prefix_append _ _

/-- C36: at most one request is being handled with the state. -/
theorem one_at_a_time (hr : Reachable P (Sys.start addresses listeners max s0) σ) (i j : Nat) (c d : Conn S)
    (hi : σ.conns[i]? = some c) (hj : σ.conns[j]? = some d) (hc : c.serve.isHandling = true)
    (hd : d.serve.isHandling = true) : i = j := by
  have h := (seqInv_reachable start_seq hr).lock
  have lk : ∀ {i : Nat} {c : Conn S}, σ.conns[i]? = some c → c.serve.isHandling = true → σ.lock = some i := by
    intro i c hi hc
    cases hs : c.serve with
    | handling a b s' => exact (h i c a b s' hi hs).1
    | _ => rw [hs] at hc; cases hc
  have h1 := lk hi hc
  rw [lk hj hd] at h1
  injection h1 with h1
  exact h1.symm

theorem Reachable.trans {σ0 σ1 σ2 : Sys S} (h1 : Reachable P σ0 σ1) (h2 : Reachable P σ1 σ2) : Reachable P σ0 σ2 := by
  induction h2 with
  | refl => exact h1
  | tail _ hs ih => exact ih.tail hs

/-- The log only grows, and connections keep their openers. -/
theorem step_grows (h : Step P σ σ') : σ.log <+: σ'.log ∧ σ.conns.length ≤ σ'.conns.length ∧
    ∀ (j : Nat) (d' : Conn S), σ'.conns[j]? = some d' → j < σ.conns.length → ∃ d, σ.conns[j]? = some d ∧ d.opener = d'.opener := by
  obtain ⟨es, hc, hl⟩ := step_conns h
  refine ⟨by rw [hl]; exact List.prefix_append _ _, ?_⟩
  generalize σ'.conns = cs' at hc
  cases hc with
  | same => exact ⟨Nat.le_refl _, fun j d' hj _ => ⟨d', hj, rfl⟩⟩
  | added l o =>
    refine ⟨by simp, fun j d' hj hlt => ?_⟩
    rcases get_snoc hj with hj | ⟨rfl, _⟩
    · exact ⟨d', hj, rfl⟩
    · omega
  | changed i d d'' es hd hch =>
    refine ⟨by simp, fun j d' hj _ => ?_⟩
    rcases get_set hj with ⟨rfl, rfl⟩ | ⟨_, hj⟩
    · refine ⟨d, hd, ?_⟩
      cases hch <;> rfl
    · exact ⟨d', hj, rfl⟩

theorem reachable_grows (h : Reachable P σ σ') : σ.log <+: σ'.log ∧ σ.conns.length ≤ σ'.conns.length ∧
    ∀ (j : Nat) (d' : Conn S), σ'.conns[j]? = some d' → j < σ.conns.length → ∃ d, σ.conns[j]? = some d ∧ d.opener = d'.opener := by
  induction h with
  | refl => exact ⟨List.prefix_rfl, Nat.le_refl _, fun j d' hj _ => ⟨d', hj, rfl⟩⟩
  | tail _ hs ih =>
    obtain ⟨a1, a2, a3⟩ := ih
    obtain ⟨b1, b2, b3⟩ := step_grows hs
    refine ⟨a1.trans b1, by omega, fun j d' hj hlt => ?_⟩
    obtain ⟨d1, h1, h2⟩ := b3 j d' hj (by omega)
    obtain ⟨d2, g1, g2⟩ := a3 j d1 h1 hlt
    exact ⟨d2, g1, g2.trans h2⟩

/-- C36: the order respects real time: if a call had returned its response before another call was made, it was processed
before it. -/
theorem real_time_order (hr : Reachable P (Sys.start addresses listeners max s0) σ) (hr' : Reachable P σ σ')
    (k1 k2 : Nat) (c1 c2 : Call) (resp1 resp2 : Bytes) (h1 : σ.calls[k1]? = some c1) (f1 : c1.st = .finished (some resp1))
    (later : σ.calls.length ≤ k2) (h2 : σ'.calls[k2]? = some c2) (f2 : c2.st = .finished (some resp2)) :
    ∃ j1 j2 a b c, σ'.log = a ++ ⟨j1, c1.req, resp1⟩ :: b ++ ⟨j2, c2.req, resp2⟩ :: c := by
  obtain ⟨j1, p1⟩ := (call_gets_own_response hr k1 c1 h1).2 resp1 f1
  obtain ⟨j2, p2⟩ := (call_gets_own_response (hr.trans hr') k2 c2 h2).2 resp2 f2
  obtain ⟨⟨new, hnew⟩, _, hop⟩ := reachable_grows hr'
  have m1 : (⟨j1, c1.req, resp1⟩ : Entry) ∈ σ.log := by
    have : (⟨j1, c1.req, resp1⟩ : Entry) ∈ σ.processedFor k1 := by rw [p1]; simp
    exact (List.mem_filter.1 this).1
  have m2' : (⟨j2, c2.req, resp2⟩ : Entry) ∈ σ'.processedFor k2 := by rw [p2]; simp
  have m2 : (⟨j2, c2.req, resp2⟩ : Entry) ∈ σ'.log := (List.mem_filter.1 m2').1
  have n2 : (⟨j2, c2.req, resp2⟩ : Entry) ∉ σ.log := by
    intro hm
    have hlt := (serverInv_reachable start_server hr).known _ hm
    simp only [Sys.processedFor, List.mem_filter, decide_eq_true_eq] at m2'
    obtain ⟨d', g1, g2⟩ := Option.bind_eq_some_iff.1 m2'.2
    obtain ⟨d, e1, e2⟩ := hop j2 d' g1 hlt
    have := (clientInv_reachable start_client hr).openers j2 d k2 e1 (e2.trans g2)
    omega
  rw [← hnew, List.mem_append] at m2
  obtain ⟨a, b, hab⟩ := List.append_of_mem m1
  obtain ⟨a', b', hab'⟩ := List.append_of_mem (m2.resolve_left n2)
  refine ⟨j1, j2, a, b ++ a', b', ?_⟩
  rw [← hnew, hab, hab']
  simp

/-! ### Connections -/

theorem gates_length (hr : Reachable P (Sys.start addresses listeners max s0) σ) : σ.gates.length = listeners := by
  induction hr with
  | refl => simp [Sys.start]
  | tail _ hs ih => rw [step_gates_length hs, ih]

/-- The semaphore of a listener adds up. -/
theorem permits_add_up (hr : Reachable P (Sys.start addresses listeners max s0) σ) (l : Nat) (hl : l < listeners) :
    ∃ g, σ.gates[l]? = some g ∧ g.permits + g.held.toNat + σ.serving l = max := by
  have hlt : l < σ.gates.length := by rw [gates_length hr]; exact hl
  exact ⟨_, List.getElem?_eq_getElem hlt, gateInv_reachable start_gates hr l _ (List.getElem?_eq_getElem hlt)⟩

/-- C36: a listener never serves more connections than its semaphore allows. -/
theorem connections_bounded (hr : Reachable P (Sys.start addresses listeners max s0) σ) (l : Nat) (hl : l < listeners) :
    σ.serving l ≤ max := by
  obtain ⟨g, _, h⟩ := permits_add_up hr l hl
  omega

/-- C36: and no place is ever lost: while fewer are served, a waiting connection can be accepted next. -/
theorem can_accept (hr : Reachable P (Sys.start addresses listeners max s0) σ) (l : Nat) (hl : l < listeners)
    (room : σ.serving l < max) (j : Nat) (d : Conn S) (hj : σ.conns[j]? = some d) (hd : d.listener = l)
    (hq : d.serve = .queued) : ∃ σ', Reachable P σ σ' ∧ ∃ d', σ'.conns[j]? = some d' ∧ d'.serve = .reading [] := by
  obtain ⟨g, hg, h⟩ := permits_add_up hr l hl
  by_cases hheld : g.held = true
  · exact ⟨_, .tail .refl (.accept σ l j g d hg hheld hj hd hq), _, set_get hj, rfl⟩
  · have hf : g.held = false := by simpa using hheld
    rw [hf] at h
    obtain ⟨n, hn⟩ : ∃ n, g.permits = n + 1 := ⟨g.permits - 1, by simp at h; omega⟩
    have s1 := Step.permit (P := P) σ l g n hg hf hn
    exact ⟨_, .tail (.tail .refl s1) (.accept _ l j ⟨n, true⟩ d (set_get hg) rfl hj hd hq), _, set_get hj, rfl⟩

theorem start_lock : LockInv (Sys.start addresses listeners max s0) := fun j h => by simp [Sys.start] at h

/-- C36: the lock never blocks for good: a request that has been received can always be answered. -/
theorem can_answer (hr : Reachable P (Sys.start addresses listeners max s0) σ) (j : Nat) (d : Conn S) (req : Bytes)
    (hj : σ.conns[j]? = some d) (hd : d.serve = .received req) :
    ∃ σ' resp, Reachable P σ σ' ∧ ⟨j, req, resp⟩ ∈ σ'.log.drop σ.log.length := by
  have free : ∀ {σ : Sys S} {d : Conn S}, σ.conns[j]? = some d → d.serve = .received req → σ.lock = none →
      ∃ σ' resp, Reachable P σ σ' ∧ σ'.log = σ.log ++ [⟨j, req, resp⟩] := by
    intro σ d hj hd hl
    cases hdir : P.direct req with
    | some resp => exact ⟨_, resp, .tail .refl (.answerDirect σ j d req resp hj hd hdir), rfl⟩
    | none =>
      have s1 := Step.lock (P := P) σ j d req hj hd hdir hl
      exact ⟨_, _, .tail (.tail .refl s1) (.unlock _ j _ req _ _ (set_get hj) rfl), rfl⟩
  cases hl : σ.lock with
  | none =>
    obtain ⟨σ', resp, h1, h2⟩ := free hj hd hl
    exact ⟨σ', resp, h1, by rw [h2]; simp⟩
  | some i =>
    obtain ⟨c, rq, rs, s', h1, h2⟩ := lockInv_reachable start_lock hr i hl
    have hne : i ≠ j := by
      rintro rfl
      rw [hj] at h1
      injection h1 with h1
      subst h1
      rw [hd] at h2
      cases h2
    have s1 := Step.unlock (P := P) σ i c rq rs s' h1 h2
    have hj1 : (σ.conns.set i { c with serve := .replying rs })[j]? = some d := by rw [set_get_ne hne]; exact hj
    obtain ⟨σ', resp, g1, g2⟩ := free
      (σ := { σ.setConn i { c with serve := .replying rs } with lock := none, state := s', log := σ.log ++ [⟨i, rq, rs⟩] })
      hj1 hd rfl
    refine ⟨σ', resp, (Reachable.tail .refl s1).trans g1, ?_⟩
    rw [g2]
    simp [Sys.setConn]

end Qos.Net
