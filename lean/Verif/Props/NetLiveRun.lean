import Verif.Props.NetLive
/-!
# C82: how calls end, and what can starve them
-/
namespace Qos.Net
open Stream (frame wire maxPayloadSize)

variable {S : Type} {P : Processor S} {addresses : List Nat} {listeners max : Nat} {s0 : S} {σ σ' : Sys S}

theorem Works.reachable (h : Works P σ σ') : Reachable P σ σ' := by
  induction h with
  | refl => exact .refl
  | tail _ hw ih => exact ih.tail hw.step

/-- Why a call may fail although nothing goes wrong: its request or the response to it is too long. -/
def TooBig (σ : Sys S) (k : Nat) (req : Bytes) : Prop :=
  maxPayloadSize < req.length ∨ ∃ e ∈ σ.processedFor k, maxPayloadSize < e.resp.length

theorem TooBig.mono {k : Nat} {req : Bytes} (h : TooBig σ k req) (si : ServerInv σ.conns σ.log) (hs : Step P σ σ') :
    TooBig σ' k req := by
  rcases h with h | ⟨e, he, hl⟩
  · exact .inl h
  · refine .inr ⟨e, ?_, hl⟩
    obtain ⟨g1, g2, g3⟩ := step_grows hs
    simp only [Sys.processedFor, List.mem_filter, decide_eq_true_eq] at he ⊢
    refine ⟨g1.subset he.1, ?_⟩
    have hlt := si.known e he.1
    have hj := List.getElem?_eq_getElem (Nat.lt_of_lt_of_le hlt g2)
    obtain ⟨d, h1, h2⟩ := g3 _ _ hj hlt
    have h3 := he.2
    rw [h1] at h3
    rw [hj]
    simpa [← h2] using h3

/-- Nothing has gone wrong for call `k`, except for sizes. -/
structure Fine (k : Nat) (req : Bytes) (σ : Sys S) : Prop where
  call : ∃ c, σ.calls[k]? = some c ∧ c.req = req
  ended : ∀ c : Call, σ.calls[k]? = some c → c.st = .finished none → TooBig σ k req
  closed : ∀ (c : Call) (j : Nat) (d : Conn S), σ.calls[k]? = some c → c.st.isFinished = false → σ.conns[j]? = some d →
    d.opener = some k → d.serve = .closed → TooBig σ k req

/-- No connection of call `k` has been closed by the server. -/
def NoneClosed (k : Nat) (cs cs' : List (Conn S)) : Prop := ∀ (j : Nat) (d' : Conn S), cs'[j]? = some d' →
  d'.opener = some k → d'.serve = .closed → ∃ d : Conn S, cs[j]? = some d ∧ d.opener = some k ∧ d.serve = .closed

theorem NoneClosed.refl (k : Nat) (cs : List (Conn S)) : NoneClosed k cs cs := fun _ d' h1 h2 h3 => ⟨d', h1, h2, h3⟩

theorem NoneClosed.set {k : Nat} {cs : List (Conn S)} {j : Nat} {d d' : Conn S} (hd : cs[j]? = some d)
    (h1 : d'.opener = d.opener) (h2 : d'.serve = .closed → d.serve = .closed) : NoneClosed k cs (cs.set j d') := by
  intro i e hi he hc
  rcases get_set hi with ⟨rfl, rfl⟩ | ⟨_, hi⟩
  · exact ⟨d, hd, h1 ▸ he, h2 hc⟩
  · exact ⟨e, hi, he, hc⟩

theorem Fine.same {k : Nat} {req : Bytes} (h : Fine k req σ) (up : TooBig σ k req → TooBig σ' k req)
    (h1 : NoneClosed k σ.conns σ'.conns) (h2 : σ'.calls = σ.calls) : Fine k req σ' := by
  refine ⟨by rw [h2]; exact h.call, fun c hc hf => up (h.ended c (h2 ▸ hc) hf), fun c j d hc hf hj ho hd => ?_⟩
  obtain ⟨e, g1, g2, g3⟩ := h1 j d hj ho hd
  exact up (h.closed c j e (h2 ▸ hc) hf g1 g2 g3)

theorem Fine.moved {k : Nat} {req : Bytes} (h : Fine k req σ) (up : TooBig σ k req → TooBig σ' k req) {k0 : Nat} {c0 : Call}
    {st : CallSt} (hk : σ.calls[k0]? = some c0) (h0 : c0.st.isFinished = false)
    (hst : st = .finished none → k0 = k → TooBig σ k req) (h1 : NoneClosed k σ.conns σ'.conns)
    (h2 : σ'.calls = σ.calls.set k0 { c0 with st }) : Fine k req σ' := by
  constructor
  · obtain ⟨c, hc, hr⟩ := h.call
    rw [h2]
    by_cases hkk : k0 = k
    · subst hkk
      rw [hk] at hc
      injection hc with hc
      subst hc
      exact ⟨_, set_get hk, hr⟩
    · exact ⟨c, by rw [set_get_ne hkk]; exact hc, hr⟩
  · intro c hc hf
    rw [h2] at hc
    rcases get_set hc with ⟨rfl, rfl⟩ | ⟨_, hc⟩
    · exact up (hst hf rfl)
    · exact up (h.ended c hc hf)
  · intro c j d hc hf hj ho hd
    obtain ⟨e, g1, g2, g3⟩ := h1 j d hj ho hd
    rw [h2] at hc
    rcases get_set hc with ⟨rfl, rfl⟩ | ⟨_, hc⟩
    · exact up (h.closed c0 j e hk h0 g1 g2 g3)
    · exact up (h.closed c j e hc hf g1 g2 g3)

theorem oversized_header {buf : Bytes} (h : progress buf = .oversized) :
    8 ≤ buf.length ∧ maxPayloadSize < leNat (buf.take 8) := by
  unfold progress at h
  split at h
  · cases h
  · split at h
    · exact ⟨by omega, by omega⟩
    · split at h <;> cases h

/-- What is read of messages within the limit never announces a message above it. -/
theorem no_oversized {l : List Bytes} {buf : Bytes} (hl : Small l) (hb : buf <+: wire l) : progress buf ≠ .oversized := by
  intro h
  obtain ⟨h8, hbig⟩ := oversized_header h
  cases l with
  | nil =>
    have : buf = [] := List.prefix_nil.1 hb
    rw [this] at h8
    simp at h8
  | cons a l =>
    obtain ⟨x, hx⟩ := hb
    have := congrArg (List.take 8) hx
    rw [List.take_append_of_le_length h8] at this
    have e : (wire (a :: l)).take 8 = leBytes 8 a.length := by
      have : wire (a :: l) = leBytes 8 a.length ++ (a ++ wire l) := by simp [wire, frame]
      rw [this, List.take_append_of_le_length (by simp), List.take_of_length_le (by simp)]
    rw [this, e, small_header (hl a (by simp))] at hbig
    have := hl a (by simp)
    omega

theorem release_closed (ci : ClientInv σ) {k0 k : Nat} {c : Call} (hk : σ.calls[k0]? = some c)
    (hf : c.st.isFinished = false) : NoneClosed k σ.conns (σ.release c.st).conns := by
  intro j d' hj ho hc
  obtain ⟨d, g1, g2, _, _⟩ := release_open ci hk hf hj
  rw [g2] at ho hc
  exact ⟨d, g1, ho, hc⟩

/-- What the client of an unfinished call has written is a part of its request. -/
theorem pool_input (ci : ClientInv σ) {k j : Nat} {c : Call} {d : Conn S} (hk : σ.calls[k]? = some c)
    (hf : c.st.isFinished = false) (hj : σ.conns[j]? = some d) (ho : d.opener = some k) :
    d.inp = [] ∨ (c.req.length ≤ maxPayloadSize ∧ d.inp <+: frame c.req) := by
  have ok := ci.ok k c hk
  have its : ∀ {j0 : Nat} {Q : Conn S → Prop}, Own σ.conns k j0 Q → Q d := by
    intro j0 Q hown
    obtain ⟨d0, h1, _, h3⟩ := hown.it
    have := hown.only j d hj ho
    subst this
    rw [hj] at h1
    injection h1 with h1
    subst h1
    exact h3
  cases hs : c.st with
  | waiting => rw [hs] at ok; exact absurd ho (ok j d hj)
  | got i => rw [hs] at ok; exact absurd ho (ok.2 j d hj)
  | ready i j0 => rw [hs] at ok; exact .inl (its ok.2).1
  | sending i j0 r =>
    rw [hs] at ok
    exact .inr ⟨ok.2.1, _, (its ok.2.2).1⟩
  | receiving i j0 r =>
    rw [hs] at ok
    exact .inr ⟨ok.2.1, by rw [(its ok.2.2.2).1]; exact List.prefix_rfl⟩
  | finished r => rw [hs] at hf; cases hf

theorem Fine.work {k : Nat} {req : Bytes} (h : Fine k req σ) (hr : Reachable P (Sys.start addresses listeners max s0) σ)
    (hw : Work P σ σ') : Fine k req σ' := by
  have ci := clientInv_reachable start_client hr
  have si := serverInv_reachable start_server hr
  have oi := openInv_reachable start_client start_open hr
  have up : TooBig σ k req → TooBig σ' k req := fun hb => hb.mono si hw.step
  have mine : ∀ {c : Call}, σ.calls[k]? = some c → c.req = req := by
    intro c hc
    obtain ⟨c', h1, h2⟩ := h.call
    rw [hc] at h1
    injection h1 with h1
    rw [h1, h2]
  -- a connection is closed by the server
  have shut : ∀ {j : Nat} {d : Conn S} {d' : Conn S}, σ.conns[j]? = some d → d'.opener = d.opener →
      (∀ c, σ.calls[k]? = some c → c.st.isFinished = false → d.opener = some k → TooBig σ k req) →
      σ'.conns = σ.conns.set j d' → σ'.calls = σ.calls → Fine k req σ' := by
    intro j d d' hj ho hb hcs hca
    refine ⟨by rw [hca]; exact h.call, fun c hc hf => up (h.ended c (hca ▸ hc) hf), fun c i e hc hf hi he hd => ?_⟩
    rw [hca] at hc
    rw [hcs] at hi
    rcases get_set hi with ⟨rfl, rfl⟩ | ⟨_, hi⟩
    · exact up (hb c hc hf (ho ▸ he))
    · exact up (h.closed c i e hc hf hi he hd)
  cases hw with
  | get k0 i c g h1 h2 h3 h4 => exact h.moved up h1 (st := .got i) (by rw [h2]; rfl) (fun hx => by cases hx) (.refl _ _) rfl
  | connect k0 i c g h1 h2 h3 =>
    unfold Sys.connectCall at up ⊢
    split at up
    · exact h.moved up h1 (st := .ready _ _) (by rw [h2]; rfl) (fun hx => by cases hx) (.refl _ _) rfl
    · refine h.moved up h1 (st := .ready _ _) (by rw [h2]; rfl) (fun hx => by cases hx) ?_ rfl
      intro j d' hj ho hc
      rcases get_snoc hj with hj | ⟨_, rfl⟩
      · exact ⟨d', hj, ho, hc⟩
      · cases hc
  | begin k0 i j c h1 h2 h3 => exact h.moved up h1 (st := .sending _ _ _) (by rw [h2]; rfl) (fun hx => by cases hx) (.refl _ _) rfl
  | tooLong k0 i j c h1 h2 h3 =>
    refine h.moved up h1 (st := .finished _) (by rw [h2]; rfl) ?_ (release_closed ci h1 (by rw [h2]; rfl))
      (by simp only [Sys.setCall, release_calls]; rfl)
    rintro _ rfl
    exact .inl (by rw [← mine h1]; exact h3)
  | write k0 i j n c d rest h1 h2 h3 h4 h5 =>
    exact h.moved up h1 (st := .sending _ _ _) (by rw [h2]; rfl) (fun hx => by cases hx) (.set h3 rfl fun hx => hx) rfl
  | await k0 i j c h1 h2 => exact h.moved up h1 (st := .receiving _ _ _) (by rw [h2]; rfl) (fun hx => by cases hx) (.refl _ _) rfl
  | read k0 i j n m c d buf h1 h2 h3 h4 h5 h6 h7 =>
    exact h.moved up h1 (st := .receiving _ _ _) (by rw [h2]; rfl) (fun hx => by cases hx) (.set h3 rfl fun hx => hx) rfl
  | finish k0 i j c buf resp h1 h2 h3 =>
    exact h.moved up h1 (st := .finished (some resp)) (by rw [h2]; rfl) (fun hx => by cases hx)
      (release_closed ci h1 (by rw [h2]; rfl)) (by simp only [Sys.setCall, release_calls])
  | badReply k0 i j c buf h1 h2 h3 =>
    exfalso
    have ok := ci.ok k0 c h1
    rw [h2] at ok
    obtain ⟨_, _, _, ⟨d, hj, _, _, _, hbuf⟩, _⟩ := ok
    obtain ⟨_, _, n, ho, hsm⟩ := (si.conn j d hj).facts
    exact no_oversized hsm ((hbuf ▸ List.take_prefix _ _ : buf <+: d.out).trans ho) h3
  | eof k0 i j m c d buf h1 h2 h3 h4 h5 h6 =>
    refine h.moved up h1 (st := .finished _) (by rw [h2]; rfl) ?_ (release_closed ci h1 (by rw [h2]; rfl))
      (by simp only [Sys.setCall, release_calls]; rfl)
    rintro _ rfl
    have ok := ci.ok k0 c h1
    rw [h2] at ok
    obtain ⟨_, _, _, ⟨d0, hj, ho, _⟩, _⟩ := ok
    rw [h3] at hj
    injection hj with hj
    subst hj
    exact h.closed c j d h1 (by rw [h2]; rfl) h3 ho h5
  | permit l g n h1 h2 h3 => exact h.same up (.refl _ _) rfl
  | accept l j g d h1 h2 h3 h4 h5 => exact h.same up (.set h3 rfl fun hx => by cases hx) rfl
  | serverRead j n m d buf h1 h2 h3 h4 h5 h6 => exact h.same up (.set h1 rfl fun hx => by cases hx) rfl
  | serverReceived j d buf r h1 h2 h3 => exact h.same up (.set h1 rfl fun hx => by cases hx) rfl
  | refuse j d buf g h1 h2 h3 h4 =>
    refine shut (d' := { d with serve := .closed }) h1 rfl ?_ rfl rfl
    intro c hc hf ho
    exfalso
    have sv := si.conn j d h1
    cases sv with
    | reading b g1 g2 g3 g4 g5 g6 g7 =>
      rw [h2] at g1
      injection g1 with g1
      subst g1
      have hin : wire (reqs (onConn σ.log j)) ++ buf <+: d.inp := g4 ▸ List.take_prefix _ _
      rcases pool_input ci hc hf h1 ho with he | ⟨hl, he⟩
      · rw [he] at hin
        have := (List.append_eq_nil_iff.1 (List.prefix_nil.1 hin)).2
        rw [this] at h3
        cases h3
      · have hfr := hin.trans he
        have hsm : Small [c.req] := fun x hx => by simp at hx; rw [hx]; exact hl
        rcases wire_in_frame g6 hl ((List.prefix_append _ _).trans hfr) with hq | hq
        · rw [hq] at hfr
          exact no_oversized hsm (by rw [wire_single]; simpa [wire] using hfr) h3
        · rw [hq, wire_single] at hfr
          have hlen := hfr.length_le
          have : buf = [] := List.length_eq_zero_iff.1 (by rw [List.length_append] at hlen; omega)
          rw [this] at h3
          cases h3
    | queued g1 => rw [h2] at g1; cases g1
    | received r g1 => rw [h2] at g1; rcases g1 with g1 | ⟨_, _, g1⟩ <;> cases g1
    | replying e0 e g1 => rw [h2] at g1; cases g1
    | writing r g1 => rw [h2] at g1; cases g1
    | closed n g1 => rw [h2] at g1; cases g1
  | hangup j m d buf g h1 h2 h3 h4 h5 h6 =>
    refine shut (d' := { d with serve := .closed }) h1 rfl ?_ rfl rfl
    intro c hc hf ho
    have := oi j d k c h1 ho hc
    rw [hf, h4] at this
    cases this
  | answerDirect j d r resp h1 h2 h3 => exact h.same up (.set h1 rfl fun hx => by cases hx) rfl
  | lock j d r h1 h2 h3 h4 => exact h.same up (.set h1 rfl fun hx => by cases hx) rfl
  | unlock j d r resp s' h1 h2 => exact h.same up (.set h1 rfl fun hx => by cases hx) rfl
  | replyBegin j d resp h1 h2 h3 => exact h.same up (.set h1 rfl fun hx => by cases hx) rfl
  | refuseReply j d resp g h1 h2 h3 h4 =>
    refine shut (d' := { d with serve := .closed }) h1 rfl ?_ rfl rfl
    intro c hc hf ho
    have sv := si.conn j d h1
    cases sv with
    | replying e0 e g1 g2 g3 =>
      rw [h2] at g1
      injection g1 with g1
      have hm : e ∈ onConn σ.log j := by rw [g3]; simp
      simp only [onConn, List.mem_filter, decide_eq_true_eq] at hm
      refine .inr ⟨e, ?_, by rw [← g1]; exact h3⟩
      simp only [Sys.processedFor, List.mem_filter, decide_eq_true_eq]
      exact ⟨hm.1, by rw [hm.2, h1]; exact ho⟩
    | queued g1 => rw [h2] at g1; cases g1
    | received r g1 => rw [h2] at g1; rcases g1 with g1 | ⟨_, _, g1⟩ <;> cases g1
    | reading e0 g1 => rw [h2] at g1; cases g1
    | writing r g1 => rw [h2] at g1; cases g1
    | closed n g1 => rw [h2] at g1; cases g1
  | serverWrite j n d rest h1 h2 h3 h4 => exact h.same up (.set h1 rfl fun hx => by cases hx) rfl
  | serverNext j d h1 h2 => exact h.same up (.set h1 rfl fun hx => by cases hx) rfl

/-- A step keeps the requests of calls. -/
theorem step_keeps_request (hs : Step P σ σ') {k : Nat} {c : Call} (hk : σ.calls[k]? = some c) :
    ∃ c', σ'.calls[k]? = some c' ∧ c'.req = c.req := by
  have set : ∀ {k0 : Nat} {c0 : Call} {st : CallSt}, σ.calls[k0]? = some c0 → σ'.calls = σ.calls.set k0 { c0 with st } →
      ∃ c', σ'.calls[k]? = some c' ∧ c'.req = c.req := by
    intro k0 c0 st h0 he
    rw [he]
    by_cases hkk : k0 = k
    · subst hkk
      rw [hk] at h0
      injection h0 with h0
      subst h0
      exact ⟨_, set_get hk, rfl⟩
    · exact ⟨c, by rw [set_get_ne hkk]; exact hk, rfl⟩
  cases hs with
  | call req => exact ⟨c, snoc_get hk, rfl⟩
  | get k0 i c0 g h1 _ _ _ => exact set h1 (st := .got i) rfl
  | connect k0 i c0 g h1 _ _ =>
    obtain ⟨j, hj⟩ := connectCall_calls σ k0 c0 i g
    exact set h1 hj
  | begin k0 i j c0 h1 _ _ => exact set h1 (st := .sending _ _ _) rfl
  | write k0 i j n c0 d rest h1 _ _ => exact set h1 (st := .sending _ _ _) rfl
  | await k0 i j c0 h1 _ => exact set h1 (st := .receiving _ _ _) rfl
  | read k0 i j n m c0 d buf h1 _ _ _ _ _ => exact set h1 (st := .receiving _ _ _) rfl
  | finish k0 i j c0 buf resp h1 _ _ =>
    exact set h1 (st := .finished (some resp)) (by simp only [Sys.setCall, release_calls])
  | abort k0 c0 h1 _ => exact set h1 (st := .finished none) (by simp only [Sys.setCall, release_calls])
  | _ => exact ⟨c, hk, rfl⟩

/-- C82: a call that was waiting for a stream and is left to the system's own work never fails, unless its request or the
response to it is above the size limit. -/
theorem call_fails_only_for_size (hr : Reachable P (Sys.start addresses listeners max s0) σ) (hw : Works P σ σ') (k : Nat)
    (c c' : Call) (hk : σ.calls[k]? = some c) (h0 : c.st = .waiting) (hk' : σ'.calls[k]? = some c')
    (hf : c'.st = .finished none) :
    maxPayloadSize < c.req.length ∨ ∃ e ∈ σ'.processedFor k, maxPayloadSize < e.resp.length := by
  have hn : NoConn σ.conns k := by
    have := (clientInv_reachable start_client hr).ok k c hk
    rw [h0] at this
    exact this
  have fine : Fine k c.req σ' := by
    clear hk' hf
    induction hw with
    | refl =>
      refine ⟨⟨c, hk, rfl⟩, fun c1 h1 h2 => ?_, fun c1 j d _ _ hj ho _ => absurd ho (hn j d hj)⟩
      rw [hk] at h1
      injection h1 with h1
      rw [← h1, h0] at h2
      cases h2
    | tail hw' hs ih => exact ih.work (hr.trans hw'.reachable) hs
  exact fine.ended c' hk' hf

/-- C82: put together: left to itself, the system comes to an end, whatever it does on the way; and then every call that
was waiting has got the response to its own request, computed by the enclave exactly once, unless a size limit is hit. -/
theorem calls_answered (hr : Reachable P (Sys.start addresses listeners max s0) σ) (hw : Works P σ σ') (hs : Settled P σ')
    (pool : σ'.handles ≠ []) (addrs : ∀ h ∈ σ'.handles, h.address < listeners)
    (room : ∀ l < listeners, σ'.takenByOthers l < max) (k : Nat) (c : Call) (hk : σ.calls[k]? = some c)
    (h0 : c.st = .waiting) (small : c.req.length ≤ maxPayloadSize)
    (smallResp : ∀ e ∈ σ'.processedFor k, e.resp.length ≤ maxPayloadSize) :
    ∃ c' j resp, σ'.calls[k]? = some c' ∧ c'.st = .finished (some resp) ∧ σ'.processedFor k = [⟨j, c.req, resp⟩] := by
  have hr' := hr.trans hw.reachable
  have hc' : ∃ c', σ'.calls[k]? = some c' ∧ c'.req = c.req := by
    clear hs pool addrs room smallResp
    induction hw with
    | refl => exact ⟨c, hk, rfl⟩
    | tail hw' hstep ih =>
      obtain ⟨c1, h1, h2⟩ := ih (hr.trans hw'.reachable)
      obtain ⟨c2, h3, h4⟩ := step_keeps_request hstep.step h1
      exact ⟨c2, h3, h4.trans h2⟩
  obtain ⟨c', h1, h2⟩ := hc'
  have fin := all_calls_return hr' hs pool addrs room c' (List.mem_of_getElem? h1)
  cases hst : c'.st with
  | finished r =>
    cases r with
    | none =>
      rcases call_fails_only_for_size hr hw k c c' hk h0 h1 hst with h | ⟨e, he, h⟩
      · omega
      · have := smallResp e he
        omega
    | some resp =>
      obtain ⟨j, hj⟩ := (call_gets_own_response hr' k c' h1).2 resp hst
      exact ⟨c', j, resp, h1, hst, by rw [← h2]; exact hj⟩
  | _ => rw [hst] at fin; cases fin

end Qos.Net
