import Verif.Lemmas.NetOpen
import Verif.Props.Net
/-!
# C82: calls do not get stuck

`Spec/NetLive.lean` says which steps the system takes by itself (`Work`). There is no endless work, and when there is
nothing left to do every call has returned, provided that other clients leave at least one permit of each listener.

Concrete cases: `Props/NetLiveRun.lean`.
-/
namespace Qos.Net
open Stream (frame wire maxPayloadSize)

variable {S : Type} {P : Processor S} {addresses : List Nat} {listeners max : Nat} {s0 : S} {σ σ' : Sys S}

theorem start_open : OpenInv (Sys.start addresses listeners max s0) := fun j d k c h => by simp [Sys.start] at h
theorem start_addr : AddrInv (Sys.start addresses listeners max s0) := fun j d k h => by simp [Sys.start] at h

/-- C82: the system takes only steps that it could take anyway. -/
theorem work_is_step (h : Work P σ σ') : Step P σ σ' := h.step

/-- C82: no run works for ever by itself: in an infinite run, again and again something comes from outside (a new call,
another client's doing, a failure) or nothing happens at all. -/
theorem no_endless_work (P : Processor S) (f : Nat → Sys S) : ∀ n, ∃ m, n ≤ m ∧ ¬ Work P (f m) (f (m + 1)) := by
  intro n
  by_contra hc
  have hw : ∀ m, n ≤ m → Work P (f m) (f (m + 1)) := fun m hm => by
    by_contra hx
    exact hc ⟨m, hm, hx⟩
  have key : ∀ σ : Sys S, ∀ m, n ≤ m → f m = σ → False := by
    intro σ
    induction σ using (work_wf P).induction with
    | _ σ ih =>
      intro m hm he
      exact ih (f (m + 1)) (he ▸ hw m hm) (m + 1) (by omega) rfl
  exact key (f n) n (Nat.le_refl n) rfl

theorem progress_more_pos {buf : Bytes} {m : Nat} (h : progress buf = .more m) : 0 < m := by
  unfold progress at h
  split at h
  · injection h with h; omega
  · split at h
    · cases h
    · split at h
      · injection h with h; omega
      · cases h

/-- A served connection in a settled state: its task waits for the next request of a client that is still there. -/
theorem settled_conn (hr : Reachable P (Sys.start addresses listeners max s0) σ) (hs : Settled P σ) {j : Nat} {d : Conn S}
    {g : Gate} (hj : σ.conns[j]? = some d) (hg : σ.gates[d.listener]? = some g) (ha : d.serve.active = true) :
    ∃ buf m, d.serve = .reading buf ∧ progress buf = .more m ∧ d.inp.length ≤ d.inpRead ∧ d.clientOpen = true := by
  have lk := lockInv_reachable start_lock hr
  cases hd : d.serve with
  | queued => rw [hd] at ha; cases ha
  | closed => rw [hd] at ha; cases ha
  | reading buf =>
    cases hp : progress buf with
    | more m =>
      have hm := progress_more_pos hp
      have hread : d.inp.length ≤ d.inpRead := by
        by_contra hc
        exact hs _ (.serverRead σ j 1 m d buf hj hd hp (by omega) (by omega) (by omega))
      refine ⟨buf, m, rfl, hp, hread, ?_⟩
      cases ho : d.clientOpen with
      | true => rfl
      | false => exact absurd (Work.hangup σ j m d buf g hj hd hp ho hread hg) (hs _)
    | oversized => exact absurd (Work.refuse σ j d buf g hj hd hp hg) (hs _)
    | done req => exact absurd (Work.serverReceived σ j d buf req hj hd hp) (hs _)
  | received req =>
    cases hdir : P.direct req with
    | some resp => exact absurd (Work.answerDirect σ j d req resp hj hd hdir) (hs _)
    | none =>
      cases hl : σ.lock with
      | none => exact absurd (Work.lock σ j d req hj hd hdir hl) (hs _)
      | some i =>
        obtain ⟨c, a, b, s', h1, h2⟩ := lk i hl
        exact absurd (Work.unlock σ i c a b s' h1 h2) (hs _)
  | handling req resp s' => exact absurd (Work.unlock σ j d req resp s' hj hd) (hs _)
  | replying resp =>
    by_cases hl : resp.length ≤ maxPayloadSize
    · exact absurd (Work.replyBegin σ j d resp hj hd hl) (hs _)
    · exact absurd (Work.refuseReply σ j d resp g hj hd (by omega) hg) (hs _)
  | writing rest =>
    cases rest with
    | nil => exact absurd (Work.serverNext σ j d hj hd) (hs _)
    | cons b rest => exact absurd (Work.serverWrite σ j 1 d (b :: rest) hj hd (by omega) (by simp)) (hs _)

/-- A call in a settled state waits for a stream or for a response, or has returned. -/
theorem settled_call (hr : Reachable P (Sys.start addresses listeners max s0) σ) (hs : Settled P σ) {k : Nat} {c : Call}
    (hk : σ.calls[k]? = some c) :
    c.st = .waiting ∨ (∃ i j buf m, c.st = .receiving i j buf ∧ progress buf = .more m) ∨ c.st.isFinished = true := by
  have ok := (clientInv_reachable start_client hr).ok k c hk
  cases hst : c.st with
  | waiting => exact .inl rfl
  | got i =>
    rw [hst] at ok
    obtain ⟨⟨a, ha⟩, _⟩ := ok
    exact absurd (Work.connect σ k i c _ hk hst ha) (hs _)
  | ready i j =>
    by_cases hl : c.req.length ≤ maxPayloadSize
    · exact absurd (Work.begin σ k i j c hk hst hl) (hs _)
    · exact absurd (Work.tooLong σ k i j c hk hst (by omega)) (hs _)
  | sending i j rest =>
    rw [hst] at ok
    obtain ⟨_, _, ⟨d, hd, _⟩, _⟩ := ok
    cases rest with
    | nil => exact absurd (Work.await σ k i j c hk hst) (hs _)
    | cons b rest => exact absurd (Work.write σ k i j 1 c d (b :: rest) hk hst hd (by omega) (by simp)) (hs _)
  | receiving i j buf =>
    refine .inr (.inl ⟨i, j, buf, ?_⟩)
    cases hp : progress buf with
    | more m => exact ⟨m, rfl, rfl⟩
    | oversized => exact absurd (Work.badReply σ k i j c buf hk hst hp) (hs _)
    | done r => exact absurd (Work.finish σ k i j c buf r hk hst hp) (hs _)
  | finished r => exact .inr (.inr rfl)

/-- A call that waits for a response in a settled state waits because its connection has not been accepted. -/
theorem settled_receiving (hr : Reachable P (Sys.start addresses listeners max s0) σ) (hs : Settled P σ) {k i j m : Nat}
    {c : Call} {buf : Bytes} (hk : σ.calls[k]? = some c) (hst : c.st = .receiving i j buf) (hp : progress buf = .more m)
    {d : Conn S} {g : Gate} (hj : σ.conns[j]? = some d) (hg : σ.gates[d.listener]? = some g) : d.serve = .queued := by
  have ok := (clientInv_reachable start_client hr).ok k c hk
  have sv := (serverInv_reachable start_server hr).conn j d hj
  rw [hst] at ok
  obtain ⟨_, hl, _, ⟨d0, e1, _, hinp, hle, hbuf⟩, _⟩ := ok
  rw [hj] at e1
  injection e1 with e1
  subst e1
  have hall : d.out.length ≤ d.outRead := by
    by_contra hc
    have := progress_more_pos hp
    exact hs _ (.read σ k i j 1 m c d buf hk hst hj hp (by omega) (by omega) (by omega))
  by_cases ha : d.serve.active = true
  · exfalso
    obtain ⟨buf', m', h1, h2, h3, h4⟩ := settled_conn hr hs hj hg ha
    cases sv with
    | reading b g1 g2 g3 g4 g5 g6 g7 =>
      rw [h1] at g1
      injection g1 with g1
      subst g1
      rw [List.take_of_length_le h3, hinp] at g4
      rcases wire_in_frame g6 hl ⟨buf', g4.symm⟩ with he | he
      · rw [he] at g4
        have : buf' = frame c.req := by simpa [wire] using g4.symm
        rw [this, progress_frame hl] at h2
        cases h2
      · obtain ⟨resp, hes⟩ := onConn_single he
        rw [hes] at g5 g7
        have hout : d.out = frame resp := by rw [g5]; exact wire_single resp
        rw [List.take_of_length_le hall, hout] at hbuf
        rw [← hbuf, progress_frame (g7 resp (by simp))] at hp
        cases hp
    | queued g1 => rw [h1] at g1; cases g1
    | received r g1 => rw [h1] at g1; rcases g1 with g1 | ⟨_, _, g1⟩ <;> cases g1
    | replying e0 e g1 => rw [h1] at g1; cases g1
    | writing r g1 => rw [h1] at g1; cases g1
    | closed n g1 => rw [h1] at g1; cases g1
  · cases hd : d.serve with
    | queued => rfl
    | closed => exact absurd (Work.eof σ k i j m c d buf hk hst hj hp hd hall) (hs _)
    | _ => rw [hd] at ha; exact absurd rfl ha

/-- No connection of the pool takes a permit in a settled state. -/
theorem settled_pool_conn (hr : Reachable P (Sys.start addresses listeners max s0) σ) (hs : Settled P σ) {j k : Nat}
    {d : Conn S} {g : Gate} (hj : σ.conns[j]? = some d) (ho : d.opener = some k) (hg : σ.gates[d.listener]? = some g) :
    d.serve.active = false := by
  by_contra hc
  have ha : d.serve.active = true := by simpa using hc
  have ci := clientInv_reachable start_client hr
  obtain ⟨buf, m, _, _, _, h4⟩ := settled_conn hr hs hj hg ha
  have hlt := ci.openers j d k hj ho
  have hk := List.getElem?_eq_getElem hlt
  have ok := ci.ok k _ hk
  have op := openInv_reachable start_client start_open hr j d k _ hj ho hk
  rcases settled_call hr hs hk with hst | ⟨i, j', b, m', hst, hp⟩ | hf
  · rw [hst] at ok
    exact ok j d hj ho
  · rw [hst] at ok
    have hjj := ok.2.2.2.only j d hj ho
    subst hjj
    rw [settled_receiving hr hs hk hst hp hj hg] at ha
    cases ha
  · rw [hf, h4] at op
    cases op

/-- C82: when there is nothing left to do, every call has returned: in every reachable state in which the system can do
no more by itself, if the pool has a stream, all its addresses are listened on, and other clients take fewer than all the
permits of each listener, no call is under way. -/
theorem all_calls_return (hr : Reachable P (Sys.start addresses listeners max s0) σ) (hs : Settled P σ)
    (pool : σ.handles ≠ []) (addrs : ∀ h ∈ σ.handles, h.address < listeners)
    (room : ∀ l < listeners, σ.takenByOthers l < max) : ∀ c ∈ σ.calls, c.st.isFinished = true := by
  have ci := clientInv_reachable start_client hr
  -- no call waits for a response
  have norecv : ∀ (k : Nat) (c : Call) (i j m : Nat) (buf : Bytes), σ.calls[k]? = some c → c.st = .receiving i j buf →
      progress buf = .more m → False := by
    intro k c i j m buf hk hst hp
    have ok := ci.ok k c hk
    rw [hst] at ok
    obtain ⟨_, _, _, ⟨d, hj, ho, _⟩, _⟩ := ok
    obtain ⟨x, h, hx, hxa⟩ := addrInv_reachable start_addr hr j d k hj ho
    have hl : d.listener < listeners := hxa ▸ addrs h (List.mem_of_getElem? hx)
    obtain ⟨g, hg, sum⟩ := permits_add_up hr d.listener hl
    have hq := settled_receiving hr hs hk hst hp hj hg
    have hheld : g.held = false := by
      by_contra hc
      exact hs _ (.accept σ d.listener j g d hg (by simpa using hc) hj rfl hq)
    have hper : g.permits = 0 := by
      by_contra hc
      exact hs _ (.permit σ d.listener g (g.permits - 1) hg hheld (by omega))
    rw [hheld, hper] at sum
    have heq : σ.serving d.listener = σ.takenByOthers d.listener := by
      unfold Sys.serving Sys.takenByOthers
      apply List.countP_congr
      intro e he
      obtain ⟨n, hn⟩ := List.getElem?_of_mem he
      by_cases hel : e.listener = d.listener
      · cases hop : e.opener with
        | none => simp
        | some k' =>
          have := settled_pool_conn hr hs hn hop (hel ▸ hg)
          simp [this]
      · simp [hel]
    have := room d.listener hl
    simp at sum
    omega
  intro c hc
  obtain ⟨k, hk⟩ := List.getElem?_of_mem hc
  rcases settled_call hr hs hk with hst | ⟨i, j, buf, m, hst, hp⟩ | hf
  · exfalso
    obtain ⟨h, hs', hh⟩ := List.exists_cons_of_ne_nil pool
    have h0 : σ.handles[0]? = some h := by rw [hh]; rfl
    cases ho : h.holder with
    | none => exact hs _ (.get σ k 0 c h hk hst h0 ho)
    | some k' =>
      obtain ⟨c', g1, g2⟩ := ci.held 0 h k' h0 ho
      rcases settled_call hr hs g1 with q | ⟨i, j, buf, m, q, hp⟩ | q
      · rw [q] at g2; cases g2
      · exact norecv k' c' i j m buf g1 q hp
      · cases hst' : c'.st with
        | finished r => rw [hst'] at g2; cases g2
        | _ => rw [hst'] at q; cases q
  · exact (norecv k c i j m buf hk hst hp).elim
  · exact hf

end Qos.Net
