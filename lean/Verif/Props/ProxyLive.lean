import Verif.Lemmas.ProxyWork
import Verif.Props.ProxyRuns
/-!
# C83: the proxy does not get stuck

All theorems quantify over every reachable state of the proxy and over everything it may then do by itself
(`Spec/ProxyLive.lean`): all interleavings, all splits of the byte streams, all answers of name servers and outcomes of
connection attempts.
-/
namespace Qos.Proxy
variable {Ip : Type} [DecidableEq Ip] {A : Addresses Ip} {listeners max : Nat} {σ σ' : Sys Ip}

/-- C83: the proxy takes by itself only steps that it can take. -/
theorem work_is_step (h : Relation.ReflTransGen (TimedWork A) σ σ') : Reachable A σ σ' := by
  induction h with
  | refl => exact .refl
  | tail _ hs ih => exact .tail ih hs.step

/-- C83: the proxy never works for ever by itself, with time-outs or without. -/
theorem no_endless_work (f : Nat → Sys Ip) (n : Nat) : ∃ m, n ≤ m ∧ ¬ TimedWork A (f m) (f (m + 1)) := by
  by_contra hc
  have hw : ∀ m, n ≤ m → TimedWork A (f m) (f (m + 1)) := fun m hm => by
    by_contra hx
    exact hc ⟨m, hm, hx⟩
  have key : ∀ (σ : Sys Ip) (m : Nat), n ≤ m → f m = σ → False := by
    intro σ
    induction σ using (timedWork_wf A).induction with
    | _ σ ih =>
      intro m hm e
      exact ih (f (m + 1)) (by rw [← e]; exact hw m hm) (m + 1) (by omega) rfl
  exact key _ n (Nat.le_refl n) rfl

theorem works_timed (h : Relation.ReflTransGen (Work A) σ σ') : Relation.ReflTransGen (TimedWork A) σ σ' := by
  induction h with
  | refl => exact .refl
  | tail _ hs ih => exact .tail ih (.work _ _ hs)

/-- C83: it always comes to rest, with time-outs or without. -/
theorem comes_to_rest (A : Addresses Ip) (σ : Sys Ip) :
    (∃ σ', Relation.ReflTransGen (Work A) σ σ' ∧ Settled (Work A) σ') ∧
    ∃ σ', Relation.ReflTransGen (TimedWork A) σ σ' ∧ Settled (TimedWork A) σ' :=
  ⟨to_settled (Subrelation.wf (fun h => .work _ _ h) (timedWork_wf A)) σ, to_settled (timedWork_wf A) σ⟩

/-! ## The first frame -/

theorem FirstFrame.header {inp req : Bytes} (h : FirstFrame inp req) :
    8 + req.length ≤ inp.length ∧ leNat (inp.take 8) = req.length := by
  refine ⟨h.length, ?_⟩
  obtain ⟨hl, x, hx⟩ := h
  rw [← hx, List.append_assoc, List.take_append_of_le_length (by simp), List.take_of_length_le (by simp)]
  exact Net.small_header hl

theorem FirstFrame.complete {inp req : Bytes} (h : FirstFrame inp req) : ¬ Incomplete inp := by
  obtain ⟨h1, h2⟩ := h.header
  unfold Incomplete
  omega

theorem FirstFrame.not_oversized {inp req : Bytes} (h : FirstFrame inp req) (k : Nat) :
    Net.progress (inp.take k) ≠ .oversized := by
  obtain ⟨h1, h2⟩ := h.header
  have h3 := h.1
  intro e
  unfold Net.progress at e
  by_cases h8 : (inp.take k).length < 8
  · rw [if_pos h8] at e; cases e
  · rw [if_neg h8] at e
    have e8 : (inp.take k).take 8 = inp.take 8 := by
      rw [List.take_take]
      congr 1
      simp at h8
      omega
    rw [e8, h2, if_neg (show ¬ req.length > Stream.maxPayloadSize by
      show ¬ 134217728 < req.length
      omega)] at e
    split at e <;> cases e

theorem more_incomplete {inp : Bytes} {m : Nat} (h : Net.progress inp = .more m) : Incomplete inp := by
  unfold Net.progress at h
  by_cases h8 : inp.length < 8
  · exact .inl h8
  · rw [if_neg h8] at h
    by_cases h9 : leNat (inp.take 8) > Stream.maxPayloadSize
    · rw [if_pos h9] at h; cases h
    · rw [if_neg h9] at h
      have h9' : ¬ 134217728 < leNat (inp.take 8) := h9
      by_cases h10 : inp.length < 8 + leNat (inp.take 8)
      · exact .inr ⟨by omega, h10⟩
      · rw [if_neg h10] at h; cases h

theorem progress_cases (buf : Bytes) :
    (∃ m, 0 < m ∧ Net.progress buf = .more m) ∨ Net.progress buf = .oversized ∨ ∃ req, Net.progress buf = .done req := by
  unfold Net.progress
  by_cases h8 : buf.length < 8
  · rw [if_pos h8]; exact .inl ⟨_, by omega, rfl⟩
  · rw [if_neg h8]
    by_cases h9 : leNat (buf.take 8) > Stream.maxPayloadSize
    · rw [if_pos h9]; exact .inr (.inl rfl)
    · rw [if_neg h9]
      by_cases h10 : buf.length < 8 + leNat (buf.take 8)
      · rw [if_pos h10]; exact .inl ⟨_, by omega, rfl⟩
      · rw [if_neg h10]; exact .inr (.inr ⟨_, rfl⟩)

/-! ## At rest -/

theorem not_done_nil {pending : Bytes} (h : ∀ n, 0 < n → ¬ n ≤ pending.length) : pending = [] := by
  cases hx : pending with
  | nil => rfl
  | cons a l => rw [hx] at h; exact absurd (by simp) (h 1 (by omega))

/-- C83: what is left when the proxy has come to rest. Each session of a listener is in one of four positions: it waits to be
accepted, and then its listener has failed or serves as many sessions as it may; its enclave end is open and has not yet
written a whole request; it has been answered and everything that was written on either side has arrived on the other, with
every end, and not both sides have ended; or it is over. -/
theorem settled_session (hr : Reachable A (Sys.start listeners max) σ) (hs : Settled (Work A) σ) {j : Nat} {s : Session Ip}
    (hj : σ.sessions[j]? = some s) (hl : s.listener < listeners) :
    (s.task = .queued ∧ ((∃ g, σ.gates[s.listener]? = some g ∧ g.running = false) ∨ σ.serving s.listener = max)) ∨
    (s.task.active = true ∧ s.clientOpen = true ∧ Incomplete s.inp ∧ s.queries = [] ∧ s.dials = [] ∧ s.out = []) ∨
    (s.task.active = true ∧ (∃ t, s.tcp = some t) ∧ ∃ req m, FirstFrame s.inp req ∧
      Trail A (fun r key => σ.built[r]? = some key) req s.queries s.dials (some m) ∧
      (msgCodec.enc m).length ≤ 134217728 ∧ Served s req m) ∨
    ∃ ok, s.task = .closed ok := by
  have hlt : s.listener < σ.gates.length := by rw [gates_length hr]; exact hl
  obtain ⟨g, hg⟩ : ∃ g, σ.gates[s.listener]? = some g := ⟨_, List.getElem?_eq_getElem hlt⟩
  have hsys := sysInv_reachable hr
  have hst := hsys.sessions j s hj
  have htold := (liveInv_reachable hr j s hj).1
  have nw : ∀ s', ¬ LocalWork A s s' := fun s' h => hs _ (.session σ j s s' hj h)
  obtain ⟨h0, hst⟩ := hst
  match ht : s.task with
  | .queued =>
    refine .inl ⟨rfl, ?_⟩
    by_cases hrun : g.running = true
    · right
      by_cases hh : g.held = true
      · exact absurd (Work.accept σ _ j g s hg hrun hh hj rfl ht) (hs _)
      · have hf : g.held = false := by simpa using hh
        have hb := gateInv_reachable hr _ g hg
        have hp : g.permits = 0 := by
          cases hp : g.permits with
          | zero => rfl
          | succ n => exact absurd (Work.permit σ _ n g hg hrun hf hp) (hs _)
        rw [hf, hp] at hb
        show σ.sessions.countP (servedBy s.listener) = max
        simpa using hb
    · exact .inl ⟨g, hg, by simpa using hrun⟩
  | .reading buf =>
    rw [ht] at hst
    obtain ⟨hb, hbuf, hfit⟩ := hst
    rcases progress_cases buf with ⟨m, hm, hp⟩ | hp | ⟨req, hp⟩
    · have hall : s.inpRead = s.inp.length := by
        by_contra hne
        exact nw _ (.read s buf 1 m ht hp (by omega) hm (by omega))
      have hopen : s.clientOpen = true := by
        by_contra hc
        exact hs _ (.giveUp σ j s g hj (.hangup buf m ht hp (by simpa using hc) (by omega)) hg)
      have e : buf = s.inp := by rw [hbuf, hall, List.take_length]
      rw [e] at hp
      exact .inr (.inl ⟨rfl, hopen, more_incomplete hp, hb.1, hb.2.1, hb.2.2.2.2⟩)
    · exact absurd (Work.giveUp σ j s g hj (.oversized buf ht hp) hg) (hs _)
    · exact absurd (LocalWork.receive s buf req ht hp) (nw _)
  | .received req => exact absurd (LocalWork.dispatch s req ht) (nw _)
  | .seeking hn p key =>
    cases hc : σ.cache.lookup key with
    | none => exact absurd (Work.missing σ j s hn p key hj ht hc) (hs _)
    | some r => exact absurd (Work.found σ j r s hn p key hj ht hc) (hs _)
  | .building hn p key => exact absurd (Work.insert σ j s hn p key hj ht) (hs _)
  | .querying hn p r => exact absurd (LocalWork.query s hn "" p r none ht) (nw _)
  | .dialing text a p => exact absurd (LocalWork.connected s text a p ht) (nw _)
  | .replying m =>
    by_cases hm : (msgCodec.enc m).length ≤ Stream.maxPayloadSize
    · exact absurd (LocalWork.reply s m ht hm) (nw _)
    · exact absurd (Work.giveUp σ j s g hj (.tooLong m ht (by omega)) hg) (hs _)
  | .writing [] =>
    cases hh : s.held with
    | true => exact absurd (LocalWork.answered s ht hh) (nw _)
    | false => exact absurd (Work.missingConnection σ j s g hj ht hh hg) (hs _)
  | .writing (b :: rest) => exact absurd (LocalWork.write s _ 1 ht (by omega) (by simp)) (nw _)
  | .closed ok => exact .inr (.inr (.inr ⟨ok, rfl⟩))
  | .piping up down =>
    rw [ht] at hst
    unfold Told at htold
    rw [ht] at htold
    obtain ⟨req, m, t, h2, ⟨h3, h3'⟩, h4, h5, h6, ⟨h7, h8, h9⟩, h10, h11, h12, h13⟩ := hst
    have hup : up.pending = [] := not_done_nil fun n a b => nw _ (.upWrite s up down t n ht h6 a b)
    have hdp : down.pending = [] := not_done_nil fun n a b => nw _ (.downWrite s up down n ht a b)
    have hread : s.inpRead = s.inp.length := by
      cases he : up.eof with
      | true => exact (h8 he).2
      | false =>
        by_contra hne
        exact nw _ (.upRead s up down 1 ht he (by omega) (by omega))
    have htaken : t.taken = t.incoming.length := by
      cases he : down.eof with
      | true => exact (h12 he).2
      | false =>
        by_contra hne
        exact nw _ (.downRead s up down t 1 ht he h6 (by omega) (by omega))
    have hud : s.clientOpen = false → up.done = true := by
      intro hc
      have he : up.eof = true := by
        by_contra hne
        exact nw _ (.upEof s up down ht (by simpa using hne) hc hread)
      by_contra hne
      exact nw _ (.upDone s up down t ht (by simpa using hne) he hup h6)
    have hdd : t.remoteOpen = false → down.done = true := by
      intro hc
      have he : down.eof = true := by
        by_contra hne
        exact nw _ (.downEof s up down t ht (by simpa using hne) h6 hc htaken)
      by_contra hne
      exact nw _ (.downDone s up down ht (by simpa using hne) he hdp)
    rw [hup, List.append_nil, hread, List.take_length] at h7
    rw [hdp, List.append_nil, htaken, List.take_length] at h11
    refine .inr (.inr (.inl ⟨rfl, ⟨t, h6⟩, req, m, h2, h4.mono fun r k hk => hsys.built k r hk, h3', .inr ⟨h5.2.mp (by rw [h6]; rfl), t, h6, h11, h7, ?_, ?_, ?_⟩⟩))
    · intro hc
      obtain ⟨t', e, f⟩ := htold.1 (hud hc)
      rw [h6] at e; cases e
      exact f
    · exact fun hc => htold.2 (hdd hc)
    · exact fun a b => absurd (Work.finish σ j s up down g hj ht (hud a) (hdd b) hg) (hs _)

/-! ## From a request to its answer -/

theorem Answered.mono {config config' : Nat → Key Ip → Prop} (hc : ∀ r k, config r k → config' r k) {s : Session Ip}
    {req : Bytes} (h : Answered A config s req) : Answered A config' s req := by
  obtain ⟨m, h1, h2⟩ := h
  exact ⟨m, h1.mono hc, h2⟩

theorem LocalWork.keeps {s s' : Session Ip} (h : LocalWork A s s') :
    s'.inp = s.inp ∧ s'.clientOpen = s.clientOpen ∧ (∀ ok, s.task ≠ .closed ok) ∧ ∀ ok, s'.task ≠ .closed ok := by
  have act : ∀ {t : Task Ip}, t.active = true → ∀ ok, t ≠ .closed ok := by
    intro t h ok e
    rw [e] at h
    cases h
  have key : ∀ {s s' : Session Ip}, Local A s s' → s.task.active = true → s'.inp = s.inp → s'.clientOpen = s.clientOpen →
      s'.inp = s.inp ∧ s'.clientOpen = s.clientOpen ∧ (∀ ok, s.task ≠ .closed ok) ∧ ∀ ok, s'.task ≠ .closed ok :=
    fun hl ha e1 e2 => ⟨e1, e2, act ha, act (by rw [hl.keeps.2.1]; exact ha)⟩
  have hl := h.step
  cases h with
  | read buf n m h1 h2 => exact key hl (by rw [h1]; rfl) rfl rfl
  | receive buf req h1 h2 => exact key hl (by rw [h1]; rfl) rfl rfl
  | dispatch req h1 => exact key hl (by rw [h1]; rfl) rfl rfl
  | buildFailed hn text p k h1 => exact key hl (by rw [h1]; rfl) rfl rfl
  | query hn text p r a h1 => exact key hl (by rw [h1]; rfl) rfl rfl
  | connected text a p h1 => exact key hl (by rw [h1]; rfl) rfl rfl
  | refused text e a p h1 => exact key hl (by rw [h1]; rfl) rfl rfl
  | reply m h1 h2 => exact key hl (by rw [h1]; rfl) rfl rfl
  | write rest n h1 h2 => exact key hl (by rw [h1]; rfl) rfl rfl
  | answered h1 h2 => exact key hl (by rw [h1]; rfl) rfl rfl
  | upRead u d n h1 h2 => exact key hl (by rw [h1]; rfl) rfl rfl
  | upWrite u d t n h1 h2 => exact key hl (by rw [h1]; rfl) rfl rfl
  | upEof u d h1 h2 => exact key hl (by rw [h1]; rfl) rfl rfl
  | upDone u d t h1 h2 => exact key hl (by rw [h1]; rfl) rfl rfl
  | downRead u d t n h1 h2 => exact key hl (by rw [h1]; rfl) rfl rfl
  | downWrite u d n h1 h2 => exact key hl (by rw [h1]; rfl) rfl rfl
  | downEof u d t h1 h2 => exact key hl (by rw [h1]; rfl) rfl rfl
  | downDone u d h1 h2 => exact key hl (by rw [h1]; rfl) rfl rfl

/-- A session that had not ended and has a request: where it can be after some work. -/
def OnTheWay (A : Addresses Ip) (req inp : Bytes) (opened : Bool) (l j : Nat) (σ : Sys Ip) : Prop :=
  ∃ s, σ.sessions[j]? = some s ∧ s.inp = inp ∧ s.clientOpen = opened ∧ s.listener = l ∧
    ((∀ ok, s.task ≠ .closed ok) ∨ (∃ ok, s.task = .closed ok) ∧ Answered A (fun r key => σ.built[r]? = some key) s req)

theorem Work.onTheWay (hr : Reachable A (Sys.start listeners max) σ) {req inp : Bytes} {opened : Bool} {l j : Nat}
    (hf : FirstFrame inp req) (h : OnTheWay A req inp opened l j σ) (hw : Work A σ σ') : OnTheWay A req inp opened l j σ' := by
  obtain ⟨s, hj, e1, e2, e3, hs⟩ := h
  have hsys := sysInv_reachable hr
  -- another session moves, or this one does
  have move : ∀ {i : Nat} {x x' : Session Ip}, σ.sessions[i]? = some x → σ'.sessions = σ.sessions.set i x' →
      (∀ (r : Nat) (key : Key Ip), σ.built[r]? = some key → σ'.built[r]? = some key) →
      (i = j → x = s → x'.inp = s.inp ∧ x'.clientOpen = s.clientOpen ∧ x'.listener = s.listener ∧
        ((∀ ok, x'.task ≠ .closed ok) ∨ (∃ ok, x'.task = .closed ok) ∧ Answered A (fun r key => σ'.built[r]? = some key) x' req)) →
      OnTheWay A req inp opened l j σ' := by
    intro i x x' hi he hb hx
    by_cases hij : i = j
    · subst hij
      rw [hj] at hi
      cases hi
      obtain ⟨a, b, c, d⟩ := hx rfl rfl
      exact ⟨x', by rw [he]; exact Net.set_get hj, a.trans e1, b.trans e2, c.trans e3, d⟩
    · refine ⟨s, by rw [he, Net.set_get_ne hij]; exact hj, e1, e2, e3, ?_⟩
      rcases hs with hs | ⟨hs, ha⟩
      · exact .inl hs
      · exact .inr ⟨hs, ha.mono hb⟩
  have hm : ∀ r k, σ.cached r k → σ.built[r]? = some k := fun r k hk => hsys.built k r hk
  cases hw with
  | permit l' n g h1 h2 h3 h4 => exact ⟨s, hj, e1, e2, e3, hs⟩
  | accept l' i g x h1 h2 h3 h4 h5 h6 =>
    exact move h4 rfl (fun _ _ h => h) fun _ e => ⟨by rw [← e], by rw [← e], by rw [← e], .inl (fun ok h => by cases h)⟩
  | session i x x' h1 h2 =>
    refine move h1 rfl (fun _ _ h => h) fun _ e => ?_
    subst e
    obtain ⟨a, b, _, c⟩ := h2.keeps
    exact ⟨a, b, h2.step.keeps.1, .inl c⟩
  | found i r x hn p k h1 h2 h3 =>
    exact move h1 rfl (fun _ _ h => h) fun _ e => ⟨by rw [← e], by rw [← e], by rw [← e], .inl (fun ok h => by cases h)⟩
  | missing i x hn p k h1 h2 h3 =>
    exact move h1 rfl (fun _ _ h => h) fun _ e => ⟨by rw [← e], by rw [← e], by rw [← e], .inl (fun ok h => by cases h)⟩
  | insert i x hn p k h1 h2 =>
    refine move (x' := { x with task := .querying hn p (σ.insertResolver k).2 }) h1
      (by simp only [Sys.setSession, (insertResolver_sessions σ k).1]) (fun r key h => ?_)
      fun _ e => ⟨by rw [← e], by rw [← e], by rw [← e], .inl (fun ok h => by cases h)⟩
    show (σ.insertResolver k).1.built[r]? = _
    unfold Sys.insertResolver
    split <;> exact Net.snoc_get h
  | finish i x u d g h1 h2 h3 h4 h5 =>
    refine move h1 rfl (fun _ _ h => h) fun _ e => ?_
    subst e
    refine ⟨rfl, rfl, rfl, .inr ⟨⟨true, rfl⟩, ?_⟩⟩
    obtain ⟨_, hst⟩ := hsys.sessions i x h1
    have htold := (liveInv_reachable hr i x h1).1
    rw [h2] at hst
    unfold Told at htold
    rw [h2] at htold
    obtain ⟨req', m, t, f2, ⟨f3, f3'⟩, f4, f5, f6, ⟨f7, f8, f9⟩, f10, f11, f12, f13⟩ := hst
    obtain ⟨a1, a2⟩ := f9 h3
    obtain ⟨b1, b2⟩ := f13 h4
    obtain ⟨c1, c2⟩ := f8 a1
    obtain ⟨d1, d2⟩ := f12 b1
    have er := FirstFrame.unique f2 (e1 ▸ hf)
    subst er
    rw [a2, List.append_nil, c2, List.take_length] at f7
    rw [b2, List.append_nil, d2, List.take_length] at f11
    refine ⟨m, f4.mono hm, ?_⟩
    rw [if_pos f3']
    refine .inr ⟨f5.2.mp (by rw [f6]; rfl), t, f6, f11, f7, fun _ => ?_, fun _ => htold.2 h4, fun _ _ => rfl⟩
    obtain ⟨t', e, f⟩ := htold.1 h3
    rw [f6] at e; cases e
    exact f
  | missingConnection i x g h1 h2 h3 h4 =>
    refine move h1 rfl (fun _ _ h => h) fun _ e => ?_
    subst e
    refine ⟨rfl, rfl, rfl, .inr ⟨⟨false, rfl⟩, ?_⟩⟩
    obtain ⟨_, hst⟩ := hsys.sessions i x h1
    rw [h2] at hst
    obtain ⟨req', m, f1, f2, f3, f4, f5, f6⟩ := hst
    have er := FirstFrame.unique f1.1 (e1 ▸ hf)
    subst er
    have hno : ¬ ∃ d ∈ x.dials, d.connected = true := fun hd => by
      have := f3.1.mpr hd
      rw [h3] at this
      cases this
    have htcp : x.tcp = none := by
      cases ht : x.tcp with
      | none => rfl
      | some t => exact absurd (f3.2.mp (by rw [ht]; rfl)) hno
    rw [List.append_nil] at f6
    refine ⟨m, f2.mono hm, ?_⟩
    rw [if_pos f5]
    exact .inl ⟨fun d hd => by
      by_contra hc
      exact hno ⟨d, hd, by simpa using hc⟩, htcp, rfl, f6⟩
  | giveUp i x g h1 h2 h3 =>
    refine move h1 rfl (fun _ _ h => h) fun _ e => ?_
    subst e
    refine ⟨rfl, rfl, rfl, .inr ⟨⟨false, rfl⟩, ?_⟩⟩
    obtain ⟨f0, hst⟩ := hsys.sessions i x h1
    have hf' : FirstFrame x.inp req := e1 ▸ hf
    cases h2 with
    | oversized buf g1 g2 =>
      rw [g1] at hst
      rw [hst.2.1] at g2
      exact absurd g2 (hf'.not_oversized _)
    | hangup buf m g1 g2 g3 g4 =>
      rw [g1] at hst
      have : x.inpRead = x.inp.length := by omega
      have e : buf = x.inp := by rw [hst.2.1, this, List.take_length]
      rw [e] at g2
      exact absurd (more_incomplete g2) hf'.complete
    | tooLong m g1 g2 =>
      rw [g1] at hst
      obtain ⟨k1, req', k2, k3, k4, k5⟩ := hst
      have er := FirstFrame.unique k2.1 hf'
      subst er
      refine ⟨m, k3.mono hm, ?_⟩
      rw [if_neg (show ¬ (msgCodec.enc m).length ≤ 134217728 by
        have : 134217728 < (msgCodec.enc m).length := g2
        omega)]
      exact ⟨rfl, k1⟩

/-- C83: every request is answered. Whatever the state, a session that has not ended and on whose connection a whole request
has been written: however the proxy goes on by itself, it comes to rest, and then the session has been answered, or it still
waits to be accepted by a listener that has failed or serves as many sessions as it may. -/
theorem every_request_is_answered (hr : Reachable A (Sys.start listeners max) σ) {j : Nat} {s : Session Ip}
    (hj : σ.sessions[j]? = some s) (hl : s.listener < listeners) (hopen : ∀ ok, s.task ≠ .closed ok) {req : Bytes}
    (hf : FirstFrame s.inp req) (hw : Relation.ReflTransGen (Work A) σ σ') (hs : Settled (Work A) σ') :
    ∃ s', σ'.sessions[j]? = some s' ∧ s'.inp = s.inp ∧ s'.clientOpen = s.clientOpen ∧
      ((s'.task = .queued ∧ ((∃ g, σ'.gates[s.listener]? = some g ∧ g.running = false) ∨ σ'.serving s.listener = max)) ∨
       Answered A (fun r key => σ'.built[r]? = some key) s' req) := by
  have key : Reachable A (Sys.start listeners max) σ' ∧ OnTheWay A req s.inp s.clientOpen s.listener j σ' := by
    clear hs
    induction hw with
    | refl => exact ⟨hr, s, hj, rfl, rfl, rfl, .inl hopen⟩
    | tail _ hs ih => exact ⟨ih.1.tail hs.step, hs.onTheWay ih.1 hf ih.2⟩
  obtain ⟨hr', s', hj', e1, e2, e3, h⟩ := key
  refine ⟨s', hj', e1, e2, ?_⟩
  rcases h with h | ⟨_, h⟩
  · rcases settled_session hr' hs hj' (by rw [e3]; exact hl) with q | q | q | ⟨ok, q⟩
    · rw [e3] at q; exact .inl q
    · rw [e1] at q; exact absurd q.2.2.1 hf.complete
    · obtain ⟨_, _, req', m, q1, q2, q3, q4⟩ := q
      have er := FirstFrame.unique q1 (e1 ▸ hf)
      subst er
      exact .inr ⟨m, q2, by rw [if_pos q3]; exact q4⟩
    · exact absurd q (h ok)
  · exact .inr h

/-- C83: with the time-out nobody waits for ever: a proxy that may serve at least one session per listener, and whose
listeners have not failed, comes to rest only when every session has been accepted and is over. -/
theorem everybody_is_served (hr : Reachable A (Sys.start listeners max) σ) (hm : 0 < max)
    (running : ∀ g ∈ σ.gates, g.running = true) (hs : Settled (TimedWork A) σ) {s : Session Ip} (hj : s ∈ σ.sessions)
    (hl : s.listener < listeners) : ∃ ok, s.task = .closed ok := by
  obtain ⟨j, hj⟩ := List.mem_iff_getElem?.mp hj
  have idle : ∀ (i : Nat) (x : Session Ip), σ.sessions[i]? = some x → x.task.active = false := by
    intro i x hi
    by_contra hc
    have hc : x.task.active = true := by simpa using hc
    have hx := (liveInv_reachable hr i x hi).2 hc
    exact hs _ (.timeout σ i x _ hi hc (List.getElem?_eq_getElem hx))
  have hi := idle j s hj
  rcases settled_session hr (fun σ' h => hs _ (.work _ _ h)) hj hl with ⟨_, q⟩ | q | q | q
  · rcases q with ⟨g, hg, q⟩ | q
    · rw [running g (List.mem_of_getElem? hg)] at q; cases q
    · have : σ.sessions.countP (servedBy s.listener) = 0 := by
        rw [List.countP_eq_zero]
        intro x hx
        obtain ⟨i, hx⟩ := List.mem_iff_getElem?.mp hx
        simp [servedBy, idle i x hx]
      have q : σ.sessions.countP (servedBy s.listener) = max := q
      omega
  · rw [hi] at q; cases q.1
  · rw [hi] at q; cases q.1
  · exact q

end Qos.Proxy
