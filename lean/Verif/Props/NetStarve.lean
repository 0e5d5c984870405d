import Verif.Props.NetLiveRun
/-!
# C82: calls left alone are answered; idle connections of others can starve them
-/
namespace Qos.Net
open Stream (frame wire maxPayloadSize)

variable {S : Type} {P : Processor S} {addresses : List Nat} {listeners max : Nat} {s0 : S} {σ σ' : Sys S}

/-! ## Work opens no connection for others and keeps the pool -/

theorem map_set_same {α β : Type} {f : α → β} {l : List α} {i : Nat} {a b : α} (h : l[i]? = some b) (he : f a = f b) :
    (l.set i a).map f = l.map f := by
  apply List.ext_getElem?
  intro j
  rw [List.getElem?_map, List.getElem?_map]
  by_cases hij : i = j
  · subst hij
    rw [set_get h, h]
    simp [he]
  · rw [set_get_ne hij]

theorem release_handles (σ : Sys S) (st : CallSt) :
    (σ.release st).handles.map (·.address) = σ.handles.map (·.address) := by
  unfold Sys.release
  split
  · rfl
  · split
    · rfl
    · rename_i i _ _ g hg
      have e : ((σ.setHandle i g.dropGuard).closeIfDropped g g.dropGuard).handles = σ.handles.set i g.dropGuard := by
        unfold Sys.closeIfDropped
        split
        · rfl
        · split
          · rfl
          · split <;> rfl
      rw [e]
      exact map_set_same hg rfl

theorem Work.keepsAddresses (h : Work P σ σ') : σ'.handles.map (·.address) = σ.handles.map (·.address) := by
  cases h with
  | get k i c g h1 h2 h3 h4 => exact map_set_same (f := Handle.address) h3 rfl
  | connect k i c g h1 h2 h3 =>
    unfold Sys.connectCall
    split
    · rfl
    · exact map_set_same (f := Handle.address) h3 rfl
  | tooLong k i j c h1 h2 h3 => exact release_handles σ c.st
  | finish k i j c buf resp h1 h2 h3 => exact release_handles σ c.st
  | badReply k i j c buf h1 h2 h3 => exact release_handles σ c.st
  | eof k i j m c d buf h1 h2 h3 h4 h5 h6 => exact release_handles σ c.st
  | _ => rfl

theorem Works.keepsAddresses (h : Works P σ σ') : σ'.handles.map (·.address) = σ.handles.map (·.address) := by
  induction h with
  | refl => rfl
  | tail _ hw ih => rw [hw.keepsAddresses, ih]

/-- The connections to a listener that other clients have opened. -/
def foreign (l : Nat) (d : Conn S) : Bool := d.listener = l && d.opener.isNone

theorem foreign_set {cs : List (Conn S)} {j l : Nat} {d d' : Conn S} (hd : cs[j]? = some d) (h1 : d'.opener = d.opener)
    (h2 : d'.listener = d.listener) : (cs.set j d').countP (foreign l) = cs.countP (foreign l) := by
  have := countP_set (foreign l) cs j d' d hd
  have e : foreign l d' = foreign l d := by simp only [foreign, h1, h2]
  rw [e] at this
  omega

theorem foreign_release (σ : Sys S) (st : CallSt) (l : Nat) :
    (σ.release st).conns.countP (foreign l) = σ.conns.countP (foreign l) := by
  unfold Sys.release
  split
  · rfl
  · split
    · rfl
    · unfold Sys.closeIfDropped
      split
      · rfl
      · split
        · rfl
        · split
          · rfl
          · rename_i c hc
            exact foreign_set hc rfl rfl

theorem Work.foreign (h : Work P σ σ') (l : Nat) : σ'.conns.countP (foreign l) = σ.conns.countP (foreign l) := by
  cases h with
  | connect k i c g h1 h2 h3 =>
    unfold Sys.connectCall
    split
    · rfl
    · simp [Sys.setCall, Sys.setHandle, Sys.addConn, List.countP_append, Net.foreign, Conn.fresh]
  | write k i j n c d rest h1 h2 h3 h4 h5 => exact foreign_set h3 rfl rfl
  | read k i j n m c d buf h1 h2 h3 h4 h5 h6 h7 => exact foreign_set h3 rfl rfl
  | tooLong k i j c h1 h2 h3 => exact foreign_release σ c.st l
  | finish k i j c buf resp h1 h2 h3 => exact foreign_release σ c.st l
  | badReply k i j c buf h1 h2 h3 => exact foreign_release σ c.st l
  | eof k i j m c d buf h1 h2 h3 h4 h5 h6 => exact foreign_release σ c.st l
  | accept l' j g d h1 h2 h3 h4 h5 => exact foreign_set h3 rfl rfl
  | serverRead j n m d buf h1 h2 h3 h4 h5 h6 => exact foreign_set h1 rfl rfl
  | serverReceived j d buf req h1 h2 h3 => exact foreign_set h1 rfl rfl
  | refuse j d buf g h1 h2 h3 h4 => exact foreign_set h1 rfl rfl
  | hangup j m d buf g h1 h2 h3 h4 h5 h6 => exact foreign_set h1 rfl rfl
  | answerDirect j d req resp h1 h2 h3 => exact foreign_set h1 rfl rfl
  | lock j d req h1 h2 h3 h4 => exact foreign_set h1 rfl rfl
  | unlock j d req resp s' h1 h2 => exact foreign_set h1 rfl rfl
  | replyBegin j d resp h1 h2 h3 => exact foreign_set h1 rfl rfl
  | refuseReply j d resp g h1 h2 h3 h4 => exact foreign_set h1 rfl rfl
  | serverWrite j n d rest h1 h2 h3 h4 => exact foreign_set h1 rfl rfl
  | serverNext j d h1 h2 => exact foreign_set h1 rfl rfl
  | _ => rfl

theorem Works.foreign (h : Works P σ σ') (l : Nat) : σ'.conns.countP (foreign l) = σ.conns.countP (foreign l) := by
  induction h with
  | refl => rfl
  | tail _ hw ih => rw [hw.foreign, ih]

/-- C82: the conditions may be checked beforehand: if in some reachable state the pool has a stream, all its addresses
are listened on, and other clients have opened fewer connections to each listener than it has permits, then whatever the
system does by itself from there on, it comes to an end, and at every such end each call that was waiting has got the
response to its own request, computed exactly once — unless a size limit is hit. -/
theorem calls_answered_from (hr : Reachable P (Sys.start addresses listeners max s0) σ)
    (pool : σ.handles ≠ []) (addrs : ∀ h ∈ σ.handles, h.address < listeners)
    (room : ∀ l < listeners, (σ.conns.countP fun d => d.listener = l && d.opener.isNone) < max) :
    (∀ σ1, Works P σ σ1 → ∃ σ', Works P σ1 σ' ∧ Settled P σ') ∧
    ∀ σ', Works P σ σ' → Settled P σ' → ∀ (k : Nat) (c : Call), σ.calls[k]? = some c → c.st = .waiting →
      c.req.length ≤ maxPayloadSize → (∀ e ∈ σ'.processedFor k, e.resp.length ≤ maxPayloadSize) →
      ∃ c' j resp, σ'.calls[k]? = some c' ∧ c'.st = .finished (some resp) ∧ σ'.processedFor k = [⟨j, c.req, resp⟩] := by
  refine ⟨fun σ1 _ => works_to_settled P σ1, fun σ' hw hs k c hk h0 hl hresp => ?_⟩
  have ha := hw.keepsAddresses
  refine calls_answered hr hw hs ?_ ?_ ?_ k c hk h0 hl hresp
  · intro he
    rw [he] at ha
    exact pool (by simpa using ha.symm)
  · intro h hm
    have : h.address ∈ σ.handles.map (·.address) := ha ▸ List.mem_map_of_mem hm
    obtain ⟨h', hm', he⟩ := List.mem_map.1 this
    rw [← he]
    exact addrs h' hm'
  · intro l hlt
    have h1 := room l hlt
    have h2 := hw.foreign l
    have h3 : σ'.takenByOthers l ≤ σ'.conns.countP (Net.foreign l) := by
      unfold Sys.takenByOthers
      apply List.countP_mono_left
      intro d _ hd
      simp only [Bool.and_eq_true] at hd
      simp only [Net.foreign, Bool.and_eq_true]
      exact ⟨hd.1.1, hd.2⟩
    have h4 : σ.conns.countP (Net.foreign l) = σ.conns.countP fun d => d.listener = l && d.opener.isNone := rfl
    omega

/-! ## Starvation -/

/-- A connection of another client that was accepted and on which nothing happens. -/
def Conn.idle (d : Conn S) : Bool :=
  d.opener.isNone && d.clientOpen && d.inp.length == d.inpRead && match d.serve with
    | .reading [] => true
    | _ => false

theorem idle_iff (d : Conn S) : d.idle = true ↔
    d.opener = none ∧ d.clientOpen = true ∧ d.inp.length = d.inpRead ∧ d.serve = .reading [] := by
  unfold Conn.idle
  simp only [Bool.and_eq_true, Option.isNone_iff_eq_none, beq_iff_eq]
  constructor
  · rintro ⟨⟨⟨h1, h2⟩, h3⟩, h4⟩
    refine ⟨h1, h2, h3, ?_⟩
    split at h4
    · assumption
    · cases h4
  · rintro ⟨h1, h2, h3, h4⟩
    refine ⟨⟨⟨h1, h2⟩, h3⟩, ?_⟩
    rw [h4]

theorem set_other {α : Type} {l : List α} {i j : Nat} {a b c : α} (hi : l[i]? = some b) (hj : l[j]? = some c)
    (h : i = j → b = c → False) : (l.set i a)[j]? = some c := by
  by_cases hij : i = j
  · subst hij
    rw [hi] at hj
    injection hj with hj
    exact (h rfl hj).elim
  · rw [set_get_ne hij]; exact hj

/-- Work leaves idle connections alone. -/
theorem idle_stays (ci : ClientInv σ) (h : Work P σ σ') {j : Nat} {d : Conn S} (hj : σ.conns[j]? = some d)
    (hd : d.idle = true) : σ'.conns[j]? = some d := by
  obtain ⟨i1, i2, i3, i4⟩ := (idle_iff d).1 hd
  have p0 : progress ([] : Bytes) = .more 8 := rfl
  have rel : ∀ {k : Nat} {c : Call}, σ.calls[k]? = some c → c.st.isFinished = false →
      (σ.release c.st).conns[j]? = some d := by
    intro k c hk hf
    have hlen : (σ.release c.st).conns.length = σ.conns.length := by
      have := (release_conns P σ c.st).1
      unfold Sys.release
      split
      · rfl
      · split
        · rfl
        · unfold Sys.closeIfDropped
          split
          · rfl
          · split
            · rfl
            · split
              · rfl
              · simp [Sys.setConn, Sys.setHandle]
    have hlt : j < (σ.release c.st).conns.length := by rw [hlen]; exact get_lt hj
    have hx := List.getElem?_eq_getElem hlt
    obtain ⟨e, g1, g2, g3, _⟩ := release_open ci hk hf hx
    rw [hj] at g1
    injection g1 with g1
    subst g1
    rw [hx, g2, g3 (by rw [i1]; simp)]
  have srv : ∀ {i : Nat} {e e' : Conn S} {x : Serve S}, σ.conns[i]? = some e → e.serve = x → x ≠ .reading [] →
      (σ.conns.set i e')[j]? = some d := by
    intro i e e' x he hx hne
    refine set_other he hj fun _ hed => ?_
    subst hed
    exact hne (hx ▸ i4)
  have rd : ∀ {i : Nat} {e e' : Conn S} {buf : Bytes}, σ.conns[i]? = some e → e.serve = .reading buf →
      (buf = [] → e = d → False) → (σ.conns.set i e')[j]? = some d := by
    intro i e e' buf he hb hne
    refine set_other he hj fun _ hed => ?_
    have h2 := hb
    rw [hed, i4] at h2
    injection h2 with h2
    exact hne h2.symm hed
  cases h with
  | get k i c g h1 h2 h3 h4 => exact hj
  | connect k i c g h1 h2 h3 =>
    unfold Sys.connectCall
    split
    · exact hj
    · exact snoc_get hj
  | begin k i i' c h1 h2 h3 => exact hj
  | tooLong k i i' c h1 h2 h3 => exact rel h1 (by rw [h2]; rfl)
  | write k i i' n c e rest h1 h2 h3 h4 h5 =>
    refine set_other h3 hj fun _ hed => ?_
    have ok := ci.ok k c h1
    rw [h2] at ok
    obtain ⟨_, _, ⟨e0, g1, g2, _⟩, _⟩ := ok
    rw [h3] at g1
    injection g1 with g1
    rw [← g1, hed, i1] at g2
    cases g2
  | await k i i' c h1 h2 => exact hj
  | read k i i' n m c e buf h1 h2 h3 h4 h5 h6 h7 =>
    refine set_other h3 hj fun _ hed => ?_
    have ok := ci.ok k c h1
    rw [h2] at ok
    obtain ⟨_, _, _, ⟨e0, g1, g2, _⟩, _⟩ := ok
    rw [h3] at g1
    injection g1 with g1
    rw [← g1, hed, i1] at g2
    cases g2
  | finish k i i' c buf resp h1 h2 h3 => exact rel h1 (by rw [h2]; rfl)
  | badReply k i i' c buf h1 h2 h3 => exact rel h1 (by rw [h2]; rfl)
  | eof k i i' m c e buf h1 h2 h3 h4 h5 h6 => exact rel h1 (by rw [h2]; rfl)
  | permit l g n h1 h2 h3 => exact hj
  | accept l i g e h1 h2 h3 h4 h5 => exact srv h3 h5 (by simp)
  | serverRead i n m e buf h1 h2 h3 h4 h5 h6 => exact rd h1 h2 fun _ hed => by subst hed; omega
  | serverReceived i e buf req h1 h2 h3 => exact rd h1 h2 fun hb _ => by rw [hb, p0] at h3; cases h3
  | refuse i e buf g h1 h2 h3 h4 => exact rd h1 h2 fun hb _ => by rw [hb, p0] at h3; cases h3
  | hangup i m e buf g h1 h2 h3 h4 h5 h6 => exact rd h1 h2 fun _ hed => by rw [hed, i2] at h4; cases h4
  | answerDirect i e req resp h1 h2 h3 => exact srv h1 h2 (by simp)
  | lock i e req h1 h2 h3 h4 => exact srv h1 h2 (by simp)
  | unlock i e req resp s' h1 h2 => exact srv h1 h2 (by simp)
  | replyBegin i e resp h1 h2 h3 => exact srv h1 h2 (by simp)
  | refuseReply i e resp g h1 h2 h3 h4 => exact srv h1 h2 (by simp)
  | serverWrite i n e rest h1 h2 h3 h4 => exact srv h1 h2 (by simp)
  | serverNext i e h1 h2 => exact srv h1 h2 (by simp)

theorem countP_pointwise {α : Type} {p : α → Bool} : ∀ {l l' : List α},
    (∀ (j : Nat) (a : α), l[j]? = some a → p a = true → l'[j]? = some a) → l.countP p ≤ l'.countP p
  | [], _, _ => by simp
  | a :: l, [], h => by
    have hn : (a :: l).countP p = 0 := by
      rw [List.countP_eq_zero]
      intro x hx hp
      obtain ⟨j, hj⟩ := List.getElem?_of_mem hx
      have := h j x hj hp
      simp at this
    omega
  | a :: l, b :: l', h => by
    have ih := countP_pointwise (l := l) (l' := l') (p := p) fun j x hj hp => by
      have := h (j + 1) x (by simpa using hj) hp
      simpa using this
    rw [List.countP_cons, List.countP_cons]
    by_cases hp : p a = true
    · have := h 0 a rfl hp
      simp at this
      subst this
      omega
    · rw [if_neg hp]
      omega

/-- The connections of call `k` have not been accepted. -/
def AllQueued (k : Nat) (cs : List (Conn S)) : Prop := ∀ (j : Nat) (d : Conn S), cs[j]? = some d → d.opener = some k →
  d.serve = .queued

theorem AllQueued.set {k j : Nat} {cs : List (Conn S)} {d d' : Conn S} (h : AllQueued k cs) (hd : cs[j]? = some d)
    (h1 : d'.opener = d.opener) (h2 : d'.serve = d.serve ∨ d.serve ≠ .queued) : AllQueued k (cs.set j d') := by
  intro i e hi ho
  rcases get_set hi with ⟨rfl, rfl⟩ | ⟨_, hi⟩
  · have := h j d hd (h1 ▸ ho)
    rcases h2 with h2 | h2
    · rw [h2, this]
    · exact absurd this h2
  · exact h i e hi ho

/-- The permits of a listener held by connections on which nothing happens. -/
def Sys.idleAt (σ : Sys S) (l : Nat) : Nat := σ.conns.countP fun d => d.listener = l && d.idle

theorem AllQueued.work {k : Nat} (h : AllQueued k σ.conns) (hr : Reachable P (Sys.start addresses listeners max s0) σ)
    (full : ∀ l < listeners, max ≤ σ.idleAt l) (hw : Work P σ σ') : AllQueued k σ'.conns := by
  have ci := clientInv_reachable start_client hr
  have rel : ∀ {k0 : Nat} {c : Call}, σ.calls[k0]? = some c → c.st.isFinished = false →
      AllQueued k (σ.release c.st).conns := by
    intro k0 c hk hf j d' hj ho
    obtain ⟨d, g1, g2, _, _⟩ := release_open ci hk hf hj
    rw [g2] at ho ⊢
    exact h j d g1 ho
  cases hw with
  | get k0 i c g h1 h2 h3 h4 => exact h
  | connect k0 i c g h1 h2 h3 =>
    unfold Sys.connectCall
    split
    · exact h
    · intro j d hj ho
      rcases get_snoc hj with hj | ⟨_, rfl⟩
      · exact h j d hj ho
      · rfl
  | begin k0 i j c h1 h2 h3 => exact h
  | tooLong k0 i j c h1 h2 h3 => exact rel h1 (by rw [h2]; rfl)
  | write k0 i j n c d rest h1 h2 h3 h4 h5 => exact h.set h3 rfl (.inl rfl)
  | await k0 i j c h1 h2 => exact h
  | read k0 i j n m c d buf h1 h2 h3 h4 h5 h6 h7 => exact h.set h3 rfl (.inl rfl)
  | finish k0 i j c buf resp h1 h2 h3 => exact rel h1 (by rw [h2]; rfl)
  | badReply k0 i j c buf h1 h2 h3 => exact rel h1 (by rw [h2]; rfl)
  | eof k0 i j m c d buf h1 h2 h3 h4 h5 h6 => exact rel h1 (by rw [h2]; rfl)
  | permit l g n h1 h2 h3 => exact h
  | accept l j g d h1 h2 h3 h4 h5 =>
    exfalso
    have hl : l < listeners := by rw [← gates_length hr]; exact get_lt h1
    obtain ⟨g', e1, e2⟩ := permits_add_up hr l hl
    rw [h1] at e1
    injection e1 with e1
    subst e1
    have h6 := full l hl
    have h7 : σ.idleAt l ≤ σ.serving l := by
      unfold Sys.idleAt Sys.serving
      apply List.countP_mono_left
      intro e _ he
      simp only [Bool.and_eq_true] at he ⊢
      refine ⟨he.1, ?_⟩
      rw [((idle_iff e).1 he.2).2.2.2]
      rfl
    rw [h2] at e2
    simp at e2
    omega
  | serverRead j n m d buf h1 h2 h3 h4 h5 h6 => exact h.set h1 rfl (.inr (by rw [h2]; simp))
  | serverReceived j d buf req h1 h2 h3 => exact h.set h1 rfl (.inr (by rw [h2]; simp))
  | refuse j d buf g h1 h2 h3 h4 => exact h.set h1 rfl (.inr (by rw [h2]; simp))
  | hangup j m d buf g h1 h2 h3 h4 h5 h6 => exact h.set h1 rfl (.inr (by rw [h2]; simp))
  | answerDirect j d req resp h1 h2 h3 => exact h.set h1 rfl (.inr (by rw [h2]; simp))
  | lock j d req h1 h2 h3 h4 => exact h.set h1 rfl (.inr (by rw [h2]; simp))
  | unlock j d req resp s' h1 h2 => exact h.set h1 rfl (.inr (by rw [h2]; simp))
  | replyBegin j d resp h1 h2 h3 => exact h.set h1 rfl (.inr (by rw [h2]; simp))
  | refuseReply j d resp g h1 h2 h3 h4 => exact h.set h1 rfl (.inr (by rw [h2]; simp))
  | serverWrite j n d rest h1 h2 h3 h4 => exact h.set h1 rfl (.inr (by rw [h2]; simp))
  | serverNext j d h1 h2 => exact h.set h1 rfl (.inr (by rw [h2]; simp))

/-- C82: the condition on other clients is needed: while as many idle connections as there are permits are held open on
every listener, no call that was waiting is ever answered, whatever the system does by itself — the server ends no
connection for being idle. -/
theorem idle_connections_starve (hr : Reachable P (Sys.start addresses listeners max s0) σ)
    (full : ∀ l < listeners, max ≤ σ.idleAt l) (hw : Works P σ σ') (k : Nat) (c c' : Call) (hk : σ.calls[k]? = some c)
    (h0 : c.st = .waiting) (hk' : σ'.calls[k]? = some c') (resp : Bytes) : c'.st ≠ .finished (some resp) := by
  have hq : AllQueued k σ'.conns ∧ ∀ l < listeners, max ≤ σ'.idleAt l := by
    clear hk'
    induction hw with
    | refl =>
      refine ⟨?_, full⟩
      have := (clientInv_reachable start_client hr).ok k c hk
      rw [h0] at this
      exact fun j d hj ho => absurd ho (this j d hj)
    | tail hw' hs ih =>
      have hr1 := hr.trans hw'.reachable
      refine ⟨ih.1.work hr1 ih.2 hs, fun l hl => Nat.le_trans (ih.2 l hl) ?_⟩
      unfold Sys.idleAt
      apply countP_pointwise
      intro j d hj hd
      simp only [Bool.and_eq_true] at hd
      exact idle_stays (clientInv_reachable start_client hr1) hs hj hd.2
  intro hst
  have hr' := hr.trans hw.reachable
  obtain ⟨j, hp⟩ := (call_gets_own_response hr' k c' hk').2 resp hst
  have hm : (⟨j, c'.req, resp⟩ : Entry) ∈ σ'.processedFor k := by rw [hp]; simp
  simp only [Sys.processedFor, List.mem_filter, decide_eq_true_eq] at hm
  obtain ⟨d, g1, g2⟩ := Option.bind_eq_some_iff.1 hm.2
  have hqd := hq.1 j d g1 g2
  have sv := (serverInv_reachable start_server hr').conn j d g1
  have hon : (⟨j, c'.req, resp⟩ : Entry) ∈ onConn σ'.log j := by
    simp only [onConn, List.mem_filter, decide_eq_true_eq]
    exact ⟨hm.1, trivial⟩
  cases sv with
  | queued g1 g2 g3 g4 => rw [g4] at hon; cases hon
  | reading b g1 => rw [hqd] at g1; cases g1
  | received r g1 => rw [hqd] at g1; rcases g1 with g1 | ⟨_, _, g1⟩ <;> cases g1
  | replying e0 e g1 => rw [hqd] at g1; cases g1
  | writing r g1 => rw [hqd] at g1; cases g1
  | closed n g1 => rw [hqd] at g1; cases g1

/-! ## Concrete cases -/

/-- Answers with the request; empty requests without the state. -/
def echoing : Processor Nat where
  direct req := if req = [] then some [255] else none
  locked n req := (req ++ [n.toUInt8], n + 1)

/-- Two streams, three calls, one connection of another client on a listener with two permits. -/
theorem busy_run : ∃ σ : Sys Nat, Reachable echoing (Sys.start [0, 0] 1 2 0) σ ∧ σ.handles ≠ [] ∧
    (∀ h ∈ σ.handles, h.address < 1) ∧ (σ.conns.countP fun d => d.listener = 0 && d.opener.isNone) = 1 ∧
    σ.calls = [⟨[1], .waiting⟩, ⟨[2], .waiting⟩, ⟨[], .waiting⟩] := by
  have r := (Reachable.refl (P := echoing) (σ0 := Sys.start [0, 0] 1 2 0)).tail (.call _ [1])
  have r := r.tail (.call _ [2])
  have r := r.tail (.call _ [])
  have r := r.tail (.openOther _ 0)
  exact ⟨_, r, by decide, by decide, rfl, rfl⟩

/-- Hence all three are answered at every end. -/
example : ∃ σ σ' : Sys Nat, Works echoing σ σ' ∧ Settled echoing σ' ∧ σ.calls.length = 3 ∧
    ∀ c ∈ σ'.calls, c.st.isFinished = true := by
  obtain ⟨σ, hr, hp, ha, hf, hc⟩ := busy_run
  have room : ∀ l < 1, (σ.conns.countP fun d => d.listener = l && d.opener.isNone) < 2 := by
    intro l hl
    obtain rfl : l = 0 := by omega
    omega
  obtain ⟨σ', h1, h2⟩ := (calls_answered_from hr hp ha room).1 σ .refl
  refine ⟨σ, σ', h1, h2, by rw [hc]; rfl, ?_⟩
  have h3 := h1.keepsAddresses
  refine all_calls_return (hr.trans h1.reachable) h2 ?_ ?_ ?_
  · intro he
    rw [he] at h3
    exact hp (by simpa using h3.symm)
  · intro h hm
    have : h.address ∈ σ.handles.map (·.address) := h3 ▸ List.mem_map_of_mem hm
    obtain ⟨h', hm', he⟩ := List.mem_map.1 this
    rw [← he]
    exact ha h' hm'
  · intro l hl
    have := room l hl
    have e := h1.foreign l
    have h4 : σ'.takenByOthers l ≤ σ'.conns.countP (foreign l) := by
      unfold Sys.takenByOthers
      apply List.countP_mono_left
      intro d _ hd
      simp only [Bool.and_eq_true] at hd
      simp only [foreign, Bool.and_eq_true]
      exact ⟨hd.1.1, hd.2⟩
    have h5 : σ.conns.countP (foreign l) = σ.conns.countP fun d => d.listener = l && d.opener.isNone := rfl
    omega

/-- One permit, held by a connection on which nothing happens, and a waiting call. -/
theorem starved_run : ∃ σ : Sys Nat, Reachable echoing (Sys.start [0] 1 1 0) σ ∧ (∀ l < 1, 1 ≤ σ.idleAt l) ∧
    σ.calls = [⟨[1], .waiting⟩] := by
  have r := (Reachable.refl (P := echoing) (σ0 := Sys.start [0] 1 1 0)).tail (.openOther _ 0)
  have r := r.tail (.permit _ 0 _ 0 rfl rfl rfl)
  have r := r.tail (.accept _ 0 0 _ _ rfl rfl rfl rfl rfl)
  have r := r.tail (.call _ [1])
  exact ⟨_, r, by decide, rfl⟩

end Qos.Net
