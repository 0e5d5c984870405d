import Verif.Lemmas.NetServe
/-!
# Lemmas: the lock, the log and the permits
-/
namespace Qos.Net

variable {S : Type}

/-! ## Sequential runs -/

theorem sequential_snoc (P : Processor S) (s : S) (l : List Bytes) (r : Bytes) :
    P.sequential s (l ++ [r]) =
      ((P.sequential s l).1 ++ [(P.process (P.sequential s l).2 r).1], (P.process (P.sequential s l).2 r).2) := by
  induction l generalizing s with
  | nil => rfl
  | cons a l ih => simp [Processor.sequential, ih]

/-- Every task that is handling a request satisfies `Q`. -/
def Handling (cs : List (Conn S)) (Q : Nat → Bytes → Bytes → S → Prop) : Prop :=
  ∀ j c req resp s', cs[j]? = some c → c.serve = .handling req resp s' → Q j req resp s'

theorem Handling.set {cs : List (Conn S)} {Q : Nat → Bytes → Bytes → S → Prop} (h : Handling cs Q) {j : Nat} {d' : Conn S}
    (hd : ∀ req resp s', d'.serve = .handling req resp s' → Q j req resp s') : Handling (cs.set j d') Q := by
  intro i c req resp s' hi hs
  rcases get_set hi with ⟨rfl, rfl⟩ | ⟨_, hi⟩
  · exact hd req resp s' hs
  · exact h i c req resp s' hi hs

theorem Handling.snoc {cs : List (Conn S)} {Q : Nat → Bytes → Bytes → S → Prop} (h : Handling cs Q) (l : Nat)
    (o : Option Nat) : Handling (cs ++ [.fresh l o]) Q := by
  intro i c req resp s' hi hs
  rcases get_snoc hi with hi | ⟨rfl, rfl⟩
  · exact h i c req resp s' hi hs
  · cases hs

/-- The log is a sequential run, and the task with the lock has computed its result from the present state. -/
structure SeqInv (P : Processor S) (s0 : S) (σ : Sys S) : Prop where
  seq : P.sequential s0 (reqs σ.log) = (resps σ.log, σ.state)
  lock : Handling σ.conns fun j req resp s' => σ.lock = some j ∧ P.direct req = none ∧ P.locked σ.state req = (resp, s')

theorem SeqInv.transfer {P : Processor S} {s0 : S} {σ σ' : Sys S} (h : SeqInv P s0 σ) (h1 : σ'.log = σ.log)
    (h2 : σ'.state = σ.state) (h3 : σ'.lock = σ.lock)
    (h4 : Handling σ'.conns fun j req resp s' => σ.lock = some j ∧ P.direct req = none ∧ P.locked σ.state req = (resp, s')) :
    SeqInv P s0 σ' := ⟨by rw [h1, h2]; exact h.seq, by rw [h2, h3]; exact h4⟩

theorem release_handling {σ : Sys S} {Q : Nat → Bytes → Bytes → S → Prop} (h : Handling σ.conns Q) (st : CallSt) :
    Handling (σ.release st).conns Q := by
  unfold Sys.release
  split
  · exact h
  · split
    · exact h
    · unfold Sys.closeIfDropped
      split
      · exact h
      · split
        · exact h
        · split
          · exact h
          · rename_i c hc
            exact h.set (fun req resp s' hs => h _ c req resp s' hc hs)

theorem SeqInv.step {P : Processor S} {s0 : S} {σ σ' : Sys S} (h : SeqInv P s0 σ) (hs : Step P σ σ') : SeqInv P s0 σ' := by
  have same : ∀ {j : Nat} {d d' : Conn S}, σ.conns[j]? = some d → d'.serve = d.serve →
      Handling (σ.conns.set j d') fun j req resp s' => σ.lock = some j ∧ P.direct req = none ∧ P.locked σ.state req = (resp, s') :=
    fun hd he => h.lock.set (fun req resp s' hx => h.lock _ _ req resp s' hd (he ▸ hx))
  have other : ∀ {j : Nat} {d' : Conn S}, (∀ req resp s', d'.serve ≠ .handling req resp s') →
      Handling (σ.conns.set j d') fun j req resp s' => σ.lock = some j ∧ P.direct req = none ∧ P.locked σ.state req = (resp, s') :=
    fun he => h.lock.set (fun req resp s' hx => absurd hx (he req resp s'))
  cases hs with
  | call req => exact h.transfer rfl rfl rfl h.lock
  | get k i c hd _ _ _ _ => exact h.transfer rfl rfl rfl h.lock
  | connect k i c hd _ _ _ =>
    unfold Sys.connectCall
    split
    · exact h.transfer rfl rfl rfl h.lock
    · exact h.transfer rfl rfl rfl (h.lock.snoc _ _)
  | begin k i j c _ _ _ => exact h.transfer rfl rfl rfl h.lock
  | write k i j n c d rest _ _ hd => exact h.transfer rfl rfl rfl (same hd rfl)
  | await k i j c _ _ => exact h.transfer rfl rfl rfl h.lock
  | read k i j n m c d buf _ _ hd _ _ _ => exact h.transfer rfl rfl rfl (same hd rfl)
  | finish k i j c buf resp _ _ _ =>
    obtain ⟨_, r1, _, _, r2, r3⟩ := release_conns P σ c.st
    exact h.transfer r1 r3 r2 (release_handling h.lock _)
  | abort k c _ _ =>
    obtain ⟨_, r1, _, _, r2, r3⟩ := release_conns P σ c.st
    exact h.transfer r1 r3 r2 (release_handling h.lock _)
  | expand a _ => exact h.transfer rfl rfl rfl h.lock
  | openOther l => exact h.transfer rfl rfl rfl (h.lock.snoc _ _)
  | writeOther j d bytes hd _ _ => exact h.transfer rfl rfl rfl (same hd rfl)
  | readOther j n d hd _ _ => exact h.transfer rfl rfl rfl (same hd rfl)
  | closeOther j d hd _ => exact h.transfer rfl rfl rfl (same hd rfl)
  | permit l g n _ _ _ => exact h.transfer rfl rfl rfl h.lock
  | accept l j g d _ _ hd _ hq => exact h.transfer rfl rfl rfl (other (by simp))
  | acceptFailed l g _ _ => exact h.transfer rfl rfl rfl h.lock
  | serverRead j n m d buf hd h1 h2 h3 h4 => exact h.transfer rfl rfl rfl (other (by simp))
  | serverReceived j d buf req hd h1 h2 => exact h.transfer rfl rfl rfl (other (by simp))
  | answerDirect j d req resp hd h1 h2 =>
    refine ⟨?_, other (by simp)⟩
    simp only [Sys.setConn]
    rw [reqs, List.map_append, List.map_cons, List.map_nil, sequential_snoc, h.seq, resps_append]
    simp [Processor.process, h2]
  | lock j d req hd h1 h2 h3 =>
    refine ⟨h.seq, ?_⟩
    have hnone : ∀ (i : Nat) (c : Conn S) a b (s' : S), σ.conns[i]? = some c → c.serve ≠ .handling a b s' := by
      intro i c a b s' hi hx
      have := (h.lock i c a b s' hi hx).1
      rw [h3] at this; cases this
    intro i c a b s' hi hx
    rcases get_set hi with ⟨rfl, rfl⟩ | ⟨_, hi⟩
    · simp only at hx
      injection hx with e1 e2 e3
      subst e1 e2 e3
      exact ⟨rfl, h2, rfl⟩
    · exact absurd hx (hnone i c a b s' hi)
  | unlock j d req resp s' hd h1 =>
    obtain ⟨k1, k2, k3⟩ := h.lock j d req resp s' hd h1
    refine ⟨?_, ?_⟩
    · simp only [Sys.setConn]
      rw [reqs, List.map_append, List.map_cons, List.map_nil, sequential_snoc, h.seq, resps_append]
      simp [Processor.process, k2, k3]
    · intro i c a b t' hi hx
      rcases get_set hi with ⟨rfl, rfl⟩ | ⟨hne, hi⟩
      · cases hx
      · have := (h.lock i c a b t' hi hx).1
        rw [k1] at this
        injection this with this
        exact absurd this hne
  | replyBegin j d resp hd h1 h2 => exact h.transfer rfl rfl rfl (other (by simp))
  | serverWrite j n d rest hd h1 => exact h.transfer rfl rfl rfl (other (by simp))
  | serverNext j d hd h1 => exact h.transfer rfl rfl rfl (other (by simp))
  | serverClose j d g hd h1 h2 => exact h.transfer rfl rfl rfl (other (by simp))

theorem seqInv_reachable {P : Processor S} {s0 : S} {σ0 σ : Sys S} (h0 : SeqInv P s0 σ0) (h : Reachable P σ0 σ) :
    SeqInv P s0 σ := by
  induction h with
  | refl => exact h0
  | tail _ hs ih => exact ih.step hs

/-! ## Permits -/

/-- The connection is served by this listener. -/
def servedBy (l : Nat) (c : Conn S) : Bool := c.listener = l && c.serve.active

theorem countP_set {α : Type} (p : α → Bool) : ∀ (l : List α) (i : Nat) (a b : α), l[i]? = some b →
    (l.set i a).countP p + (p b).toNat = l.countP p + (p a).toNat
  | [], _, _, _, h => by simp at h
  | x :: l, 0, a, b, h => by
    simp at h
    subst h
    simp only [List.set_cons_zero, List.countP_cons]
    cases p a <;> cases p x <;> simp <;> omega
  | x :: l, i + 1, a, b, h => by
    simp at h
    have := countP_set p l i a b h
    simp only [List.set_cons_succ, List.countP_cons]
    omega

/-- Each semaphore adds up. -/
def GateInv (max : Nat) (gates : List Gate) (cs : List (Conn S)) : Prop :=
  ∀ l g, gates[l]? = some g → g.permits + g.held.toNat + cs.countP (servedBy l) = max

theorem GateInv.set {max : Nat} {gates : List Gate} {cs : List (Conn S)} (h : GateInv max gates cs) {j : Nat}
    {d d' : Conn S} (hd : cs[j]? = some d) (hl : d'.listener = d.listener) (ha : d'.serve.active = d.serve.active) :
    GateInv max gates (cs.set j d') := by
  intro l g hg
  have := countP_set (servedBy l) cs j d' d hd
  have e : servedBy l d' = servedBy l d := by simp [servedBy, hl, ha]
  rw [e] at this
  have := h l g hg
  omega

theorem GateInv.snoc {max : Nat} {gates : List Gate} {cs : List (Conn S)} (h : GateInv max gates cs) (l : Nat)
    (o : Option Nat) : GateInv max gates (cs ++ [.fresh l o]) := by
  intro k g hg
  have e : servedBy k (Conn.fresh l o : Conn S) = false := by simp [servedBy, Conn.fresh, Serve.active]
  have := h k g hg
  simpa [List.countP_append, e] using this

theorem release_gates {max : Nat} {gates : List Gate} {σ : Sys S} (h : GateInv max gates σ.conns) (st : CallSt) :
    GateInv max gates (σ.release st).conns := by
  unfold Sys.release
  split
  · exact h
  · split
    · exact h
    · unfold Sys.closeIfDropped
      split
      · exact h
      · split
        · exact h
        · split
          · exact h
          · rename_i c hc
            exact h.set hc rfl rfl

theorem GateInv.step {P : Processor S} {max : Nat} {σ σ' : Sys S} (h : GateInv max σ.gates σ.conns) (hs : Step P σ σ') :
    GateInv max σ'.gates σ'.conns := by
  have act : ∀ {d d' : Conn S} {x y : Serve S}, d.serve = x → d'.serve = y → x.active = y.active →
      d'.serve.active = d.serve.active := fun h1 h2 h3 => by rw [h1, h2, h3]
  cases hs with
  | call req => exact h
  | get k i c hd _ _ _ _ => exact h
  | connect k i c hd _ _ _ =>
    unfold Sys.connectCall
    split
    · exact h
    · exact h.snoc _ _
  | begin k i j c _ _ _ => exact h
  | write k i j n c d rest _ _ hd => exact h.set hd rfl rfl
  | await k i j c _ _ => exact h
  | read k i j n m c d buf _ _ hd _ _ _ => exact h.set hd rfl rfl
  | finish k i j c buf resp _ _ _ =>
    have hg : (σ.release c.st).gates = σ.gates := (release_conns P σ c.st).2.2.2.1
    show GateInv max (σ.release c.st).gates (σ.release c.st).conns
    rw [hg]
    exact release_gates h _
  | abort k c _ _ =>
    have hg : (σ.release c.st).gates = σ.gates := (release_conns P σ c.st).2.2.2.1
    show GateInv max (σ.release c.st).gates (σ.release c.st).conns
    rw [hg]
    exact release_gates h _
  | expand a _ => exact h
  | openOther l => exact h.snoc _ _
  | writeOther j d bytes hd _ _ => exact h.set hd rfl rfl
  | readOther j n d hd _ _ => exact h.set hd rfl rfl
  | closeOther j d hd _ => exact h.set hd rfl rfl
  | permit l g n hg h1 h2 =>
    intro l' g' hg'
    rcases get_set hg' with ⟨rfl, rfl⟩ | ⟨_, hg'⟩
    · have := h l g hg
      rw [h1, h2] at this
      simp only [Bool.toNat_true, Bool.toNat_false, Sys.setGate] at *
      omega
    · exact h l' g' hg'
  | accept l j g d hg h1 hd hl hq =>
    intro l' g' hg'
    have hc := countP_set (servedBy l') σ.conns j { d with serve := .reading [] } d hd
    have e1 : servedBy l' d = false := by simp [servedBy, hq, Serve.active]
    rw [e1] at hc
    rcases get_set hg' with ⟨rfl, rfl⟩ | ⟨hne, hg'⟩
    · have e2 : servedBy l ({ d with serve := .reading [] } : Conn S) = true := by simp [servedBy, hl, Serve.active]
      rw [e2] at hc
      have := h l g hg
      rw [h1] at this
      simp only [Bool.toNat_true, Bool.toNat_false, Sys.setGate, Sys.setConn] at *
      omega
    · have e2 : servedBy l' ({ d with serve := .reading [] } : Conn S) = false := by
        simp [servedBy, hl, hne]
      rw [e2] at hc
      have := h l' g' hg'
      simp only [Bool.toNat_true, Bool.toNat_false, Sys.setGate, Sys.setConn] at *
      omega
  | acceptFailed l g hg h1 =>
    intro l' g' hg'
    rcases get_set hg' with ⟨rfl, rfl⟩ | ⟨_, hg'⟩
    · have := h l g hg
      rw [h1] at this
      simp only [Bool.toNat_true, Bool.toNat_false, Sys.setGate] at *
      omega
    · exact h l' g' hg'
  | serverRead j n m d buf hd h1 h2 h3 h4 => exact h.set hd rfl (act h1 rfl rfl)
  | serverReceived j d buf req hd h1 h2 => exact h.set hd rfl (act h1 rfl rfl)
  | answerDirect j d req resp hd h1 h2 => exact h.set hd rfl (act h1 rfl rfl)
  | lock j d req hd h1 h2 h3 => exact h.set hd rfl (act h1 rfl rfl)
  | unlock j d req resp s' hd h1 => exact h.set hd rfl (act h1 rfl rfl)
  | replyBegin j d resp hd h1 h2 => exact h.set hd rfl (act h1 rfl rfl)
  | serverWrite j n d rest hd h1 => exact h.set hd rfl (act h1 rfl rfl)
  | serverNext j d hd h1 => exact h.set hd rfl (act h1 rfl rfl)
  | serverClose j d g hd h1 hg =>
    intro l' g' hg'
    have hc := countP_set (servedBy l') σ.conns j { d with serve := .closed } d hd
    have ha : d.serve.active = true := by
      rcases h1 with ⟨_, h1⟩ | ⟨_, h1⟩ | ⟨_, h1⟩ <;> rw [h1] <;> rfl
    have e2 : servedBy l' ({ d with serve := .closed } : Conn S) = false := by simp [servedBy, Serve.active]
    rw [e2] at hc
    rcases get_set hg' with ⟨rfl, rfl⟩ | ⟨hne, hg'⟩
    · have e1 : servedBy d.listener d = true := by simp [servedBy, ha]
      rw [e1] at hc
      have := h _ g hg
      simp only [Bool.toNat_true, Bool.toNat_false, Sys.setGate, Sys.setConn] at *
      omega
    · have e1 : servedBy l' d = false := by simp [servedBy, hne]
      rw [e1] at hc
      have := h l' g' hg'
      simp only [Bool.toNat_true, Bool.toNat_false, Sys.setGate, Sys.setConn] at *
      omega

theorem gateInv_reachable {P : Processor S} {max : Nat} {σ0 σ : Sys S} (h0 : GateInv max σ0.gates σ0.conns)
    (h : Reachable P σ0 σ) : GateInv max σ.gates σ.conns := by
  induction h with
  | refl => exact h0
  | tail _ hs ih => exact ih.step hs

theorem release_gates_eq (σ : Sys S) (st : CallSt) : (σ.release st).gates = σ.gates := by
  unfold Sys.release
  split
  · rfl
  · split
    · rfl
    · unfold Sys.closeIfDropped
      split
      · rfl
      · split
        · rfl
        · split <;> rfl

theorem step_gates_length {P : Processor S} {σ σ' : Sys S} (h : Step P σ σ') : σ'.gates.length = σ.gates.length := by
  cases h <;> try rfl
  case connect =>
    unfold Sys.connectCall
    split <;> rfl
  case finish k i j c buf resp _ _ _ => exact congrArg _ (release_gates_eq σ c.st)
  case abort k c _ _ => exact congrArg _ (release_gates_eq σ c.st)
  all_goals simp [Sys.setGate, Sys.setConn]

/-! ## The lock has an owner -/

/-- Whoever has the lock is handling a request. -/
def LockInv (σ : Sys S) : Prop :=
  ∀ j, σ.lock = some j → ∃ c req resp s', σ.conns[j]? = some c ∧ c.serve = .handling req resp s'

theorem LockInv.transfer {σ σ' : Sys S} (h : LockInv σ) (h1 : σ'.lock = σ.lock)
    (h2 : ∀ (j : Nat) (c : Conn S) req resp s', σ.conns[j]? = some c → c.serve = .handling req resp s' →
      ∃ c' : Conn S, σ'.conns[j]? = some c' ∧ c'.serve = .handling req resp s') : LockInv σ' := by
  intro j hj
  rw [h1] at hj
  obtain ⟨c, req, resp, s', g1, g2⟩ := h j hj
  obtain ⟨c', g3, g4⟩ := h2 j c req resp s' g1 g2
  exact ⟨c', req, resp, s', g3, g4⟩

theorem keep_set {cs : List (Conn S)} {i : Nat} {d d' : Conn S} (hd : cs[i]? = some d)
    (h : d'.serve = d.serve ∨ d.serve.isHandling = false) (j : Nat) (c : Conn S) (req resp : Bytes) (s' : S)
    (hj : cs[j]? = some c) (hc : c.serve = .handling req resp s') :
    ∃ c' : Conn S, (cs.set i d')[j]? = some c' ∧ c'.serve = .handling req resp s' := by
  by_cases hij : i = j
  · subst hij
    rw [hd] at hj
    injection hj with hj
    subst hj
    rcases h with h | h
    · exact ⟨d', set_get hd, h.trans hc⟩
    · rw [hc] at h; cases h
  · exact ⟨c, by rw [set_get_ne hij]; exact hj, hc⟩

theorem LockInv.step {P : Processor S} {σ σ' : Sys S} (h : LockInv σ) (hs : Step P σ σ') : LockInv σ' := by
  have id : ∀ (j : Nat) (c : Conn S) req resp s', σ.conns[j]? = some c → c.serve = .handling req resp s' →
      ∃ c' : Conn S, σ.conns[j]? = some c' ∧ c'.serve = .handling req resp s' := fun j c _ _ _ h1 h2 => ⟨c, h1, h2⟩
  have snoc : ∀ l o (j : Nat) (c : Conn S) req resp s', σ.conns[j]? = some c → c.serve = .handling req resp s' →
      ∃ c' : Conn S, (σ.conns ++ [.fresh l o])[j]? = some c' ∧ c'.serve = .handling req resp s' :=
    fun _ _ j c _ _ _ h1 h2 => ⟨c, snoc_get h1, h2⟩
  have no : ∀ {d : Conn S} {x : Serve S}, d.serve = x → x.isHandling = false → d.serve.isHandling = false :=
    fun h1 h2 => by rw [h1]; exact h2
  have rel : ∀ st, ∀ (j : Nat) (c : Conn S) req resp s', σ.conns[j]? = some c → c.serve = .handling req resp s' →
      ∃ c' : Conn S, (σ.release st).conns[j]? = some c' ∧ c'.serve = .handling req resp s' := by
    intro st
    unfold Sys.release
    split
    · exact id
    · split
      · exact id
      · unfold Sys.closeIfDropped
        split
        · exact id
        · split
          · exact id
          · split
            · exact id
            · rename_i c hc
              exact keep_set hc (.inl rfl)
  cases hs with
  | call req => exact h.transfer rfl id
  | get k i c hd _ _ _ _ => exact h.transfer rfl id
  | connect k i c hd _ _ _ =>
    unfold Sys.connectCall
    split
    · exact h.transfer rfl id
    · exact h.transfer rfl (snoc _ _)
  | begin k i j c _ _ _ => exact h.transfer rfl id
  | write k i j n c d rest _ _ hd => exact h.transfer rfl (keep_set hd (.inl rfl))
  | await k i j c _ _ => exact h.transfer rfl id
  | read k i j n m c d buf _ _ hd _ _ _ => exact h.transfer rfl (keep_set hd (.inl rfl))
  | finish k i j c buf resp _ _ _ => exact h.transfer (release_conns P σ c.st).2.2.2.2.1 (rel c.st)
  | abort k c _ _ => exact h.transfer (release_conns P σ c.st).2.2.2.2.1 (rel c.st)
  | expand a _ => exact h.transfer rfl id
  | openOther l => exact h.transfer rfl (snoc _ _)
  | writeOther j d bytes hd _ _ => exact h.transfer rfl (keep_set hd (.inl rfl))
  | readOther j n d hd _ _ => exact h.transfer rfl (keep_set hd (.inl rfl))
  | closeOther j d hd _ => exact h.transfer rfl (keep_set hd (.inl rfl))
  | permit l g n _ _ _ => exact h.transfer rfl id
  | accept l j g d _ _ hd _ hq => exact h.transfer rfl (keep_set hd (.inr (no hq rfl)))
  | acceptFailed l g _ _ => exact h.transfer rfl id
  | serverRead j n m d buf hd h1 h2 h3 h4 => exact h.transfer rfl (keep_set hd (.inr (no h1 rfl)))
  | serverReceived j d buf req hd h1 h2 => exact h.transfer rfl (keep_set hd (.inr (no h1 rfl)))
  | answerDirect j d req resp hd h1 h2 => exact h.transfer rfl (keep_set hd (.inr (no h1 rfl)))
  | lock j d req hd h1 h2 h3 =>
    intro i hi
    injection hi with hi
    subst hi
    exact ⟨_, _, _, _, set_get hd, rfl⟩
  | unlock j d req resp s' hd h1 => intro i hi; cases hi
  | replyBegin j d resp hd h1 h2 => exact h.transfer rfl (keep_set hd (.inr (no h1 rfl)))
  | serverWrite j n d rest hd h1 => exact h.transfer rfl (keep_set hd (.inr (no h1 rfl)))
  | serverNext j d hd h1 => exact h.transfer rfl (keep_set hd (.inr (no h1 rfl)))
  | serverClose j d g hd h1 h2 =>
    refine h.transfer rfl (keep_set hd (.inr ?_))
    rcases h1 with ⟨_, h1⟩ | ⟨_, h1⟩ | ⟨_, h1⟩ <;> exact no h1 rfl

theorem lockInv_reachable {P : Processor S} {σ0 σ : Sys S} (h0 : LockInv σ0) (h : Reachable P σ0 σ) : LockInv σ := by
  induction h with
  | refl => exact h0
  | tail _ hs ih => exact ih.step hs

end Qos.Net
