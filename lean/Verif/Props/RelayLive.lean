import Verif.Props.Relay
import Mathlib.Tactic.ByContra
/-!
# C60: a connection through the bridge does not get stuck

`TaskWork` are the steps that a copying task takes by itself when nothing fails: every read and write moves at least one
byte, and the end of a stream is noticed and passed on once.
-/
namespace Qos.Relay

/-- What a task does by itself. -/
inductive TaskWork : Socket → Task → Socket → Socket → Task → Socket → Prop
  | accept (l r : Socket) : TaskWork l .idle r l .dialing r
  | connected (l r : Socket) : TaskWork l .dialing r l (.piping .start .start) r
  | readFwd (l r : Socket) (f b : Half) (n : Nat) : 0 < n → f.eof = false → l.toApp.taken + n ≤ l.toApp.written.length →
      TaskWork l (.piping f b) r
        { l with toApp := { l.toApp with taken := l.toApp.taken + n } }
        (.piping { f with pending := f.pending ++ (l.toApp.written.drop l.toApp.taken).take n } b) r
  | writeFwd (l r : Socket) (f b : Half) (n : Nat) : 0 < n → n ≤ f.pending.length → f.done = false →
      TaskWork l (.piping f b) r l (.piping { f with pending := f.pending.drop n } b)
        { r with toApp := { r.toApp with written := r.toApp.written ++ f.pending.take n } }
  | eofFwd (l r : Socket) (f b : Half) : f.eof = false → l.toApp.ended = true → l.toApp.taken = l.toApp.written.length →
      TaskWork l (.piping f b) r l (.piping { f with eof := true } b) r
  | doneFwd (l r : Socket) (f b : Half) : f.done = false → f.eof = true → f.pending = [] →
      TaskWork l (.piping f b) r l (.piping { f with done := true } b) { r with toApp := { r.toApp with ended := true } }
  | readBack (l r : Socket) (f b : Half) (n : Nat) : 0 < n → b.eof = false →
      r.toClient.taken + n ≤ r.toClient.written.length →
      TaskWork l (.piping f b) r l
        (.piping f { b with pending := b.pending ++ (r.toClient.written.drop r.toClient.taken).take n })
        { r with toClient := { r.toClient with taken := r.toClient.taken + n } }
  | writeBack (l r : Socket) (f b : Half) (n : Nat) : 0 < n → n ≤ b.pending.length → b.done = false →
      TaskWork l (.piping f b) r { l with toClient := { l.toClient with written := l.toClient.written ++ b.pending.take n } }
        (.piping f { b with pending := b.pending.drop n }) r
  | eofBack (l r : Socket) (f b : Half) : b.eof = false → r.toClient.ended = true →
      r.toClient.taken = r.toClient.written.length →
      TaskWork l (.piping f b) r l (.piping f { b with eof := true }) r
  | doneBack (l r : Socket) (f b : Half) : b.done = false → b.eof = true → b.pending = [] →
      TaskWork l (.piping f b) r { l with toClient := { l.toClient with ended := true } } (.piping f { b with done := true }) r
  | finish (l r : Socket) (f b : Half) : f.done = true → b.done = true →
      TaskWork l (.piping f b) r (dropLeft l) (.ended .finished) (dropRight r)

/-- What the bridge does by itself: neither end writes or closes, nothing fails. -/
inductive Work : Line → Line → Prop
  | host (x : Line) (l r : Socket) (t : Task) : TaskWork x.outer x.host x.middle l t r →
      Work x { x with outer := l, host := t, middle := r }
  | enclave (x : Line) (l r : Socket) (t : Task) : x.host.hasConnected = true → TaskWork x.middle x.enclave x.inner l t r →
      Work x { x with middle := l, enclave := t, inner := r }

/-- Nothing more to do. -/
def Settled (x : Line) : Prop := ∀ y, ¬ Work x y

theorem TaskWork.step {l r l' r' : Socket} {t t' : Task} (h : TaskWork l t r l' t' r') : TaskStep l t r l' t' r' := by
  cases h with
  | accept => exact .accept _ _
  | connected => exact .connected _ _
  | readFwd _ f b n h1 h2 h3 => exact .readFwd _ _ _ _ _ h2 h3
  | writeFwd _ f b n h1 h2 h3 => exact .writeFwd _ _ _ _ _ h3
  | eofFwd _ f b h1 h2 h3 => exact .eofFwd _ _ _ _ h2 h3
  | doneFwd _ f b h1 h2 h3 => exact .doneFwd _ _ _ _ h2 h3
  | readBack _ f b n h1 h2 h3 => exact .readBack _ _ _ _ _ h2 h3
  | writeBack _ f b n h1 h2 h3 => exact .writeBack _ _ _ _ _ h3
  | eofBack _ f b h1 h2 h3 => exact .eofBack _ _ _ _ h2 h3
  | doneBack _ f b h1 h2 h3 => exact .doneBack _ _ _ _ h2 h3
  | finish _ f b h1 h2 => exact .finish _ _ _ _ h1 h2

/-- C60: the bridge takes by itself only steps that it can take. -/
theorem work_is_step {x y : Line} (h : Work x y) : Step x y := by
  cases h with
  | host l r t h => exact .host _ _ _ _ h.step
  | enclave l r t h1 h => exact .enclave _ _ _ _ h1 h.step

/-! ## Work ends -/

def flags (h : Half) : Nat := (!h.eof).toNat + (!h.done).toNat

def taskWeight : Task → Nat
  | .idle => 12
  | .dialing => 11
  | .piping f b => 6 + flags f + flags b
  | .ended _ => 0

def fwdPending : Task → Nat
  | .piping f _ => f.pending.length
  | _ => 0

def backPending : Task → Nat
  | .piping _ b => b.pending.length
  | _ => 0

def unread (p : Pipe) : Nat := p.written.length - p.taken

theorem flags_le (h : Half) : flags h ≤ 2 := by
  unfold flags
  cases h.eof <;> cases h.done <;> decide

/-- A task's work: what it takes from its inputs it has to write, and its flags only go up. A byte counts for less the
further it has come; the second and the third part are the same with the weights of the enclave's task and of the host's. -/
theorem TaskWork.down {l r l' r' : Socket} {t t' : Task} (h : TaskWork l t r l' t' r') :
    (4 * unread l'.toApp + 3 * fwdPending t' + 2 * unread r'.toApp + (4 * unread r'.toClient + 3 * backPending t' +
      2 * unread l'.toClient) + taskWeight t' <
    4 * unread l.toApp + 3 * fwdPending t + 2 * unread r.toApp + (4 * unread r.toClient + 3 * backPending t +
      2 * unread l.toClient) + taskWeight t) ∧
    (2 * unread l'.toApp + fwdPending t' + (4 * unread r'.toClient + 3 * backPending t' + 2 * unread l'.toClient) +
      taskWeight t' <
    2 * unread l.toApp + fwdPending t + (4 * unread r.toClient + 3 * backPending t + 2 * unread l.toClient) +
      taskWeight t) ∧
    (4 * unread l'.toApp + 3 * fwdPending t' + 2 * unread r'.toApp + (2 * unread r'.toClient + backPending t') +
      taskWeight t' <
    4 * unread l.toApp + 3 * fwdPending t + 2 * unread r.toApp + (2 * unread r.toClient + backPending t) +
      taskWeight t) := by
  cases h with
  | accept => simp only [taskWeight, fwdPending, backPending]; omega
  | connected => simp only [taskWeight, fwdPending, backPending, flags, Half.start]; simp
  | readFwd _ f b n h1 h2 h3 =>
    simp only [taskWeight, fwdPending, backPending, flags, unread, List.length_append, List.length_take, List.length_drop]
    omega
  | writeFwd _ f b n h1 h2 h3 =>
    simp only [taskWeight, fwdPending, backPending, flags, unread, List.length_append, List.length_take, List.length_drop]
    omega
  | eofFwd _ f b h1 h2 h3 => simp only [taskWeight, fwdPending, backPending, flags, h1]; simp
  | doneFwd _ f b h1 h2 h3 => simp only [taskWeight, fwdPending, backPending, flags, h1, unread]; simp
  | readBack _ f b n h1 h2 h3 =>
    simp only [taskWeight, fwdPending, backPending, flags, unread, List.length_append, List.length_take, List.length_drop]
    omega
  | writeBack _ f b n h1 h2 h3 =>
    simp only [taskWeight, fwdPending, backPending, flags, unread, List.length_append, List.length_take, List.length_drop]
    omega
  | eofBack _ f b h1 h2 h3 => simp only [taskWeight, fwdPending, backPending, flags, h1]; simp
  | doneBack _ f b h1 h2 h3 => simp only [taskWeight, fwdPending, backPending, flags, h1, unread]; simp
  | finish _ f b h1 h2 =>
    simp only [taskWeight, fwdPending, backPending, unread, dropLeft, dropRight]
    omega

def effort (x : Line) : Nat :=
  (4 * unread x.outer.toApp + 3 * fwdPending x.host) + (2 * unread x.middle.toApp + fwdPending x.enclave) +
  (4 * unread x.inner.toClient + 3 * backPending x.enclave) + (2 * unread x.middle.toClient + backPending x.host) +
  taskWeight x.host + taskWeight x.enclave

/-! ## What is left when nothing more can be done -/

/-- Nothing is on the way and every end has been passed on. -/
structure Delivered (inp out : Pipe) : Prop where
  bytes : out.written = inp.written
  ends : inp.ended = true → out.ended = true

theorem flow_settled {inp out : Pipe} {h : Half} (H : Flow inp h out)
    (r : ∀ n, 0 < n → h.eof = false → ¬ inp.taken + n ≤ inp.written.length)
    (w : ∀ n, 0 < n → n ≤ h.pending.length → h.done ≠ false)
    (e : h.eof = false → inp.ended = true → inp.taken ≠ inp.written.length)
    (d : h.done = false → h.eof = true → h.pending ≠ []) :
    Delivered inp out ∧ (inp.ended = true → h.done = true) := by
  have hp : h.pending = [] := by
    by_contra hc
    have hl : 1 ≤ h.pending.length := by
      cases hx : h.pending with
      | nil => exact absurd hx hc
      | cons => simp
    have hd : h.done = true := by simpa using w 1 (by omega) hl
    exact hc (H.done hd).2
  have ht : inp.taken = inp.written.length := by
    cases he : h.eof with
    | true => exact (H.eof he).2
    | false =>
      have := r 1 (by omega) he
      have := H.bound
      omega
  have hdone : inp.ended = true → h.done = true := by
    intro hi
    have he : h.eof = true := by
      cases he : h.eof with
      | true => rfl
      | false => exact absurd ht (e he hi)
    cases hd : h.done with
    | true => rfl
    | false => exact absurd hp (d hd he)
  refine ⟨⟨?_, fun hi => by rw [H.told]; exact hdone hi⟩, hdone⟩
  have := H.same
  rw [hp, List.append_nil, ht, List.take_length] at this
  exact this

/-- A task that can do nothing more and has not failed. -/
theorem task_settled {l r : Socket} {t : Task} (H : Inv l t r) (s : ∀ l' t' r', ¬ TaskWork l t r l' t' r')
    (h1 : t ≠ .ended .broken) (h2 : t ≠ .ended .refused) :
    t.hasConnected = true ∧ Delivered l.toApp r.toApp ∧ Delivered r.toClient l.toClient ∧
      (l.toApp.ended = true → r.toClient.ended = true → t = .ended .finished) := by
  match t with
  | .idle => exact absurd (TaskWork.accept l r) (s _ _ _)
  | .dialing => exact absurd (TaskWork.connected l r) (s _ _ _)
  | .ended .broken => exact absurd rfl h1
  | .ended .refused => exact absurd rfl h2
  | .ended .finished =>
    obtain ⟨a, b, c, d, e, f⟩ := H
    exact ⟨rfl, ⟨a, fun _ => c⟩, ⟨d, fun _ => f⟩, fun _ _ => rfl⟩
  | .piping f b =>
    obtain ⟨d1, e1⟩ := flow_settled H.1 (fun n a b' c => s _ _ _ (.readFwd l r f b n a b' c))
      (fun n a b' c => s _ _ _ (.writeFwd l r f b n a b' c)) (fun a b' c => s _ _ _ (.eofFwd l r f b a b' c))
      (fun a b' c => s _ _ _ (.doneFwd l r f b a b' c))
    obtain ⟨d2, e2⟩ := flow_settled H.2 (fun n a b' c => s _ _ _ (.readBack l r f b n a b' c))
      (fun n a b' c => s _ _ _ (.writeBack l r f b n a b' c)) (fun a b' c => s _ _ _ (.eofBack l r f b a b' c))
      (fun a b' c => s _ _ _ (.doneBack l r f b a b' c))
    exact ⟨rfl, d1, d2, fun x y => absurd (TaskWork.finish l r f b (e1 x) (e2 y)) (s _ _ _)⟩

/-- C60: the bridge never works for ever by itself. -/
theorem work_ends (f : Nat → Line) : ∀ n, ∃ m, n ≤ m ∧ ¬ Work (f m) (f (m + 1)) := by
  have down : ∀ {x y : Line}, Work x y → effort y < effort x := by
    intro x y h
    cases h with
    | host l r t h =>
      have := h.down.2.2
      simp only [effort]
      omega
    | enclave l r t h1 h =>
      have := h.down.2.1
      simp only [effort]
      omega
  intro n
  by_contra hc
  have hw : ∀ m, n ≤ m → Work (f m) (f (m + 1)) := fun m hm => by
    by_contra hx
    exact hc ⟨m, hm, hx⟩
  have key : ∀ k m, n ≤ m → effort (f m) ≤ k → False := by
    intro k
    induction k with
    | zero => intro m hm hk; have := down (hw m hm); omega
    | succ k ih => intro m hm hk; exact ih (m + 1) (by omega) (by have := down (hw m hm); omega)
  exact key _ n (Nat.le_refl n) (Nat.le_refl _)

/-- C60: whenever the bridge can do nothing more by itself and neither task has failed, nothing is on the way: the
application has been given everything the client has written so far and the client everything the application has written;
each has been told of the other's end if there is one; and when both have ended, both tasks have ended normally. Nobody has
to write more, or to close, for what was written to arrive. -/
theorem settled_delivered {x : Line} (h : Reachable x) (s : Settled x) (hh : x.host ∉ [Task.ended .broken, .ended .refused])
    (he : x.enclave ∉ [Task.ended .broken, .ended .refused]) :
    x.inner.toApp.written = x.outer.toApp.written ∧ x.outer.toClient.written = x.inner.toClient.written ∧
    (x.outer.toApp.ended = true → x.inner.toApp.ended = true) ∧
    (x.inner.toClient.ended = true → x.outer.toClient.ended = true) ∧
    (x.outer.toApp.ended = true → x.inner.toClient.ended = true →
      x.host = .ended .finished ∧ x.enclave = .ended .finished) := by
  simp only [List.mem_cons, List.not_mem_nil, or_false, not_or] at hh he
  obtain ⟨a1, a2, a3, a4⟩ := task_settled h.good.host (fun l t r hw => s _ (.host x l r t hw)) hh.1 hh.2
  obtain ⟨b1, b2, b3, b4⟩ := task_settled h.good.enclave (fun l t r hw => s _ (.enclave x l r t a1 hw)) he.1 he.2
  exact ⟨b2.bytes.trans a2.bytes, a3.bytes.trans b3.bytes, fun q => b2.ends (a2.ends q), fun q => a3.ends (b3.ends q),
    fun p q => ⟨a4 p (b3.ends q), b4 (a2.ends p) q⟩⟩

/-- The work of a task leaves its inputs as they were written, and is no failure. -/
theorem TaskWork.keeps {l r l' r' : Socket} {t t' : Task} (h : TaskWork l t r l' t' r') :
    l'.toApp.written = l.toApp.written ∧ l'.toApp.ended = l.toApp.ended ∧ r'.toClient.written = r.toClient.written ∧
    r'.toClient.ended = r.toClient.ended ∧ t' ∉ [Task.ended .broken, .ended .refused] := by
  cases h <;> simp [dropLeft, dropRight]

/-- C60: put together: from every state without a failure, whatever the bridge does by itself, it comes to rest, and then
everything that had been written has arrived on the other side, with every end; and if both sides have ended, both tasks
have ended normally. -/
theorem left_alone {x : Line} (h : Reachable x) (hh : x.host ∉ [Task.ended .broken, .ended .refused])
    (he : x.enclave ∉ [Task.ended .broken, .ended .refused]) {y : Line} (hw : Relation.ReflTransGen Work x y)
    (s : Settled y) :
    y.inner.toApp.written = x.outer.toApp.written ∧ y.outer.toClient.written = x.inner.toClient.written ∧
    (x.outer.toApp.ended = true → y.inner.toApp.ended = true) ∧
    (x.inner.toClient.ended = true → y.outer.toClient.ended = true) ∧
    (x.outer.toApp.ended = true → x.inner.toClient.ended = true →
      y.host = .ended .finished ∧ y.enclave = .ended .finished) := by
  have keep : Reachable y ∧ y.host ∉ [Task.ended .broken, .ended .refused] ∧
      y.enclave ∉ [Task.ended .broken, .ended .refused] ∧
      y.outer.toApp.written = x.outer.toApp.written ∧ y.outer.toApp.ended = x.outer.toApp.ended ∧
      y.inner.toClient.written = x.inner.toClient.written ∧ y.inner.toClient.ended = x.inner.toClient.ended := by
    clear s
    induction hw with
    | refl => exact ⟨h, hh, he, rfl, rfl, rfl, rfl⟩
    | tail _ hs ih =>
      obtain ⟨i1, i2, i3, i4, i5, i6, i7⟩ := ih
      refine ⟨.step i1 (work_is_step hs), ?_⟩
      cases hs with
      | host l r t hs =>
        obtain ⟨k1, k2, _, _, k5⟩ := hs.keeps
        exact ⟨k5, i3, k1.trans i4, k2.trans i5, i6, i7⟩
      | enclave l r t _ hs =>
        obtain ⟨_, _, k3, k4, k5⟩ := hs.keeps
        exact ⟨i2, k5, i4, i5, k3.trans i6, k4.trans i7⟩
  obtain ⟨i1, i2, i3, i4, i5, i6, i7⟩ := keep
  have := settled_delivered i1 s i2 i3
  rw [i4, i5, i6, i7] at this
  exact this

/-- Concrete case: the connection of `sample` is on its way, with two bytes in the host's task; it is not settled, and the
client has not closed. -/
example : ¬ Settled sample ∧ sample.outer.toApp.ended = false := by
  refine ⟨fun s => s _ (.host sample _ _ _ (.writeFwd _ _ _ _ 1 (by decide) (by decide) rfl)), rfl⟩

/-- And the same connection at rest: everything has arrived although nobody has closed. -/
def rested : Line :=
  ⟨⟨⟨[1, 2, 3], 3, false⟩, ⟨[], 0, false⟩⟩, .piping .start .start, ⟨⟨[1, 2, 3], 3, false⟩, ⟨[], 0, false⟩⟩,
    .piping .start .start, ⟨⟨[1, 2, 3], 0, false⟩, ⟨[], 0, false⟩⟩⟩

example : Settled rested := by
  have one : ∀ {l t r l' t' r'}, TaskWork l t r l' t' r' → l.toApp = ⟨[1, 2, 3], 3, false⟩ →
      t = .piping .start .start → r.toClient = ⟨[], 0, false⟩ → False := by
    intro l t r l' t' r' h h1 h2 h3
    cases h <;> simp_all [Half.start]
    all_goals (first | omega | skip)
  intro y h
  cases h with
  | host l r t h => exact one h rfl rfl rfl
  | enclave l r t _ h => exact one h rfl rfl rfl

end Qos.Relay
