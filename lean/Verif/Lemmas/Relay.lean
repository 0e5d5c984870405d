import Verif.Model.Relay
import Mathlib.Logic.Relation
namespace Qos.Relay

/-- An input of a task changes by others only so: more is written unless it had ended. -/
structure Grows (p q : Pipe) : Prop where
  taken : q.taken = p.taken
  more : p.written <+: q.written
  kept : p.ended = true → q.written = p.written ∧ q.ended = true

/-- An output of a task changes by others only so: it is read. -/
structure Reads (p q : Pipe) : Prop where
  written : q.written = p.written
  ended : q.ended = p.ended

theorem Grows.rfl' {p : Pipe} : Grows p p := ⟨rfl, List.prefix_refl _, fun h => ⟨rfl, h⟩⟩
theorem Reads.rfl' {p : Pipe} : Reads p p := ⟨rfl, rfl⟩

/-- One direction of a task that copies. -/
structure Flow (inp : Pipe) (h : Half) (out : Pipe) : Prop where
  bound : inp.taken ≤ inp.written.length
  same : out.written ++ h.pending = inp.written.take inp.taken
  eof : h.eof = true → inp.ended = true ∧ inp.taken = inp.written.length
  done : h.done = true → h.eof = true ∧ h.pending = []
  told : out.ended = h.done

theorem take_of_prefix {α : Type} {l m : List α} {n : Nat} (h : l <+: m) (hn : n ≤ l.length) : m.take n = l.take n := by
  obtain ⟨t, rfl⟩ := h
  rw [List.take_append_of_le_length hn]

theorem Flow.mono {inp inp' out out' : Pipe} {h : Half} (H : Flow inp h out) (hi : Grows inp inp') (ho : Reads out out') :
    Flow inp' h out' where
  bound := by rw [hi.taken]; exact Nat.le_trans H.bound hi.more.length_le
  same := by rw [ho.written, hi.taken, H.same, take_of_prefix hi.more H.bound]
  eof he := by
    obtain ⟨h1, h2⟩ := H.eof he
    obtain ⟨h3, h4⟩ := hi.kept h1
    exact ⟨h4, by rw [hi.taken, h3]; exact h2⟩
  done := H.done
  told := by rw [ho.ended]; exact H.told

theorem Flow.start {inp out : Pipe} (h1 : inp.taken = 0) (h2 : out.written = []) (h3 : out.ended = false) :
    Flow inp .start out where
  bound := by omega
  same := by simp [h1, h2, Half.start]
  eof := by simp [Half.start]
  done := by simp [Half.start]
  told := h3

theorem Flow.pref {inp out : Pipe} {h : Half} (H : Flow inp h out) : out.written <+: inp.written :=
  (List.prefix_append _ _).trans (H.same ▸ List.take_prefix _ _)

theorem Flow.all {inp out : Pipe} {h : Half} (H : Flow inp h out) (hd : h.done = true) :
    out.written = inp.written ∧ inp.ended = true := by
  obtain ⟨he, hp⟩ := H.done hd
  obtain ⟨h1, h2⟩ := H.eof he
  have := H.same
  rw [hp, List.append_nil, h2, List.take_length] at this
  exact ⟨this, h1⟩

/-- What holds of a task between its two connections. -/
def Inv (l : Socket) (t : Task) (r : Socket) : Prop :=
  match t with
  | .idle | .dialing => l.toApp.taken = 0 ∧ r.toClient.taken = 0 ∧ r.toApp.written = [] ∧ r.toApp.ended = false ∧
      l.toClient.written = [] ∧ l.toClient.ended = false
  | .piping f b => Flow l.toApp f r.toApp ∧ Flow r.toClient b l.toClient
  | .ended .refused => r.toApp.written = [] ∧ r.toApp.ended = false ∧ l.toClient.written = [] ∧ l.toClient.ended = true
  | .ended .finished => r.toApp.written = l.toApp.written ∧ l.toApp.ended = true ∧ r.toApp.ended = true ∧
      l.toClient.written = r.toClient.written ∧ r.toClient.ended = true ∧ l.toClient.ended = true
  | .ended .broken => r.toApp.written <+: l.toApp.written ∧ l.toClient.written <+: r.toClient.written ∧
      r.toApp.ended = true ∧ l.toClient.ended = true

theorem Inv.mono {l l' r r' : Socket} {t : Task} (H : Inv l t r) (h1 : Grows l.toApp l'.toApp)
    (h2 : Reads l.toClient l'.toClient) (h3 : Reads r.toApp r'.toApp) (h4 : Grows r.toClient r'.toClient) : Inv l' t r' := by
  match t with
  | .idle | .dialing =>
    obtain ⟨a, b, c, d, e, f⟩ := H
    exact ⟨h1.taken.trans a, h4.taken.trans b, h3.written.trans c, h3.ended.trans d, h2.written.trans e, h2.ended.trans f⟩
  | .piping f b => exact ⟨H.1.mono h1 h3, H.2.mono h4 h2⟩
  | .ended .refused =>
    obtain ⟨a, b, c, d⟩ := H
    exact ⟨h3.written.trans a, h3.ended.trans b, h2.written.trans c, h2.ended.trans d⟩
  | .ended .finished =>
    obtain ⟨a, b, c, d, e, f⟩ := H
    obtain ⟨k1, k2⟩ := h1.kept b
    obtain ⟨k3, k4⟩ := h4.kept e
    exact ⟨by rw [h3.written, k1, a], k2, h3.ended.trans c, by rw [h2.written, k3, d], k4, h2.ended.trans f⟩
  | .ended .broken =>
    obtain ⟨a, b, c, d⟩ := H
    exact ⟨h3.written ▸ a.trans h1.more, h2.written ▸ b.trans h4.more, h3.ended.trans c, h2.ended.trans d⟩

theorem Flow.read {inp out : Pipe} {h : Half} (H : Flow inp h out) (n : Nat) (he : h.eof = false)
    (hn : inp.taken + n ≤ inp.written.length) :
    Flow { inp with taken := inp.taken + n } { h with pending := h.pending ++ (inp.written.drop inp.taken).take n } out where
  bound := hn
  same := by
    show out.written ++ (h.pending ++ _) = inp.written.take (inp.taken + n)
    rw [← List.append_assoc, H.same, List.take_add]
  eof := by simp [he]
  done hd := by
    have := (H.done hd).1
    simp [he] at this
  told := H.told

theorem Flow.write {inp out : Pipe} {h : Half} (H : Flow inp h out) (n : Nat) (hd : h.done = false) :
    Flow inp { h with pending := h.pending.drop n } { out with written := out.written ++ h.pending.take n } where
  bound := H.bound
  same := by
    show (out.written ++ h.pending.take n) ++ h.pending.drop n = _
    rw [List.append_assoc, List.take_append_drop, H.same]
  eof := H.eof
  done := by simp [hd]
  told := H.told

theorem Flow.atEnd {inp out : Pipe} {h : Half} (H : Flow inp h out) (h1 : inp.ended = true)
    (h2 : inp.taken = inp.written.length) : Flow inp { h with eof := true } out where
  bound := H.bound
  same := H.same
  eof _ := ⟨h1, h2⟩
  done hd := ⟨rfl, (H.done hd).2⟩
  told := H.told

theorem Flow.finish {inp out : Pipe} {h : Half} (H : Flow inp h out) (h1 : h.eof = true) (h2 : h.pending = []) :
    Flow inp { h with done := true } { out with ended := true } where
  bound := H.bound
  same := H.same
  eof := H.eof
  done _ := ⟨h1, h2⟩
  told := rfl

theorem Flow.grows_write {inp out : Pipe} {h : Half} (H : Flow inp h out) (n : Nat) (hd : h.done = false) :
    Grows out { out with written := out.written ++ h.pending.take n } where
  taken := rfl
  more := List.prefix_append _ _
  kept he := by rw [H.told, hd] at he; cases he

theorem grows_end (p : Pipe) : Grows p { p with ended := true } := ⟨rfl, List.prefix_refl _, fun _ => ⟨rfl, rfl⟩⟩

/-- A step of a task keeps its invariant and is harmless to its neighbours. -/
theorem Inv.step {l r l' r' : Socket} {t t' : Task} (H : Inv l t r) (h : TaskStep l t r l' t' r') :
    Inv l' t' r' ∧ Reads l.toApp l'.toApp ∧ Grows l.toClient l'.toClient ∧ Grows r.toApp r'.toApp ∧
      Reads r.toClient r'.toClient := by
  cases h with
  | accept => exact ⟨H, .rfl', .rfl', .rfl', .rfl'⟩
  | connected =>
    obtain ⟨a, b, c, d, e, f⟩ := H
    exact ⟨⟨.start a c d, .start b e f⟩, .rfl', .rfl', .rfl', .rfl'⟩
  | refused =>
    obtain ⟨a, b, c, d, e, f⟩ := H
    exact ⟨⟨c, d, e, rfl⟩, .rfl', grows_end _, .rfl', .rfl'⟩
  | readFwd _ f b n he hn => exact ⟨⟨H.1.read n he hn, H.2⟩, ⟨rfl, rfl⟩, .rfl', .rfl', .rfl'⟩
  | writeFwd _ f b n hd => exact ⟨⟨H.1.write n hd, H.2⟩, .rfl', .rfl', H.1.grows_write n hd, .rfl'⟩
  | eofFwd _ f b h1 h2 => exact ⟨⟨H.1.atEnd h1 h2, H.2⟩, .rfl', .rfl', .rfl', .rfl'⟩
  | doneFwd _ f b h1 h2 => exact ⟨⟨H.1.finish h1 h2, H.2⟩, .rfl', .rfl', grows_end _, .rfl'⟩
  | readBack _ f b n he hn => exact ⟨⟨H.1, H.2.read n he hn⟩, .rfl', .rfl', .rfl', ⟨rfl, rfl⟩⟩
  | writeBack _ f b n hd => exact ⟨⟨H.1, H.2.write n hd⟩, .rfl', H.2.grows_write n hd, .rfl', .rfl'⟩
  | eofBack _ f b h1 h2 => exact ⟨⟨H.1, H.2.atEnd h1 h2⟩, .rfl', .rfl', .rfl', .rfl'⟩
  | doneBack _ f b h1 h2 => exact ⟨⟨H.1, H.2.finish h1 h2⟩, .rfl', grows_end _, .rfl', .rfl'⟩
  | finish _ f b h1 h2 =>
    obtain ⟨a1, a2⟩ := H.1.all h1
    obtain ⟨b1, b2⟩ := H.2.all h2
    exact ⟨⟨a1, a2, rfl, b1, b2, rfl⟩, .rfl', grows_end _, grows_end _, .rfl'⟩
  | «break» _ f b => exact ⟨⟨H.1.pref, H.2.pref, rfl, rfl⟩, .rfl', grows_end _, grows_end _, .rfl'⟩

/-- What holds of a connection. -/
structure Good (x : Line) : Prop where
  host : Inv x.outer x.host x.middle
  enclave : Inv x.middle x.enclave x.inner

theorem good_start : Good .start := ⟨⟨rfl, rfl, rfl, rfl, rfl, rfl⟩, ⟨rfl, rfl, rfl, rfl, rfl, rfl⟩⟩

theorem grows_write {p : Pipe} (bytes : Bytes) (h : p.ended = false) : Grows p { p with written := p.written ++ bytes } :=
  ⟨rfl, List.prefix_append _ _, fun he => by rw [h] at he; cases he⟩

theorem Good.step {x y : Line} (H : Good x) (h : Step x y) : Good y := by
  cases h with
  | clientWrite bytes h => exact ⟨H.host.mono (grows_write bytes h) .rfl' .rfl' .rfl', H.enclave⟩
  | clientClose => exact ⟨H.host.mono (grows_end _) .rfl' .rfl' .rfl', H.enclave⟩
  | appWrite bytes hc h => exact ⟨H.host, H.enclave.mono .rfl' .rfl' .rfl' (grows_write bytes h)⟩
  | appClose hc => exact ⟨H.host, H.enclave.mono .rfl' .rfl' .rfl' (grows_end _)⟩
  | host l r t h =>
    obtain ⟨a, _, _, b, c⟩ := H.host.step h
    exact ⟨a, H.enclave.mono b c .rfl' .rfl'⟩
  | enclave l r t hc h =>
    obtain ⟨a, b, c, _, _⟩ := H.enclave.step h
    exact ⟨H.host.mono .rfl' .rfl' b c, a⟩

theorem Reachable.good {x : Line} (h : Reachable x) : Good x := by
  induction h with
  | start => exact good_start
  | step _ hs ih => exact ih.step hs

theorem Inv.fwd {l r : Socket} {t : Task} (H : Inv l t r) : r.toApp.written <+: l.toApp.written := by
  match t with
  | .idle | .dialing => rw [H.2.2.1]; exact List.nil_prefix
  | .piping f b => exact H.1.pref
  | .ended .refused => rw [H.1]; exact List.nil_prefix
  | .ended .finished => exact H.1 ▸ List.prefix_refl _
  | .ended .broken => exact H.1

theorem Inv.back {l r : Socket} {t : Task} (H : Inv l t r) : l.toClient.written <+: r.toClient.written := by
  match t with
  | .idle | .dialing => rw [H.2.2.2.2.1]; exact List.nil_prefix
  | .piping f b => exact H.2.pref
  | .ended .refused => rw [H.2.2.1]; exact List.nil_prefix
  | .ended .finished => exact H.2.2.2.1 ▸ List.prefix_refl _
  | .ended .broken => exact H.2.1

/-- A clean end towards the application. -/
theorem Inv.fwd_end {l r : Socket} {t : Task} (H : Inv l t r) (he : r.toApp.ended = true) :
    (l.toApp.ended = true ∧ r.toApp.written = l.toApp.written) ∨ t = .ended .broken := by
  match t with
  | .idle | .dialing => rw [H.2.2.2.1] at he; cases he
  | .piping f b =>
    rw [H.1.told] at he
    exact .inl (H.1.all he).symm
  | .ended .refused => rw [H.2.1] at he; cases he
  | .ended .finished => exact .inl ⟨H.2.1, H.1⟩
  | .ended .broken => exact .inr rfl

/-- A clean end towards the client. -/
theorem Inv.back_end {l r : Socket} {t : Task} (H : Inv l t r) (he : l.toClient.ended = true) :
    (r.toClient.ended = true ∧ l.toClient.written = r.toClient.written) ∨ t = .ended .broken ∨ t = .ended .refused := by
  match t with
  | .idle | .dialing => rw [H.2.2.2.2.2] at he; cases he
  | .piping f b =>
    rw [H.2.told] at he
    exact .inl (H.2.all he).symm
  | .ended .refused => exact .inr (.inr rfl)
  | .ended .finished => exact .inl ⟨H.2.2.2.2.1, H.2.2.2.1⟩
  | .ended .broken => exact .inr (.inl rfl)

/-! ## Completing -/

/-- Steps of one task. -/
abbrev Runs (l : Socket) (t : Task) (r : Socket) (l' : Socket) (t' : Task) (r' : Socket) : Prop :=
  Relation.ReflTransGen (fun (x y : Socket × Task × Socket) => TaskStep x.1 x.2.1 x.2.2 y.1 y.2.1 y.2.2) (l, t, r) (l', t', r')

theorem Runs.one {l r l' r' : Socket} {t t' : Task} (h : TaskStep l t r l' t' r') : Runs l t r l' t' r' :=
  Relation.ReflTransGen.single h

theorem Runs.next {l r l' r' l'' r'' : Socket} {t t' t'' : Task} (h : Runs l t r l' t' r')
    (k : TaskStep l' t' r' l'' t'' r'') : Runs l t r l'' t'' r'' :=
  Relation.ReflTransGen.tail h k

/-- Copying everything towards the application once the input has ended. -/
theorem drain_fwd {l r : Socket} {f b : Half} (H : Inv l (.piping f b) r) (he : l.toApp.ended = true) :
    ∃ l' f' r', Runs l (.piping f b) r l' (.piping f' b) r' ∧ f'.done = true ∧ l'.toApp.written = l.toApp.written ∧
      l'.toApp.ended = true ∧ r'.toApp.ended = true ∧ r'.toClient = r.toClient := by
  by_cases hd : f.done = true
  · exact ⟨l, f, r, .refl, hd, rfl, he, by rw [H.1.told, hd], rfl⟩
  rw [Bool.not_eq_true] at hd
  obtain ⟨n, hn⟩ : ∃ n, l.toApp.taken + n = l.toApp.written.length := ⟨_, Nat.add_sub_cancel' H.1.bound⟩
  -- read the rest
  obtain ⟨f1, l1, hf1, hl1, hd1, hw1, he1, hr1⟩ : ∃ (f1 : Half) (l1 : Socket), Runs l (.piping f b) r l1 (.piping f1 b) r ∧
      l1.toApp.taken = l1.toApp.written.length ∧ f1.done = false ∧ l1.toApp.written = l.toApp.written ∧
      l1.toApp.ended = true ∧ True := by
    by_cases hf : f.eof = true
    · exact ⟨f, l, .refl, (H.1.eof hf).2, hd, rfl, he, trivial⟩
    · rw [Bool.not_eq_true] at hf
      exact ⟨_, _, .one (.readFwd l r f b n hf (Nat.le_of_eq hn)), hn, hd, rfl, he, trivial⟩
  have h2 := TaskStep.writeFwd l1 r f1 b f1.pending.length hd1
  have h3 := TaskStep.eofFwd l1 { r with toApp := { r.toApp with written := r.toApp.written ++ f1.pending.take f1.pending.length } }
    { f1 with pending := f1.pending.drop f1.pending.length } b he1 hl1
  have h4 := TaskStep.doneFwd l1 { r with toApp := { r.toApp with written := r.toApp.written ++ f1.pending.take f1.pending.length } }
    { f1 with pending := f1.pending.drop f1.pending.length, eof := true } b rfl List.drop_length
  exact ⟨_, _, _, ((Runs.next hf1 h2).next h3).next h4, rfl, hw1, he1, rfl, rfl⟩

/-- Copying everything towards the client once the input has ended. -/
theorem drain_back {l r : Socket} {f b : Half} (H : Inv l (.piping f b) r) (he : r.toClient.ended = true) :
    ∃ l' b' r', Runs l (.piping f b) r l' (.piping f b') r' ∧ b'.done = true ∧ r'.toClient.written = r.toClient.written ∧
      r'.toClient.ended = true ∧ l'.toClient.ended = true ∧ l'.toApp = l.toApp ∧ r'.toApp = r.toApp := by
  by_cases hd : b.done = true
  · exact ⟨l, b, r, .refl, hd, rfl, he, by rw [H.2.told, hd], rfl, rfl⟩
  rw [Bool.not_eq_true] at hd
  obtain ⟨n, hn⟩ : ∃ n, r.toClient.taken + n = r.toClient.written.length := ⟨_, Nat.add_sub_cancel' H.2.bound⟩
  obtain ⟨b1, r1, hb1, hr1, hd1, hw1, he1, ha1⟩ : ∃ (b1 : Half) (r1 : Socket), Runs l (.piping f b) r l (.piping f b1) r1 ∧
      r1.toClient.taken = r1.toClient.written.length ∧ b1.done = false ∧ r1.toClient.written = r.toClient.written ∧
      r1.toClient.ended = true ∧ r1.toApp = r.toApp := by
    by_cases hb : b.eof = true
    · exact ⟨b, r, .refl, (H.2.eof hb).2, hd, rfl, he, rfl⟩
    · rw [Bool.not_eq_true] at hb
      exact ⟨_, _, .one (.readBack l r f b n hb (Nat.le_of_eq hn)), hn, hd, rfl, he, rfl⟩
  have h2 := TaskStep.writeBack l r1 f b1 b1.pending.length hd1
  have h3 := TaskStep.eofBack { l with toClient := { l.toClient with written := l.toClient.written ++ b1.pending.take b1.pending.length } }
    r1 f { b1 with pending := b1.pending.drop b1.pending.length } he1 hr1
  have h4 := TaskStep.doneBack { l with toClient := { l.toClient with written := l.toClient.written ++ b1.pending.take b1.pending.length } }
    r1 f { b1 with pending := b1.pending.drop b1.pending.length, eof := true } rfl List.drop_length
  exact ⟨_, _, _, ((Runs.next hb1 h2).next h3).next h4, rfl, hw1, he1, rfl, rfl, ha1⟩

/-- Steps that add nothing at the two ends. -/
structure Calm (x y : Line) : Prop where
  steps : Relation.ReflTransGen Step x y
  client : y.outer.toApp.written = x.outer.toApp.written
  app : y.inner.toClient.written = x.inner.toClient.written

theorem Calm.trans {x y z : Line} (h : Calm x y) (k : Calm y z) : Calm x z :=
  ⟨h.steps.trans k.steps, k.client.trans h.client, k.app.trans h.app⟩

theorem Calm.good {x y : Line} (h : Calm x y) (g : Good x) : Good y := by
  have := h.steps
  clear h
  induction this with
  | refl => exact g
  | tail _ hs ih => exact ih.step hs

theorem Runs.host {x : Line} {l r : Socket} {t : Task} (h : Runs x.outer x.host x.middle l t r) :
    Relation.ReflTransGen Step x { x with outer := l, host := t, middle := r } := by
  have key : ∀ y : Socket × Task × Socket, Relation.ReflTransGen (fun (x y : Socket × Task × Socket) =>
      TaskStep x.1 x.2.1 x.2.2 y.1 y.2.1 y.2.2) (x.outer, x.host, x.middle) y →
      Relation.ReflTransGen Step x { x with outer := y.1, host := y.2.1, middle := y.2.2 } := by
    intro y hy
    induction hy with
    | refl => exact .refl
    | @tail a b _ hs ih =>
      exact ih.tail (Step.host { x with outer := a.1, host := a.2.1, middle := a.2.2 } b.1 b.2.2 b.2.1 hs)
  exact key (l, t, r) h

theorem Runs.enclave {x : Line} {l r : Socket} {t : Task} (hc : x.host.hasConnected = true)
    (h : Runs x.middle x.enclave x.inner l t r) :
    Relation.ReflTransGen Step x { x with middle := l, enclave := t, inner := r } := by
  have key : ∀ y : Socket × Task × Socket, Relation.ReflTransGen (fun (x y : Socket × Task × Socket) =>
      TaskStep x.1 x.2.1 x.2.2 y.1 y.2.1 y.2.2) (x.middle, x.enclave, x.inner) y →
      Relation.ReflTransGen Step x { x with middle := y.1, enclave := y.2.1, inner := y.2.2 } := by
    intro y hy
    induction hy with
    | refl => exact .refl
    | @tail a b _ hs ih =>
      exact ih.tail (Step.enclave { x with middle := a.1, enclave := a.2.1, inner := a.2.2 } b.1 b.2.2 b.2.1 hc hs)
  exact key (l, t, r) h

/-- A task that has not failed gets to copying, without touching its connections. -/
theorem connects (l r : Socket) (t : Task) (h1 : t ≠ .ended .refused) (h2 : t ≠ .ended .broken) :
    ∃ t', Runs l t r l t' r ∧ ((∃ f b, t' = .piping f b) ∨ t' = .ended .finished) := by
  match t with
  | .idle => exact ⟨_, (Runs.one (.accept l r)).tail (.connected l r), .inl ⟨_, _, rfl⟩⟩
  | .dialing => exact ⟨_, .one (.connected l r), .inl ⟨_, _, rfl⟩⟩
  | .piping f b => exact ⟨_, .refl, .inl ⟨_, _, rfl⟩⟩
  | .ended .finished => exact ⟨_, .refl, .inr rfl⟩
  | .ended .refused => exact absurd rfl h1
  | .ended .broken => exact absurd rfl h2

theorem connected_of {t : Task} (h : (∃ f b, t = .piping f b) ∨ t = .ended .finished) : t.hasConnected = true := by
  rcases h with ⟨f, b, rfl⟩ | rfl <;> rfl

/-- From every state in which neither task has failed, there is a way to the end without anything more being written. -/
theorem completes {x : Line} (g : Good x) (h1 : x.host ≠ .ended .refused) (h2 : x.host ≠ .ended .broken)
    (h3 : x.enclave ≠ .ended .refused) (h4 : x.enclave ≠ .ended .broken) :
    ∃ y, Calm x y ∧ y.host = .ended .finished ∧ y.enclave = .ended .finished := by
  -- both connect
  obtain ⟨t, ht, hc⟩ := connects x.outer x.middle x.host h1 h2
  let x1 : Line := { x with host := t }
  have q1 : Calm x x1 := ⟨ht.host, rfl, rfl⟩
  obtain ⟨u, hu, hd⟩ := connects x1.middle x1.inner x1.enclave h3 h4
  let x2 : Line := { x1 with enclave := u }
  have q2 : Calm x x2 := q1.trans ⟨Runs.enclave (x := x1) (connected_of hc) hu, rfl, rfl⟩
  -- both ends close
  let x3 : Line := { x2 with outer := { x2.outer with toApp := { x2.outer.toApp with ended := true } } }
  have q3 : Calm x x3 := q2.trans ⟨.single (.clientClose x2), rfl, rfl⟩
  let x4 : Line := { x3 with inner := { x3.inner with toClient := { x3.inner.toClient with ended := true } } }
  have q4 : Calm x x4 := q3.trans ⟨.single (.appClose x3 (connected_of hd)), rfl, rfl⟩
  have g4 := q4.good g
  -- the host's task copies forward
  obtain ⟨x5, q5, m5, i5, e5, c5⟩ : ∃ x5, Calm x x5 ∧ x5.middle.toApp.ended = true ∧ x5.inner.toClient.ended = true ∧
      x5.enclave = u ∧ ((∃ f b, x5.host = .piping f b ∧ f.done = true) ∨ x5.host = .ended .finished) := by
    rcases hc with ⟨f, b, rfl⟩ | rfl
    · obtain ⟨l, f', r, hr, hf, hw, _, hr2, hr3⟩ := drain_fwd (l := x4.outer) (r := x4.middle) (f := f) (b := b) g4.host rfl
      refine ⟨{ x4 with outer := l, host := .piping f' b, middle := r }, q4.trans ⟨Runs.host (x := x4) hr, hw, rfl⟩, hr2, rfl,
        rfl, .inl ⟨f', b, rfl, hf⟩⟩
    · exact ⟨x4, q4, g4.host.2.2.1, rfl, rfl, .inr rfl⟩
  have g5 := q5.good g
  have hc5 : x5.host.hasConnected = true := by
    rcases c5 with ⟨f, b, h, _⟩ | h <;> rw [h] <;> rfl
  -- the enclave's task copies both ways and ends
  obtain ⟨x6, q6, m6, e6, c6⟩ : ∃ x6, Calm x x6 ∧ x6.middle.toClient.ended = true ∧ x6.enclave = .ended .finished ∧
      x6.host = x5.host := by
    rcases hd with ⟨f, b, rfl⟩ | rfl
    · have gi := g5.enclave
      rw [e5] at gi
      obtain ⟨l, f', r, hr, hf, hw, hl, hr2, hr3⟩ := drain_fwd gi m5
      have q : Calm x5 { x5 with middle := l, enclave := .piping f' b, inner := r } :=
        ⟨Runs.enclave (x := x5) hc5 (by rw [e5]; exact hr), rfl, by rw [hr3]⟩
      have gi2 := ((q5.trans q).good g).enclave
      obtain ⟨l2, b', r2, hr', hb, hw2, hr4, hl2, hl3, hr5⟩ := drain_back gi2 (by rw [hr3]; exact i5)
      have q' : Calm { x5 with middle := l, enclave := .piping f' b, inner := r }
          { x5 with middle := l2, enclave := .piping f' b', inner := r2 } :=
        ⟨Runs.enclave (x := { x5 with middle := l, enclave := .piping f' b, inner := r }) hc5 hr', rfl, hw2⟩
      have q'' : Calm { x5 with middle := l2, enclave := .piping f' b', inner := r2 }
          { x5 with middle := dropLeft l2, enclave := .ended .finished, inner := dropRight r2 } :=
        ⟨.single (.enclave _ _ _ _ hc5 (.finish l2 r2 f' b' hf hb)), rfl, rfl⟩
      exact ⟨_, ((q5.trans q).trans q').trans q'', rfl, rfl, rfl⟩
    · have gi := g5.enclave
      rw [e5] at gi
      exact ⟨x5, q5, gi.2.2.2.2.2, e5, rfl⟩
  have g6 := q6.good g
  -- the host's task copies back and ends
  rcases c5 with ⟨f, b, hh, hf⟩ | hh
  · rw [hh] at c6
    have gi := g6.host
    rw [c6] at gi
    obtain ⟨l, b', r, hr, hb, hw, _, _, hl, hr2⟩ := drain_back gi m6
    have q7 : Calm x6 { x6 with outer := l, host := .piping f b', middle := r } :=
      ⟨Runs.host (x := x6) (by rw [c6]; exact hr), by rw [hl], rfl⟩
    have q8 : Calm { x6 with outer := l, host := .piping f b', middle := r }
        { x6 with outer := dropLeft l, host := .ended .finished, middle := dropRight r } :=
      ⟨.single (.host _ _ _ _ (.finish l r f b' hf hb)), rfl, rfl⟩
    exact ⟨_, (q6.trans q7).trans q8, rfl, e6⟩
  · exact ⟨x6, q6, c6.trans hh, e6⟩

end Qos.Relay
