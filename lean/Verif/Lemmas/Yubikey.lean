import Verif.Spec.Yubikey
import Verif.Props.ClientTools
/-!
# Work with the card, step by step
-/
namespace Qos.Yubi
open Client (Stop ClientError YubiKeyError Setting Run Disk orStop mapStop guardStop)
variable {D α β : Type}

theorem bind_run (x : Dev D α) (f : α → Dev D β) (s : Plugged D) :
    (x >>= f) s = match x s with
      | (.ok a, s') => f a s'
      | (.error e, s') => (.error e, s') := rfl

theorem bind_ok {x : Dev D α} {f : α → Dev D β} {s s' : Plugged D} {a : α} (h : x s = (.ok a, s')) : (x >>= f) s = f a s' := by
  rw [bind_run, h]

theorem bind_error {x : Dev D α} {f : α → Dev D β} {s s' : Plugged D} {e : Fail} (h : x s = (.error e, s')) :
    (x >>= f) s = (.error e, s') := by
  rw [bind_run, h]

/-- A successful sequence is two successful steps. -/
theorem bind_done {x : Dev D α} {f : α → Dev D β} {s t : Plugged D} {b : β} (h : (x >>= f) s = (.ok b, t)) :
    ∃ a s', x s = (.ok a, s') ∧ f a s' = (.ok b, t) := by
  rw [bind_run] at h
  match hx : x s with
  | (.ok a, s') => exact ⟨a, s', rfl, by rw [hx] at h; exact h⟩
  | (.error e, s') => rw [hx] at h; cases h

theorem need_run (P : Piv D) (c : Cmd) (e : YubiKeyError) (s : Plugged D) :
    need P c e s = (succeeded e (P.act s.card c).2, ⟨(P.act s.card c).1, s.log ++ [(c, (P.act s.card c).2)]⟩) := rfl

theorem needKey_run (P : Piv D) (c : Cmd) (e : YubiKeyError) (s : Plugged D) :
    needKey P c e s = (keyOf e (P.act s.card c).2, ⟨(P.act s.card c).1, s.log ++ [(c, (P.act s.card c).2)]⟩) := rfl

theorem needData_run (P : Piv D) (c : Cmd) (e : YubiKeyError) (s : Plugged D) :
    needData P c e s = (dataOf e (P.act s.card c).2, ⟨(P.act s.card c).1, s.log ++ [(c, (P.act s.card c).2)]⟩) := rfl

theorem lift_run (x : Except Fail α) (s : Plugged D) : Dev.lift x s = (x, s) := rfl

theorem requireEmpty_run (P : Piv D) (slot : Slot) (s : Plugged D) :
    requireEmpty P slot s =
      (if (P.act s.card (.readCertificate slot)).2.isOk then .error (.error .willNotOverwriteSlot) else .ok (),
        ⟨(P.act s.card (.readCertificate slot)).1,
          s.log ++ [(.readCertificate slot, (P.act s.card (.readCertificate slot)).2)]⟩) := rfl

theorem keyOf_ok {e : YubiKeyError} {a : Answer} {k : Bytes} (h : keyOf e a = .ok k) : a = .done k ∧ encodedPoint k = true := by
  cases a with
  | failed => cases h
  | ragged => cases h
  | done b =>
    simp only [keyOf] at h
    by_cases hb : encodedPoint b = true
    · rw [if_pos hb] at h; cases h; exact ⟨rfl, hb⟩
    · rw [if_neg hb] at h; cases h

theorem encodedPoint_length {k : Bytes} (h : encodedPoint k = true) : k.length = 1 ∨ k.length = 33 ∨ k.length = 65 := by
  cases k with
  | nil => simp [encodedPoint] at h
  | cons t rest =>
    simp only [encodedPoint] at h
    split at h
    · simp at h; simp [h]
    · split at h
      · simp at h; simp [h]
      · split at h
        · simp at h; simp [h]
        · cases h

/-! ## Successful commands -/

/-- A successful sequence is two successful steps. -/
theorem run_done {S : Type} {x : Run S α} {f : α → Run S β} {s t : S} {b : β} {es : List Client.Event}
    (h : (x >>= f) s = ⟨.ok b, t, es⟩) :
    ∃ a s' e1 e2, x s = ⟨.ok a, s', e1⟩ ∧ f a s' = ⟨.ok b, t, e2⟩ ∧ es = e1 ++ e2 := by
  have h' : Run.bind x f s = ⟨.ok b, t, es⟩ := h
  unfold Run.bind at h'
  match hx : x s with
  | ⟨.ok a, s', e1⟩ =>
    rw [hx] at h'
    simp only [Client.Out.mk.injEq] at h'
    refine ⟨a, s', e1, (f a s').events, rfl, ?_, h'.2.2.symm⟩
    rw [← h'.1, ← h'.2.1]
  | ⟨.error e, s', e1⟩ => rw [hx] at h'; simp at h'

theorem lift_done {S : Type} {x : Except Stop α} {s t : S} {a : α} {es : List Client.Event}
    (h : (Run.lift x : Run S α) s = ⟨.ok a, t, es⟩) : t = s ∧ es = [] ∧ x = .ok a := by
  have h' : (⟨x, s, []⟩ : Client.Out S α) = ⟨.ok a, t, es⟩ := h
  simp only [Client.Out.mk.injEq] at h'
  exact ⟨h'.2.1.symm, h'.2.2.symm, h'.1⟩

theorem pure_done {S : Type} {s t : S} {x a : α} {es : List Client.Event}
    (h : (pure x : Run S α) s = ⟨.ok a, t, es⟩) : t = s ∧ es = [] ∧ x = a := by
  have h' : (⟨.ok x, s, []⟩ : Client.Out S α) = ⟨.ok a, t, es⟩ := h
  simp only [Client.Out.mk.injEq, Except.ok.injEq] at h'
  exact ⟨h'.2.1.symm, h'.2.2.symm, h'.1⟩

theorem onCard_done {w : YubiKeyError → ClientError} {x : Dev D α} {s t : Plugged D} {a : α} {es : List Client.Event}
    (h : onCard w x s = ⟨.ok a, t, es⟩) : x s = (.ok a, t) ∧ es = [] := by
  have h' : (⟨mapStop (x s).1 (stopOf w), (x s).2, []⟩ : Client.Out (Plugged D) α) = ⟨.ok a, t, es⟩ := h
  simp only [Client.Out.mk.injEq, Client.mapStop_ok] at h'
  exact ⟨Prod.ext h'.1 h'.2.1, h'.2.2.symm⟩

theorem openCard_done {P : Piv D} {e : ClientError} {s t : Plugged D} {u : Unit} {es : List Client.Event}
    (h : openCard P e s = ⟨.ok u, t, es⟩) : t = s ∧ es = [] ∧ P.opens s.card = true := by
  unfold openCard at h
  by_cases ho : P.opens s.card = true
  · rw [if_pos ho] at h
    simp only [Client.Out.mk.injEq] at h
    exact ⟨h.2.1.symm, h.2.2.symm, ho⟩
  · rw [if_neg ho] at h; simp at h

theorem write_done {S : Type} {C : Setting S} {path : String} {b : Bytes} {s t : S} {u : Unit} {es : List Client.Event}
    (h : Client.write C path b s = ⟨.ok u, t, es⟩) : t = s ∧ es = [.wrote path b] ∧ C.disk.writable path = true := by
  unfold Client.write at h
  by_cases hw : C.disk.writable path = true
  · rw [if_pos hw] at h
    simp only [Client.Out.mk.injEq] at h
    exact ⟨h.2.1.symm, h.2.2.symm, hw⟩
  · rw [if_neg hw] at h; simp at h

/-! ## What a piece of work adds to the log -/

/-- Whatever the card does, what is added to the log satisfies `Q`. -/
def Logs (Q : List (Cmd × Answer) → Prop) (x : Dev D α) : Prop := ∀ s, ∃ l, (x s).2.log = s.log ++ l ∧ Q l

/-- The same for a command. -/
def RunLogs (Q : List (Cmd × Answer) → Prop) (x : Run (Plugged D) α) : Prop :=
  ∀ s, ∃ l, (x s).state.log = s.log ++ l ∧ Q l

/-- Nothing asked is fine, and one fine log after the other is. -/
structure Closed (Q : List (Cmd × Answer) → Prop) : Prop where
  nil : Q []
  append : ∀ a b, Q a → Q b → Q (a ++ b)

variable {Q : List (Cmd × Answer) → Prop}

theorem Logs.bind (hQ : Closed Q) {x : Dev D α} {f : α → Dev D β} (hx : Logs Q x) (hf : ∀ a, Logs Q (f a)) :
    Logs Q (x >>= f) := by
  intro s
  obtain ⟨l, hl, hq⟩ := hx s
  rw [bind_run]
  match h : x s with
  | (.ok a, s') =>
    rw [h] at hl
    obtain ⟨l', hl', hq'⟩ := hf a s'
    simp only at hl hl' ⊢
    exact ⟨l ++ l', by rw [hl', hl, List.append_assoc], hQ.append _ _ hq hq'⟩
  | (.error e, s') =>
    rw [h] at hl
    exact ⟨l, hl, hq⟩

theorem Logs.lift (hQ : Closed Q) (x : Except Fail α) : Logs Q (Dev.lift x : Dev D α) :=
  fun s => ⟨[], by simp [lift_run], hQ.nil⟩

theorem Logs.pure (hQ : Closed Q) (a : α) : Logs Q (Pure.pure a : Dev D α) :=
  fun s => ⟨[], (List.append_nil _).symm, hQ.nil⟩

theorem Logs.send {P : Piv D} {c : Cmd} (h : ∀ a, Q [(c, a)]) : Logs Q (send P c) :=
  fun s => ⟨_, rfl, h _⟩

theorem Logs.need {P : Piv D} {c : Cmd} {e : YubiKeyError} (h : ∀ a, Q [(c, a)]) : Logs Q (need P c e) :=
  fun s => ⟨_, rfl, h _⟩

theorem Logs.needKey {P : Piv D} {c : Cmd} {e : YubiKeyError} (h : ∀ a, Q [(c, a)]) : Logs Q (needKey P c e) :=
  fun s => ⟨_, rfl, h _⟩

theorem Logs.needData {P : Piv D} {c : Cmd} {e : YubiKeyError} (h : ∀ a, Q [(c, a)]) : Logs Q (needData P c e) :=
  fun s => ⟨_, rfl, h _⟩

theorem RunLogs.bind (hQ : Closed Q) {x : Run (Plugged D) α} {f : α → Run (Plugged D) β} (hx : RunLogs Q x)
    (hf : ∀ a, RunLogs Q (f a)) : RunLogs Q (x >>= f) := by
  intro s
  obtain ⟨l, hl, hq⟩ := hx s
  show ∃ m, (Run.bind x f s).state.log = s.log ++ m ∧ Q m
  unfold Run.bind
  match h : x s with
  | ⟨.ok a, s', es⟩ =>
    rw [h] at hl
    obtain ⟨l', hl', hq'⟩ := hf a s'
    simp only at hl hl' ⊢
    exact ⟨l ++ l', by rw [hl', hl, List.append_assoc], hQ.append _ _ hq hq'⟩
  | ⟨.error e, s', es⟩ =>
    rw [h] at hl
    exact ⟨l, hl, hq⟩

theorem RunLogs.lift (hQ : Closed Q) (x : Except Stop α) : RunLogs Q (Run.lift x : Run (Plugged D) α) :=
  fun s => ⟨[], (List.append_nil _).symm, hQ.nil⟩

theorem RunLogs.pure (hQ : Closed Q) (a : α) : RunLogs Q (Pure.pure a : Run (Plugged D) α) :=
  fun s => ⟨[], (List.append_nil _).symm, hQ.nil⟩

theorem RunLogs.onCard {w : YubiKeyError → ClientError} {x : Dev D α} (h : Logs Q x) : RunLogs Q (onCard w x) := h

theorem RunLogs.openCard (hQ : Closed Q) (P : Piv D) (e : ClientError) : RunLogs Q (openCard P e) := by
  intro s
  refine ⟨[], ?_, hQ.nil⟩
  unfold Yubi.openCard
  split <;> simp

theorem RunLogs.write (hQ : Closed Q) (C : Setting (Plugged D)) (path : String) (b : Bytes) :
    RunLogs Q (Client.write C path b) := by
  intro s
  refine ⟨[], ?_, hQ.nil⟩
  unfold Client.write
  split <;> simp

theorem RunLogs.confirm (hQ : Closed Q) (auto : Bool) (qs : List Client.Question) (input : List String) :
    RunLogs Q (Client.confirm auto qs input : Run (Plugged D) Unit) := by
  intro s
  refine ⟨[], ?_, hQ.nil⟩
  unfold Client.confirm
  split
  · simp
  · simp only
    split <;> simp

theorem RunLogs.orPanic {x : Run (Plugged D) α} (h : RunLogs Q x) : RunLogs Q (orPanic x) := h

theorem RunLogs.quiet (hQ : Closed Q) {x : Run (Plugged D) Unit} (h : RunLogs Q x) : RunLogs Q (ClientCli.quiet x) :=
  RunLogs.bind hQ h fun _ => RunLogs.pure hQ _

theorem closed_guarded : Closed Guarded where
  nil := by
    intro before c after slot h
    simp at h
  append a b ha hb := by
    intro before c after slot h hw
    rcases List.append_eq_append_iff.mp h with ⟨m, h1, h2⟩ | ⟨m, h1, h2⟩
    · -- the command is in b
      obtain ⟨pre, hpre⟩ := hb m c after slot h2 hw
      exact ⟨a ++ pre, by rw [h1, hpre, List.append_assoc]⟩
    · cases m with
      | nil =>
        simp only [List.append_nil, List.nil_append] at h1 h2
        obtain ⟨pre, hpre⟩ := hb [] c after slot (by simpa using h2.symm) hw
        simp at hpre
      | cons x xs =>
        simp only [List.cons_append, List.cons.injEq] at h2
        obtain ⟨rfl, -⟩ := h2
        exact ha before c xs slot h1 hw

theorem closed_protected : Closed Protected where
  nil := ⟨by simp, by simp⟩
  append a b ha hb := by
    refine ⟨fun slot p t x h => ?_, fun slot k t p x h => ?_⟩
    · rcases List.mem_append.mp h with h | h
      exacts [ha.1 _ _ _ _ h, hb.1 _ _ _ _ h]
    · rcases List.mem_append.mp h with h | h
      exacts [ha.2 _ _ _ _ _ h, hb.2 _ _ _ _ _ h]

/-- A command that puts no key anywhere is guarded. -/
theorem guarded_single {c : Cmd} {a : Answer} (h : ∀ slot, ¬ c.WritesKey slot) : Guarded [(c, a)] := by
  intro before x after slot e hw
  cases before with
  | nil => simp only [List.nil_append, List.cons.injEq] at e; rw [← e.1] at hw; exact absurd hw (h slot)
  | cons b bs => simp at e

/-- A key put where no certificate was found. -/
theorem guarded_pair {slot : Slot} {c : Cmd} {a : Answer} (h : ∀ s, c.WritesKey s → s = slot) :
    Guarded [(.readCertificate slot, .failed), (c, a)] := by
  intro before x after s e hw
  match before, e with
  | [], e =>
    simp only [List.nil_append, List.cons.injEq] at e
    rw [← e.1] at hw
    simp [Cmd.WritesKey] at hw
  | [b], e =>
    simp only [List.cons_append, List.nil_append, List.cons.injEq] at e
    obtain ⟨rfl, rfl, -⟩ := e
    exact ⟨[], by rw [h s hw]; rfl⟩
  | b :: b' :: bs, e => simp at e

end Qos.Yubi
