import Verif.Model.StateMachine
/-!
# Reasoning about the enclave monad
-/
namespace Qos

/-- Every run of `m`, successful or not, relates its start and end states by `R`. -/
structure Keeps {α : Type} (R : St → St → Prop) (m : M α) : Prop where
  run : ∀ s, R s (m s).2

/-- Reflexive and transitive relations on states. -/
structure Preorderly (R : St → St → Prop) : Prop where
  refl : ∀ s, R s s
  trans : ∀ a b c, R a b → R b c → R a c

variable {R : St → St → Prop} {α β : Type}

theorem keeps_pure (hR : Preorderly R) (a : α) : Keeps R (pure a : M α) := ⟨fun s => hR.refl s⟩

theorem keeps_mpure (hR : Preorderly R) (a : α) : Keeps R (M.pure a) := ⟨fun s => hR.refl s⟩

theorem keeps_bind (hR : Preorderly R) {m : M α} {f : α → M β} (hm : Keeps R m) (hf : ∀ a, Keeps R (f a)) :
    Keeps R (m >>= f) := by
  constructor
  intro s
  show R s (M.bind m f s).2
  unfold M.bind
  have h := hm.run s
  match hms : m s with
  | (.ok a, s') =>
    rw [hms] at h
    exact hR.trans _ _ _ h ((hf a).run s')
  | (.error e, s') =>
    rw [hms] at h
    exact h

theorem keeps_fail (hR : Preorderly R) (e : ProtocolError) : Keeps R (M.fail e : M α) := ⟨fun s => hR.refl s⟩

theorem keeps_lift (hR : Preorderly R) (x : Except ProtocolError α) : Keeps R (M.lift x) := by
  cases x with
  | ok a => exact keeps_mpure hR a
  | error e => exact keeps_fail hR e

theorem keeps_get (hR : Preorderly R) : Keeps R M.get := ⟨fun s => hR.refl s⟩

theorem keeps_ensure (hR : Preorderly R) (c : Bool) (e : ProtocolError) : Keeps R (M.ensure c e) := by
  unfold M.ensure
  cases c
  · exact keeps_fail hR e
  · exact keeps_mpure hR ()

theorem keeps_optional (m : M α) (hm : Keeps R m) : Keeps R (StateMachine.optional m) := by
  constructor
  intro s
  have h := hm.run s
  unfold StateMachine.optional
  match hms : m s with
  | (.ok a, s') => rw [hms] at h; exact h
  | (.error e, s') => rw [hms] at h; exact h

theorem keeps_attempt (m : M α) (hm : Keeps R m) : Keeps R (Services.attempt m) := by
  constructor
  intro s
  have h := hm.run s
  unfold Services.attempt
  match hms : m s with
  | (r, s') => rw [hms] at h; exact h

/-- `M`-computation starting at `s` satisfies `Q` on success and `X` on failure. -/
def Ends (m : M α) (s : St) (Q : α → St → Prop) (X : ProtocolError → St → Prop) : Prop :=
  match m s with
  | (.ok a, s') => Q a s'
  | (.error e, s') => X e s'

variable {Q : α → St → Prop} {X : ProtocolError → St → Prop} {s : St}

theorem ends_pure {a : α} (h : Q a s) : Ends (pure a : M α) s Q X := h

theorem ends_mpure {a : α} (h : Q a s) : Ends (M.pure a) s Q X := h

theorem ends_fail {e : ProtocolError} (h : X e s) : Ends (M.fail e : M α) s Q X := h

theorem ends_bind {m : M α} {f : α → M β} {Q' : β → St → Prop}
    (h : Ends m s (fun a s' => Ends (f a) s' Q' X) X) : Ends (m >>= f) s Q' X := by
  show (match M.bind m f s with | (.ok a, s') => Q' a s' | (.error e, s') => X e s')
  unfold M.bind
  unfold Ends at h
  match hms : m s with
  | (.ok a, s') => rw [hms] at h; exact h
  | (.error e, s') => rw [hms] at h; exact h

theorem ends_mono {m : M α} {Q' : α → St → Prop} {X' : ProtocolError → St → Prop} (h : Ends m s Q X)
    (hQ : ∀ a s', Q a s' → Q' a s') (hX : ∀ e s', X e s' → X' e s') : Ends m s Q' X' := by
  unfold Ends at *
  match hms : m s with
  | (.ok a, s') => rw [hms] at h; exact hQ _ _ h
  | (.error e, s') => rw [hms] at h; exact hX _ _ h

theorem ends_get {Q : St → St → Prop} (h : Q s s) : Ends M.get s Q X := h

theorem ends_modify {f : St → St} {Q : Unit → St → Prop} (h : Q () (f s)) : Ends (M.modify f) s Q X := h

theorem ends_ensure {c : Bool} {e : ProtocolError} {Q : Unit → St → Prop} (hok : c = true → Q () s)
    (herr : c = false → X e s) : Ends (M.ensure c e) s Q X := by
  unfold M.ensure
  cases c
  · exact herr rfl
  · exact hok rfl

theorem ends_lift {x : Except ProtocolError α} (hok : ∀ a, x = .ok a → Q a s)
    (herr : ∀ e, x = .error e → X e s) : Ends (M.lift x) s Q X := by
  cases x with
  | ok a => exact hok a rfl
  | error e => exact herr e rfl

/-- From a run to its ends. -/
theorem ends_of_run {m : M α} (h : ∀ r s', m s = (r, s') →
    match r with | .ok a => Q a s' | .error e => X e s') : Ends m s Q X := by
  unfold Ends
  match hms : m s with
  | (.ok a, s') => exact h _ _ hms
  | (.error e, s') => exact h _ _ hms

/-- A run that is known to succeed. -/
theorem ends_run {m : M α} {a : α} {s' : St} (hr : m s = (.ok a, s')) (h : Q a s') : Ends m s Q X := by
  unfold Ends; rw [hr]; exact h

theorem ends_ok {m : M α} {a : α} {s' : St} (h : Ends m s Q X) (hr : m s = (.ok a, s')) : Q a s' := by
  unfold Ends at h; rw [hr] at h; exact h

theorem ends_error {m : M α} {e : ProtocolError} {s' : St} (h : Ends m s Q X) (hr : m s = (.error e, s')) :
    X e s' := by
  unfold Ends at h; rw [hr] at h; exact h

/-! ## Environment calls, as end states -/

/-- The counter of file-system calls advanced by one. -/
def bump (s : St) : St := { s with ios := s.ios + 1 }

/-- The files replaced, with a trace event. -/
def St.put (s : St) (fs : Files) : St := { s with files := fs, trace := s.trace ++ [.files fs] }

theorem readFile_run (E : Env) (path : String) (s : St) :
    readFile E path s = (.ok (if E.io s.ios = .ok then (s.files path).map (·.data) else none), bump s) := by
  unfold readFile
  show M.bind (nextIo E) _ s = _
  unfold M.bind nextIo
  simp only
  cases h : E.io s.ios <;> rfl

theorem fileExists_run (path : String) (s : St) : fileExists path s = (.ok (s.files path).isSome, s) := rfl

theorem makeParent_run (E : Env) (s : St) :
    makeParent E s = (.ok (E.io s.ios = .ok), bump s) := by
  unfold makeParent
  show M.bind (nextIo E) _ s = _
  unfold M.bind nextIo
  simp only
  cases h : E.io s.ios <;> rfl

theorem writeUpTo_zero (E : Env) (path : String) (buf : Bytes) (s : St) :
    writeUpTo E path buf 0 s = (.ok (), s.put (s.files.set path (some (written E s.files path buf 0)))) := rfl

theorem writeUpTo_succ (E : Env) (path : String) (buf : Bytes) (k : Nat) (s : St) :
    writeUpTo E path buf (k + 1) s = M.bind (writeUpTo E path buf k) (fun _ s' =>
      (.ok (), s'.put (s'.files.set path (some (written E s'.files path buf (k + 1)))))) s := rfl

theorem writeFile_run (E : Env) (path : String) (buf : Bytes) (s : St) :
    writeFile E path buf s = match E.io s.ios with
      | .ok => M.bind (writeUpTo E path buf buf.length) (fun _ s' => (.ok true, s')) (bump s)
      | .fail => (.ok false, bump s)
      | .short k => M.bind (writeUpTo E path buf (min k buf.length)) (fun _ s' => (.ok false, s')) (bump s) := by
  unfold writeFile
  show M.bind (nextIo E) _ s = _
  unfold M.bind nextIo
  simp only
  cases h : E.io s.ios <;> rfl

theorem renameFile_run (E : Env) (a b : String) (s : St) :
    renameFile E a b s = match E.io s.ios, s.files a with
      | .ok, some f => (.ok true, (bump s).put ((s.files.set a none).set b (some f)))
      | _, _ => (.ok false, bump s) := by
  unfold renameFile
  show M.bind (nextIo E) _ s = _
  unfold M.bind nextIo
  simp only
  cases h : E.io s.ios with
  | ok =>
    simp only
    show M.bind M.get _ _ = _
    unfold M.bind M.get
    simp only
    cases s.files a <;> rfl
  | fail => cases s.files a <;> rfl
  | short k => cases s.files a <;> rfl

theorem chmod_run (E : Env) (a : String) (mode : Nat) (s : St) :
    chmod E a mode s = match E.io s.ios, s.files a with
      | .ok, some f => (.ok true, (bump s).put (s.files.set a (some { f with mode := mode })))
      | _, _ => (.ok false, bump s) := by
  unfold chmod
  show M.bind (nextIo E) _ s = _
  unfold M.bind nextIo
  simp only
  cases h : E.io s.ios with
  | ok =>
    simp only
    show M.bind M.get _ _ = _
    unfold M.bind M.get
    simp only
    cases s.files a <;> rfl
  | fail => cases s.files a <;> rfl
  | short k => cases s.files a <;> rfl

theorem removeFile_run (E : Env) (a : String) (s : St) :
    removeFile E a s = match E.io s.ios, s.files a with
      | .ok, some _ => (.ok true, (bump s).put (s.files.set a none))
      | _, _ => (.ok false, bump s) := by
  unfold removeFile
  show M.bind (nextIo E) _ s = _
  unfold M.bind nextIo
  simp only
  cases h : E.io s.ios with
  | ok =>
    simp only
    show M.bind M.get _ _ = _
    unfold M.bind M.get
    simp only
    cases s.files a <;> rfl
  | fail => cases s.files a <;> rfl
  | short k => cases s.files a <;> rfl

end Qos
