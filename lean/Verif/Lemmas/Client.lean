import Verif.Model.Client
/-!
# Reasoning about client commands
-/
namespace Qos.Client
variable {S α β : Type}

@[simp] theorem orStop_ok {x : Option α} {s : Stop} {a : α} : orStop x s = .ok a ↔ x = some a := by
  cases x <;> simp [orStop]

@[simp] theorem mapStop_ok {ε : Type} {x : Except ε α} {f : ε → Stop} {a : α} : mapStop x f = .ok a ↔ x = .ok a := by
  cases x <;> simp [mapStop]

@[simp] theorem guardStop_ok {b : Bool} {s : Stop} {u : Unit} : guardStop b s = .ok u ↔ b = true := by
  cases b <;> simp [guardStop]

theorem ebind_ok {ε : Type} {x : Except ε α} {f : α → Except ε β} {b : β} :
    (x >>= f) = .ok b ↔ ∃ a, x = .ok a ∧ f a = .ok b := by
  cases x with
  | error e => simp [bind, Except.bind]
  | ok a => simp [bind, Except.bind]

theorem epure_ok {ε : Type} {a b : α} : (pure a : Except ε α) = .ok b ↔ a = b := by simp [pure, Except.pure]

theorem Run.bind_events (x : Run S α) (f : α → Run S β) (s : S) :
    ((x >>= f) s).events = (x s).events ++
      (match (x s).result with | .ok a => (f a (x s).state).events | .error _ => []) := by
  show (Run.bind x f s).events = _
  unfold Run.bind
  rcases h : x s with ⟨r, s', es⟩
  cases r <;> simp

theorem Run.bind_result (x : Run S α) (f : α → Run S β) (s : S) :
    ((x >>= f) s).result =
      (match (x s).result with | .ok a => (f a (x s).state).result | .error e => .error e) := by
  show (Run.bind x f s).result = _
  unfold Run.bind
  rcases h : x s with ⟨r, s', es⟩
  cases r <;> simp

theorem Run.bind_state (x : Run S α) (f : α → Run S β) (s : S) :
    ((x >>= f) s).state =
      (match (x s).result with | .ok a => (f a (x s).state).state | .error _ => (x s).state) := by
  show (Run.bind x f s).state = _
  unfold Run.bind
  rcases h : x s with ⟨r, s', es⟩
  cases r <;> simp

theorem Run.lift_ok {x : Except Stop α} {a : α} (h : x = .ok a) (f : α → Run S β) (s : S) :
    (Run.lift x >>= f) s = f a s := by
  subst h
  show Run.bind _ f s = _
  simp [Run.bind, Run.lift]

theorem Run.lift_error {x : Except Stop α} {e : Stop} (h : x = .error e) (f : α → Run S β) (s : S) :
    (Run.lift x >>= f) s = ⟨.error e, s, []⟩ := by
  subst h
  show Run.bind _ f s = _
  simp [Run.bind, Run.lift]

/-- Either the effect-free step fails and nothing happens, or the rest runs. -/
theorem Run.lift_cases (x : Except Stop α) (f : α → Run S β) (s : S) :
    (∃ e, x = .error e ∧ (Run.lift x >>= f) s = ⟨.error e, s, []⟩) ∨
    (∃ a, x = .ok a ∧ (Run.lift x >>= f) s = f a s) := by
  cases h : x with
  | error e => exact Or.inl ⟨e, rfl, Run.lift_error rfl f s⟩
  | ok a => exact Or.inr ⟨a, rfl, Run.lift_ok rfl f s⟩

theorem write_bind {C : Setting S} {path : String} {b : Bytes} (f : Unit → Run S β) (s : S) :
    (write C path b >>= f) s = if C.disk.writable path = true then
      ⟨(f () s).result, (f () s).state, .wrote path b :: (f () s).events⟩ else ⟨.error .panic, s, []⟩ := by
  show Run.bind _ f s = _
  unfold Run.bind write
  by_cases h : C.disk.writable path = true <;> simp [h]

theorem confirm_bind {auto : Bool} {qs : List Question} {input : List String} (f : Unit → Run S β) (s : S) :
    (confirm auto qs input >>= f) s =
      if auto = true then f () s
      else if (interview qs input).1 = true then
        ⟨(f () s).result, (f () s).state, (interview qs input).2 ++ (f () s).events⟩
      else ⟨.error .exit1, s, (interview qs input).2⟩ := by
  show Run.bind _ f s = _
  unfold Run.bind confirm
  by_cases ha : auto = true
  · simp [ha]
  · by_cases h : (interview qs input).1 = true <;> simp [ha, h]

theorem postWire_cases (C : Setting S) (m : Msg) (enc : Wire.Encoding) (f : Option Msg → Run S β) (s : S) :
    ((∀ b, Wire.toWire m enc ≠ .ok b) ∧ (postWire C m enc >>= f) s = f none s) ∨
    (∃ b, Wire.toWire m enc = .ok b ∧ (postWire C m enc >>= f) s =
      ⟨(f (readAnswer (C.net s b).2) (C.net s b).1).result, (f (readAnswer (C.net s b).2) (C.net s b).1).state,
        .sent b :: (f (readAnswer (C.net s b).2) (C.net s b).1).events⟩) := by
  unfold postWire
  cases h : Wire.toWire m enc with
  | error e =>
    left
    refine ⟨by simp, ?_⟩
    show Run.bind (Run.pure none) f s = _
    simp [Run.bind, Run.pure]
  | ok b =>
    right
    refine ⟨b, rfl, ?_⟩
    show Run.bind (exchange C b) f s = _
    simp [Run.bind, exchange]

end Qos.Client
