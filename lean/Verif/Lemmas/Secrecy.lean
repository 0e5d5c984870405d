import Verif.Spec.Secrecy
import Verif.Spec.Boot
/-!
# Computations that do not see a secret
-/
namespace Qos
open StateMachine Services Handles P256

variable {hidden : String → Prop} {mem : Bool} {α β : Type}

/-- The result is the same from states that are alike, and the states stay alike. -/
structure Blind (hidden : String → Prop) (mem : Bool) (m : M α) : Prop where
  run : ∀ s s', Alike hidden mem s s' → (m s').1 = (m s).1 ∧ Alike hidden mem (m s).2 (m s').2

theorem blind_pure (a : α) : Blind hidden mem (pure a : M α) := ⟨fun _ _ h => ⟨rfl, h⟩⟩

theorem blind_mpure (a : α) : Blind hidden mem (M.pure a) := ⟨fun _ _ h => ⟨rfl, h⟩⟩

theorem blind_fail (e : ProtocolError) : Blind hidden mem (M.fail e : M α) := ⟨fun _ _ h => ⟨rfl, h⟩⟩

theorem blind_bind {m : M α} {f : α → M β} (hm : Blind hidden mem m) (hf : ∀ a, Blind hidden mem (f a)) :
    Blind hidden mem (m >>= f) := by
  constructor
  intro s s' h
  obtain ⟨h1, h2⟩ := hm.run s s' h
  show (M.bind m f s').1 = (M.bind m f s).1 ∧ Alike hidden mem (M.bind m f s).2 (M.bind m f s').2
  unfold M.bind
  rcases hx : m s with ⟨r, t⟩
  rcases hy : m s' with ⟨r', t'⟩
  rw [hx, hy] at h1 h2
  simp only at h1 h2
  subst h1
  cases r' with
  | ok a => exact (hf a).run t t' h2
  | error e => exact ⟨rfl, h2⟩

theorem blind_lift (x : Except ProtocolError α) : Blind hidden mem (M.lift x) := by
  cases x with
  | ok a => exact blind_mpure a
  | error e => exact blind_fail e

theorem blind_ensure (c : Bool) (e : ProtocolError) : Blind hidden mem (M.ensure c e) := by
  unfold M.ensure
  cases c
  · exact blind_fail e
  · exact blind_mpure ()

theorem blind_optional {m : M α} (hm : Blind hidden mem m) : Blind hidden mem (StateMachine.optional m) := by
  constructor
  intro s s' h
  obtain ⟨h1, h2⟩ := hm.run s s' h
  unfold StateMachine.optional
  rcases hx : m s with ⟨r, t⟩
  rcases hy : m s' with ⟨r', t'⟩
  rw [hx, hy] at h1 h2
  simp only at h1 h2
  subst h1
  cases r' <;> exact ⟨rfl, h2⟩

theorem blind_attempt {m : M α} (hm : Blind hidden mem m) : Blind hidden mem (Services.attempt m) := by
  constructor
  intro s s' h
  obtain ⟨h1, h2⟩ := hm.run s s' h
  unfold Services.attempt
  rcases hx : m s with ⟨r, t⟩
  rcases hy : m s' with ⟨r', t'⟩
  rw [hx, hy] at h1 h2
  simp only at h1 h2
  subst h1
  exact ⟨rfl, h2⟩

/-! ## Calls to the outside -/

theorem blind_nextIo (E : Env) : Blind hidden mem (nextIo E) :=
  ⟨fun _ _ h => ⟨by simp only [nextIo]; rw [h.ios], { h with ios := by simp only [nextIo]; rw [h.ios] }⟩⟩

theorem blind_callNsm (E : Env) (r : NsmRequest) : Blind hidden mem (callNsm E r) :=
  ⟨fun _ _ h => ⟨by simp only [callNsm]; rw [h.nsmHist], { h with nsmHist := by simp only [callNsm]; rw [h.nsmHist] }⟩⟩

theorem blind_generatePair (E : Env) : Blind hidden mem (generatePair E) :=
  ⟨fun _ _ h => ⟨by simp only [generatePair]; rw [h.seeds], { h with seeds := by simp only [generatePair]; rw [h.seeds] }⟩⟩

theorem blind_encryptTo (E : Env) (k : Public) (b : Bytes) : Blind hidden mem (encryptTo E k b) :=
  ⟨fun _ _ h => ⟨by simp only [encryptTo]; rw [h.rands], { h with rands := by simp only [encryptTo]; rw [h.rands] }⟩⟩

theorem blind_splitSecret (E : Env) (b : Bytes) (n k : Nat) : Blind hidden mem (splitSecret E b n k) :=
  ⟨fun _ _ h => ⟨by simp only [splitSecret]; rw [h.splits], { h with splits := by simp only [splitSecret]; rw [h.splits] }⟩⟩

/-- A function of what is not hidden. -/
theorem blind_get {f : St → M β} (h : ∀ s s', Alike hidden mem s s' → f s' = f s) (hb : ∀ s, Blind hidden mem (f s)) :
    Blind hidden mem (M.get >>= f) := by
  constructor
  intro s s' hs
  show (f s' s').1 = (f s s).1 ∧ Alike hidden mem (f s s).2 (f s' s').2
  rw [h s s' hs]
  exact (hb s).run s s' hs

theorem blind_readFile (E : Env) {p : String} (hp : ¬ hidden p) : Blind hidden mem (readFile E p) := by
  unfold readFile
  refine blind_bind (blind_nextIo E) fun o => ?_
  cases o with
  | ok => exact blind_get (fun s s' h => by rw [h.files p hp]) fun s => blind_pure _
  | fail => exact blind_pure _
  | short k => exact blind_pure _

theorem blind_fileExists (p : String) : Blind hidden mem (fileExists p) :=
  blind_get (fun s s' h => by rw [h.present p]) fun s => blind_pure _

theorem blind_makeParent (E : Env) : Blind hidden mem (makeParent E) := by
  unfold makeParent
  refine blind_bind (blind_nextIo E) fun o => ?_
  cases o <;> exact blind_pure _

/-- Writing one file in the same way. -/
theorem alike_set {s s' : St} (h : Alike hidden mem s s') {fs fs' : Files} (h1 : ∀ p, ¬ hidden p → fs' p = fs p)
    (h2 : ∀ p, (fs' p).isSome = (fs p).isSome) : Alike hidden mem (setFiles fs s).2 (setFiles fs' s').2 :=
  { h with files := h1, present := h2 }

theorem blind_writeUpTo (E : Env) {p : String} (hp : ¬ hidden p) (b : Bytes) : ∀ k, Blind hidden mem (writeUpTo E p b k)
  | 0 => by
    constructor
    intro s s' h
    refine ⟨rfl, alike_set h ?_ ?_⟩
    · intro q hq
      unfold Files.set written
      rw [h.files p hp, h.files q hq]
    · intro q
      unfold Files.set
      by_cases e : q = p
      · simp [e]
      · simp [e, h.present q]
  | k + 1 => by
    unfold writeUpTo
    refine blind_bind (blind_writeUpTo E hp b k) fun _ => ⟨fun s s' h => ⟨rfl, alike_set h ?_ ?_⟩⟩
    · intro q hq
      unfold Files.set written
      rw [h.files p hp, h.files q hq]
    · intro q
      unfold Files.set
      by_cases e : q = p
      · simp [e]
      · simp [e, h.present q]

theorem blind_writeFile (E : Env) {p : String} (hp : ¬ hidden p) (b : Bytes) : Blind hidden mem (writeFile E p b) := by
  unfold writeFile
  refine blind_bind (blind_nextIo E) fun o => ?_
  cases o with
  | ok => exact blind_bind (blind_writeUpTo E hp b _) fun _ => blind_pure _
  | fail => exact blind_pure _
  | short k => exact blind_bind (blind_writeUpTo E hp b _) fun _ => blind_pure _

theorem blind_renameFile (E : Env) {p q : String} (hp : ¬ hidden p) : Blind hidden mem (renameFile E p q) := by
  unfold renameFile
  refine blind_bind (blind_nextIo E) fun o => ?_
  cases o with
  | ok =>
    constructor
    intro s s' h
    have hf := h.files p hp
    cases hx : s.files p with
    | none =>
      rw [hx] at hf
      constructor
      · show ((match s'.files p with | some f => _ | none => _ : M Bool) s').1 = ((match s.files p with | some f => _ | none => _ : M Bool) s).1
        rw [hx, hf]; rfl
      · show Alike hidden mem ((match s.files p with | some f => _ | none => _ : M Bool) s).2 ((match s'.files p with | some f => _ | none => _ : M Bool) s').2
        rw [hx, hf]; exact h
    | some f =>
      rw [hx] at hf
      constructor
      · show ((match s'.files p with | some f => _ | none => _ : M Bool) s').1 = ((match s.files p with | some f => _ | none => _ : M Bool) s).1
        rw [hx, hf]; rfl
      · show Alike hidden mem ((match s.files p with | some f => _ | none => _ : M Bool) s).2 ((match s'.files p with | some f => _ | none => _ : M Bool) s').2
        rw [hx, hf]
        refine alike_set h ?_ ?_
        · intro r hr
          unfold Files.set
          rw [h.files r hr]
        · intro r
          unfold Files.set
          by_cases e : r = q
          · simp [e]
          · by_cases e' : r = p
            · simp [e, e']
            · simp [e, e', h.present r]
  | fail => exact blind_pure _
  | short k => exact blind_pure _

/-- The same change of a file wherever it exists. -/
theorem blind_change {p : String} (g : File → Option File) (hg : ∀ f f' : File, (g f).isSome = (g f').isSome) :
    Blind hidden mem (M.get >>= fun s => match s.files p with
      | some f => (setFiles (s.files.set p (g f)) >>= fun _ => pure true : M Bool)
      | none => pure false) := by
  constructor
  intro s s' h
  have hf := h.present p
  show ((match s'.files p with | some f => _ | none => _ : M Bool) s').1 = ((match s.files p with | some f => _ | none => _ : M Bool) s).1 ∧
    Alike hidden mem ((match s.files p with | some f => _ | none => _ : M Bool) s).2 ((match s'.files p with | some f => _ | none => _ : M Bool) s').2
  cases hx : s.files p with
  | none =>
    rw [hx] at hf
    cases hy : s'.files p with
    | none => exact ⟨rfl, h⟩
    | some f' => rw [hy] at hf; cases hf
  | some f =>
    rw [hx] at hf
    cases hy : s'.files p with
    | none => rw [hy] at hf; cases hf
    | some f' =>
      refine ⟨rfl, alike_set h ?_ ?_⟩
      · intro r hr
        unfold Files.set
        by_cases e : r = p
        · have := h.files r hr
          rw [e, hx, hy] at this
          injection this with this
          rw [if_pos e, if_pos e, this]
        · rw [if_neg e, if_neg e, h.files r hr]
      · intro r
        unfold Files.set
        by_cases e : r = p
        · rw [if_pos e, if_pos e, hg]
        · rw [if_neg e, if_neg e, h.present r]

theorem blind_chmod (E : Env) (p : String) (n : Nat) : Blind hidden mem (chmod E p n) := by
  unfold chmod
  refine blind_bind (blind_nextIo E) fun o => ?_
  cases o with
  | ok => exact blind_change (p := p) (fun f => some { f with mode := n }) (fun _ _ => rfl)
  | fail => exact blind_pure _
  | short k => exact blind_pure _

theorem blind_removeFile (E : Env) (p : String) : Blind hidden mem (removeFile E p) := by
  unfold removeFile
  refine blind_bind (blind_nextIo E) fun o => ?_
  cases o with
  | ok => exact blind_change (p := p) (fun _ => none) (fun _ _ => rfl)
  | fail => exact blind_pure _
  | short k => exact blind_pure _

/-! ## The services -/

/-- The files whose content matters are not hidden: only the content of the quorum-key file may be. -/
structure Shows (hidden : String → Prop) (p : Paths) : Prop where
  ephemeral : ¬ hidden p.ephemeral
  manifest : ¬ hidden p.manifest
  pivot : ¬ hidden p.pivot
  tmp : ∀ q ∈ p.all, ¬ hidden (withTmpExtension q)

theorem shows_key {E : Env} (h : E.paths.Distinct) : Shows (· = E.paths.quorum) E.paths := by
  have hn := h.nodup
  simp only [Paths.all, List.nodup_cons, List.mem_cons, List.not_mem_nil, or_false, not_or] at hn
  refine ⟨hn.1.1, fun e => hn.2.1.1 e.symm, fun e => hn.2.1.2 e.symm, fun q hq => h.tmp q hq _ ?_⟩
  simp [Paths.all]

theorem shows_all (p : Paths) : Shows (fun _ => False) p := ⟨id, id, id, fun _ _ => id⟩

theorem alike_modify {f : St → St} (h : ∀ s s', Alike hidden mem s s' → Alike hidden mem (f s) (f s')) :
    Blind hidden mem (M.modify f) := ⟨fun s s' hs => ⟨rfl, h s s' hs⟩⟩

/-- Everything but hidden files and reads of the state. -/
macro "blind" : tactic => `(tactic| repeat' first
  | assumption
  | intro _
  | with_reducible apply blind_bind
  | with_reducible apply blind_pure
  | with_reducible apply blind_mpure
  | with_reducible apply blind_fail
  | with_reducible apply blind_lift
  | with_reducible apply blind_ensure
  | with_reducible apply blind_nextIo
  | with_reducible apply blind_callNsm
  | with_reducible apply blind_generatePair
  | with_reducible apply blind_encryptTo
  | with_reducible apply blind_splitSecret
  | with_reducible apply blind_fileExists
  | with_reducible apply blind_makeParent
  | with_reducible apply blind_chmod
  | with_reducible apply blind_removeFile
  | with_reducible apply blind_attempt
  | with_reducible apply blind_optional
  | split)

section
variable {E : Env} (S : Shows hidden E.paths)
include S

theorem blind_writeAsReadOnly {q : String} (hq : q ∈ E.paths.all) (b : Bytes) (e : ProtocolError) :
    Blind hidden mem (writeAsReadOnly E q b e) := by
  have h1 : ∀ b, Blind hidden mem (writeFile E (withTmpExtension q) b) := fun b => blind_writeFile E (S.tmp q hq) b
  have h2 : Blind hidden mem (renameFile E (withTmpExtension q) q) := blind_renameFile E (S.tmp q hq)
  unfold writeAsReadOnly
  blind
  exact h1 b

theorem blind_getEphemeralKey : Blind hidden mem (getEphemeralKey E) := by
  have := blind_readFile (mem := mem) E S.ephemeral
  unfold getEphemeralKey readPair
  blind

theorem blind_getManifestEnvelope : Blind hidden mem (getManifestEnvelope E) := by
  have := blind_readFile (mem := mem) E S.manifest
  unfold getManifestEnvelope
  blind

theorem blind_putEphemeralKey (k : Pair) : Blind hidden mem (putEphemeralKey E k) :=
  blind_writeAsReadOnly S (by simp [Paths.all]) _ _

theorem blind_putQuorumKey (k : Pair) : Blind hidden mem (putQuorumKey E k) :=
  blind_writeAsReadOnly S (by simp [Paths.all]) _ _

theorem blind_putManifestEnvelope (e : Envelope) : Blind hidden mem (putManifestEnvelope E e) := by
  unfold putManifestEnvelope
  split
  · exact blind_fail _
  · exact blind_writeAsReadOnly S (by simp [Paths.all]) _ _

theorem blind_mutate (f : Envelope → Envelope) : Blind hidden mem (mutateManifestEnvelope E f) := by
  have h1 := blind_getManifestEnvelope (mem := mem) S
  have h2 : ∀ b, Blind hidden mem (writeFile E E.paths.manifest b) := fun b => blind_writeFile E S.manifest b
  unfold mutateManifestEnvelope
  blind
  exact h2 _

theorem blind_putPivot (b : Bytes) : Blind hidden mem (putPivot E b) := by
  have h2 : ∀ b, Blind hidden mem (writeFile E E.paths.pivot b) := fun b => blind_writeFile E S.pivot b
  unfold putPivot
  blind
  exact h2 _

theorem blind_rotate (k : Pair) : Blind hidden mem (rotateEphemeralKey E k) := by
  have h2 : ∀ b e, Blind hidden mem (writeAsReadOnly E E.paths.ephemeral b e) := fun b e =>
    blind_writeAsReadOnly S (by simp [Paths.all]) b e
  unfold rotateEphemeralKey
  blind
  exact h2 _ _

omit S in
theorem blind_lockCommitmentBank (a b c : Bytes) : Blind hidden mem (lockCommitmentBank E a b c) := by
  unfold lockCommitmentBank describeNsm extendCommitment lockBank requireAllLocked verifyLocked describePcr
  blind

theorem blind_putManifestAndPivot (e : Envelope) (b : Bytes) : Blind hidden mem (putManifestAndPivot E e b) := by
  have h1 : ∀ a b c, Blind hidden mem (lockCommitmentBank E a b c) := fun a b c => blind_lockCommitmentBank a b c
  have h2 := fun k => blind_putEphemeralKey (mem := mem) S k
  have h3 := fun b => blind_putPivot (mem := mem) S b
  have h4 := fun e => blind_putManifestEnvelope (mem := mem) S e
  have h5 : ∀ live : Pair, Blind hidden mem (M.modify fun s => { s with pending := some live }) := fun live =>
    alike_modify fun s s' h => { h with holds := rfl, pending := fun _ => rfl }
  unfold putManifestAndPivot postBootAttestationDoc
  blind <;> first | exact h1 _ _ _ | exact h2 _ | exact h3 _ | exact h4 _ | exact h5 _

theorem blind_live : Blind hidden mem (liveAttestationDoc E) := by
  have h1 := blind_getManifestEnvelope (mem := mem) S
  have h2 := blind_getEphemeralKey (mem := mem) S
  unfold liveAttestationDoc postBootAttestationDoc
  blind

omit S in
theorem blind_memberOutputs (l : List Bytes) (ms : List QuorumMember) : Blind hidden mem (memberOutputs E l ms) := by
  induction l generalizing ms with
  | nil => unfold memberOutputs; blind
  | cons b l ih =>
    cases ms with
    | nil => unfold memberOutputs; blind
    | cons m ms =>
      have := ih ms
      unfold memberOutputs memberOutput
      blind

omit S in
theorem blind_bootGenesis (g : GenesisSet) (k : Option Bytes) : Blind hidden mem (bootGenesis E g k) := by
  have h1 : ∀ l ms, Blind hidden mem (memberOutputs E l ms) := fun l ms => blind_memberOutputs l ms
  unfold bootGenesis wrapForDr
  blind
  exact h1 _ _

omit S in
theorem blind_takePending : Blind hidden false takePending := by
  unfold takePending
  refine blind_get (fun s s' h => by rw [h.pending rfl]) fun s => ?_
  split
  · exact blind_fail _
  · refine blind_bind (alike_modify fun s s' h => { h with holds := rfl, pending := fun _ => rfl }) fun _ => blind_pure _

theorem blind_install (k : Pair) : Blind hidden false (installQuorumKey E k) := by
  have h1 := fun k => blind_rotate (mem := false) S k
  have h2 := fun k => blind_putQuorumKey (mem := false) S k
  unfold installQuorumKey
  exact blind_bind blind_takePending fun live => blind_bind (h1 live) fun _ => h2 k

theorem blind_injectKey (a b : Bytes) : Blind hidden false (injectKey E a b) := by
  have h1 := blind_getManifestEnvelope (mem := false) S
  have h2 := blind_getEphemeralKey (mem := false) S
  have h3 := fun k => blind_install S k
  unfold injectKey
  blind

omit S in
theorem blind_addShare (b : Bytes) : Blind hidden mem (addShare b) := by
  unfold addShare
  refine blind_bind (blind_ensure _ _) fun _ => alike_modify fun s s' h =>
    { h with count := ?_, shares := fun hm => ?_ }
  · show (s'.shares ++ [b]).length = (s.shares ++ [b]).length
    rw [List.length_append, List.length_append, h.count]
  · show s'.shares ++ [b] = s.shares ++ [b]
    rw [h.shares hm]

theorem blind_provision (b : Bytes) (a : Approval) : Blind hidden false (provision E b a) := by
  have h1 := blind_getManifestEnvelope (mem := false) S
  have h2 := blind_getEphemeralKey (mem := false) S
  have h3 := fun k => blind_install S k
  have h4 := fun f => blind_mutate (mem := false) S f
  have h5 : ∀ b, Blind hidden false (addShare b) := fun b => blind_addShare b
  unfold provision
  refine blind_bind h1 fun e => blind_bind (blind_lift _) fun _ => blind_bind (blind_ensure _ _) fun _ =>
    blind_bind (h4 _) fun _ => blind_bind h2 fun k => ?_
  split
  · exact blind_fail _
  · refine blind_bind (h5 _) fun _ => blind_get (fun s s' h => by rw [h.shares rfl]) fun s => ?_
    split
    · exact blind_pure _
    · refine blind_bind (blind_lift _) fun secret => blind_bind (alike_modify fun s s' h =>
        { h with count := rfl, shares := fun _ => rfl }) fun _ => blind_bind (blind_lift _) fun pair => blind_bind (h3 _) fun _ =>
          blind_pure _

omit S in
theorem blind_extract (der : Bytes) : Blind hidden mem (extractAttestationDoc E der) := by
  unfold extractAttestationDoc
  refine blind_get (fun s s' h => by rw [h.ios, h.nsmHist]) fun s => ?_
  blind

end

/-! ## Routes -/

theorem blind_transition (n : Phase) : Blind hidden mem (transition n) := by
  constructor
  intro s s' h
  unfold transition
  rw [h.phase]
  by_cases h1 : s.phase = n
  · rw [if_pos h1, if_pos h1]; exact ⟨rfl, h⟩
  · rw [if_neg h1, if_neg h1]
    by_cases h2 : (transitions s.phase).contains n
    · rw [if_pos h2, if_pos h2]; exact ⟨rfl, { h with phase := rfl }⟩
    · rw [if_neg h2, if_neg h2]; exact ⟨rfl, { h with phase := rfl }⟩

theorem finish_alike (n : Phase) (a : Msg) {s s' : St} (h : Alike hidden mem s s') :
    (finish n a s').1 = (finish n a s).1 ∧ Alike hidden mem (finish n a s).2 (finish n a s').2 := by
  obtain ⟨h1, h2⟩ := (blind_transition n).run s s' h
  unfold finish
  rcases hx : transition n s with ⟨r, t⟩
  rcases hy : transition n s' with ⟨r', t'⟩
  rw [hx, hy] at h1 h2
  simp only at h1 h2
  subst h1
  cases r' <;> exact ⟨rfl, h2⟩

theorem after_alike (r : Route) (x : Except ProtocolError Msg) {s s' : St} (h : Alike hidden mem s s') :
    (afterHandler r (x, s')).1 = (afterHandler r (x, s)).1 ∧
      Alike hidden mem (afterHandler r (x, s)).2 (afterHandler r (x, s')).2 := by
  cases x with
  | error e => exact finish_alike r.errPhase _ h
  | ok a =>
    by_cases ha : a = .provisionResponse false
    · subst ha; exact ⟨rfl, h⟩
    · have e : ∀ t, afterHandler r (.ok a, t) = finish r.okPhase a t := by
        intro t
        unfold afterHandler
        split
        · rename_i heq; injection heq with h1 _; injection h1 with h1; exact absurd h1 ha
        · rename_i heq; injection heq with h1 h2; injection h1 with h1; subst h1 h2; rfl
        · rename_i heq; injection heq with h1 _; cases h1
      rw [e, e]
      exact finish_alike r.okPhase a h

/-- A request none of whose handlers sees what is hidden. -/
theorem handle_alike {E : Env} {msg : Msg} {s s' : St} (h : Alike hidden mem s s')
    (hb : ∀ r ∈ routes E s.phase, ∀ m, r.handler msg = some m → Blind hidden mem m) :
    (handle E msg s').1 = (handle E msg s).1 ∧ Alike hidden mem (handle E msg s).2 (handle E msg s').2 := by
  unfold handle
  rw [h.phase]
  revert hb
  generalize routes E s.phase = rs
  induction rs with
  | nil =>
    intro _
    unfold dispatch
    rw [h.phase]
    exact ⟨rfl, h⟩
  | cons r rs ih =>
    intro hb
    unfold dispatch
    cases hr : r.handler msg with
    | none => exact ih fun r' hr' => hb r' (List.mem_cons_of_mem _ hr')
    | some m =>
      obtain ⟨h1, h2⟩ := (hb r List.mem_cons_self m hr).run s s' h
      simp only
      rcases hx : m s with ⟨x, t⟩
      rcases hy : m s' with ⟨x', t'⟩
      rw [hx, hy] at h1 h2
      simp only at h1 h2
      subst h1
      exact after_alike r x' h2

end Qos
