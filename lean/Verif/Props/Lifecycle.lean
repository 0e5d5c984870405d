import Verif.Spec.Lifecycle
import Verif.Lemmas.Raises
import Mathlib.Logic.Relation
/-!
# C01–C04: lifecycle

Everything here holds for every environment (device answers, I/O failures, randomness) and every state.

Concrete cases: `Props/LifecycleExamples.lean` and `Props/EnclaveExamples.lean`.
-/
namespace Qos.Lifecycle
open StateMachine Services Handles

/-! ## What a single request does -/

/-- Every success of `m` satisfies `P`. -/
structure Answers {α : Type} (P : α → Prop) (m : M α) : Prop where
  run : ∀ s a s', m s = (.ok a, s') → P a

theorem answers_pure {α : Type} {P : α → Prop} {a : α} (h : P a) : Answers P (pure a : M α) :=
  ⟨fun s b s' hb => by cases hb; exact h⟩

theorem answers_bind {α β : Type} {P : β → Prop} {m : M α} {f : α → M β} (h : ∀ a, Answers P (f a)) :
    Answers P (m >>= f) := by
  constructor
  intro s b s' hb
  change M.bind m f s = _ at hb
  unfold M.bind at hb
  match hm : m s with
  | (.ok a, s1) => rw [hm] at hb; exact (h a).run _ _ _ hb
  | (.error e, s1) => rw [hm] at hb; cases hb

/-- Not an error response. -/
def NotError : Msg → Prop
  | .protocolErrorResponse _ => False
  | _ => True

/-- All handlers of a route list keep the phase and never raise dispatcher errors. -/
structure Route.Tame (r : Route) : Prop where
  phase : ∀ m act, r.handler m = some act → Keeps SamePhase act
  clean : ∀ m act, r.handler m = some act → Clean act
  answers : ∀ m act, r.handler m = some act → Answers NotError act

theorem tame_status (a b : Phase) : Route.Tame ⟨status, a, b⟩ := by
  constructor <;> intro m act h <;> cases m <;> simp only [status] at h <;> cases h
  · keeps_tac samePhase_pre
  · clean_tac
  · repeat' first | exact answers_pure trivial | refine answers_bind fun _ => ?_

theorem tame_version (E : Env) (a b : Phase) : Route.Tame ⟨version E, a, b⟩ := by
  constructor <;> intro m act h <;> cases m <;> simp only [version] at h <;> cases h
  · keeps_tac samePhase_pre
  · clean_tac
  · repeat' first | exact answers_pure trivial | refine answers_bind fun _ => ?_

theorem tame_manifestEnvelope (E : Env) (a b : Phase) : Route.Tame ⟨manifestEnvelope E, a, b⟩ := by
  constructor <;> intro m act h <;> cases m <;> simp only [manifestEnvelope] at h <;> cases h
  · keeps_tac samePhase_pre; apply phase_getManifestEnvelope
  · clean_tac
  · repeat' first | exact answers_pure trivial | refine answers_bind fun _ => ?_

theorem tame_live (E : Env) (a b : Phase) : Route.Tame ⟨liveAttestation E, a, b⟩ := by
  constructor <;> intro m act h <;> cases m <;> simp only [liveAttestation] at h <;> cases h
  · unfold liveAttestationDoc getEphemeralKey postBootAttestationDoc
    keeps_tac samePhase_pre <;> first | apply phase_getManifestEnvelope | apply phase_readPair
  · clean_tac; apply clean_liveAttestationDoc
  · repeat' first | exact answers_pure trivial | refine answers_bind fun _ => ?_

theorem tame_provision (E : Env) (a b : Phase) : Route.Tame ⟨provisionHandler E, a, b⟩ := by
  constructor <;> intro m act h <;> cases m <;> simp only [provisionHandler] at h <;> cases h
  · keeps_tac samePhase_pre; apply phase_provision
  · clean_tac; apply clean_provision
  · repeat' first | exact answers_pure trivial | refine answers_bind fun _ => ?_

theorem tame_standard (E : Env) (a b : Phase) : Route.Tame ⟨bootStandard E, a, b⟩ := by
  constructor <;> intro m act h <;> cases m <;> simp only [bootStandard] at h <;> cases h
  · keeps_tac samePhase_pre; apply phase_putManifestAndPivot
  · keeps_tac samePhase_pre; apply phase_putManifestAndPivot
  · clean_tac; apply clean_putManifestAndPivot
  · clean_tac; apply clean_putManifestAndPivot
  · repeat' first | exact answers_pure trivial | refine answers_bind fun _ => ?_
  · repeat' first | exact answers_pure trivial | refine answers_bind fun _ => ?_

theorem tame_forward (E : Env) (a b : Phase) : Route.Tame ⟨bootKeyForward E, a, b⟩ := by
  constructor <;> intro m act h <;> cases m <;> simp only [bootKeyForward] at h <;> cases h
  · keeps_tac samePhase_pre; apply phase_putManifestAndPivot
  · clean_tac; apply clean_putManifestAndPivot
  · repeat' first | exact answers_pure trivial | refine answers_bind fun _ => ?_

theorem tame_genesis (E : Env) (a b : Phase) : Route.Tame ⟨bootGenesisHandler E, a, b⟩ := by
  constructor <;> intro m act h <;> cases m <;> simp only [bootGenesisHandler] at h <;> cases h
  · keeps_tac samePhase_pre; apply phase_bootGenesis
  · clean_tac; apply clean_bootGenesis
  · repeat' first | exact answers_pure trivial | refine answers_bind fun _ => ?_

theorem tame_export (E : Env) (a b : Phase) : Route.Tame ⟨exportKeyHandler E, a, b⟩ := by
  constructor <;> intro m act h <;> cases m <;> simp only [exportKeyHandler] at h <;> cases h
  · unfold exportKey extractAttestationDoc exportKeyInternal getQuorumKey
    keeps_tac samePhase_pre <;> first | apply phase_getManifestEnvelope | apply phase_readPair
  · clean_tac; apply clean_exportKey
  · repeat' first | exact answers_pure trivial | refine answers_bind fun _ => ?_

theorem tame_inject (E : Env) (a b : Phase) : Route.Tame ⟨injectKeyHandler E, a, b⟩ := by
  constructor <;> intro m act h <;> cases m <;> simp only [injectKeyHandler] at h <;> cases h
  · keeps_tac samePhase_pre; apply phase_injectKey
  · clean_tac; apply clean_injectKey
  · repeat' first | exact answers_pure trivial | refine answers_bind fun _ => ?_

theorem tame_routes (E : Env) (p : Phase) : ∀ r ∈ routes E p, Route.Tame r := by
  intro r hr
  cases p <;> simp only [routes, List.mem_cons, List.not_mem_nil, or_false] at hr <;>
    rcases hr with rfl | rfl | rfl | rfl | rfl | rfl <;>
    first
      | apply tame_status
      | apply tame_version
      | apply tame_manifestEnvelope
      | apply tame_live
      | apply tame_provision
      | apply tame_standard
      | apply tame_forward
      | apply tame_genesis
      | apply tame_export
      | apply tame_inject

/-- The phases a route can lead to are allowed by the code's transition table. -/
theorem routes_allowed (E : Env) (p : Phase) : ∀ r ∈ routes E p,
    (r.okPhase = p ∨ r.okPhase ∈ transitions p) ∧ (r.errPhase = p ∨ r.errPhase ∈ transitions p) := by
  intro r hr
  cases p <;> simp only [routes, List.mem_cons, List.not_mem_nil, or_false] at hr <;>
    rcases hr with rfl | rfl | rfl | rfl | rfl | rfl <;> simp [transitions]

/-- The phases a route can lead to follow the documented graph. -/
theorem routes_edges (E : Env) (p : Phase) : ∀ r ∈ routes E p,
    (r.okPhase = p ∨ Edge p r.okPhase) ∧ (r.errPhase = p ∨ Edge p r.errPhase) := by
  intro r hr
  cases p <;> simp only [routes, List.mem_cons, List.not_mem_nil, or_false] at hr <;>
    rcases hr with rfl | rfl | rfl | rfl | rfl | rfl <;>
    first
      | exact ⟨.inl rfl, .inl rfl⟩
      | exact ⟨.inr (by constructor), .inr (by constructor)⟩

theorem finish_run {next : Phase} {resp : Msg} {s : St} (h : next = s.phase ∨ next ∈ transitions s.phase) :
    finish next resp s = (resp, { s with phase := next }) := by
  unfold finish transition
  by_cases he : s.phase = next
  · rw [if_pos he, ← he]
  · rw [if_neg he]
    rcases h with h | h
    · exact absurd h.symm he
    · rw [if_pos (by simpa using h)]

/-- `try_msg` after the handler, when the phases are allowed: the result of the handler, with the phase set. -/
theorem afterHandler_run {r : Route} {p : Phase} (hok : r.okPhase = p ∨ r.okPhase ∈ transitions p)
    (herr : r.errPhase = p ∨ r.errPhase ∈ transitions p) (x : Except ProtocolError Msg) (s : St)
    (hs : s.phase = p) : afterHandler r (x, s) = match x with
      | .ok (.provisionResponse false) => (.provisionResponse false, s)
      | .ok resp => (resp, { s with phase := r.okPhase })
      | .error e => (.protocolErrorResponse e, { s with phase := r.errPhase }) := by
  subst hs
  unfold afterHandler
  cases x with
  | error e => exact finish_run herr
  | ok m =>
    cases m
    case provisionResponse b =>
      cases b
      · rfl
      · exact finish_run hok
    all_goals exact finish_run hok

/-- The route that serves a message: the first whose handler takes it. -/
theorem dispatch_cases (msg : Msg) (rs : List Route) (s : St) :
    (dispatch msg rs s = (.protocolErrorResponse (.noMatchingRoute s.phase), s) ∧ ∀ r ∈ rs, r.handler msg = none) ∨
    ∃ r ∈ rs, ∃ act, r.handler msg = some act ∧ dispatch msg rs s = afterHandler r (act s) := by
  induction rs with
  | nil => exact .inl ⟨rfl, by simp⟩
  | cons r rs ih =>
    unfold dispatch
    cases h : r.handler msg with
    | some act => exact .inr ⟨r, by simp, act, h, rfl⟩
    | none =>
      rcases ih with ⟨h1, h2⟩ | ⟨r', hr', act, h1, h2⟩
      · refine .inl ⟨h1, ?_⟩
        intro r' hr'
        rcases List.mem_cons.1 hr' with rfl | hr'
        · exact h
        · exact h2 r' hr'
      · exact .inr ⟨r', by simp [hr'], act, h1, h2⟩

/-- A served request: which route, and the outcome in terms of the handler. -/
theorem handle_cases (E : Env) (msg : Msg) (s : St) :
    (handle E msg s = (.protocolErrorResponse (.noMatchingRoute s.phase), s) ∧
      ∀ r ∈ routes E s.phase, r.handler msg = none) ∨
    ∃ r ∈ routes E s.phase, ∃ act x s', r.handler msg = some act ∧ act s = (x, s') ∧ s'.phase = s.phase ∧
      handle E msg s = match x with
        | .ok (.provisionResponse false) => (.provisionResponse false, s')
        | .ok resp => (resp, { s' with phase := r.okPhase })
        | .error e => (.protocolErrorResponse e, { s' with phase := r.errPhase }) := by
  rcases dispatch_cases msg (routes E s.phase) s with h | ⟨r, hr, act, hact, h⟩
  · exact .inl h
  · refine .inr ⟨r, hr, act, (act s).1, (act s).2, hact, rfl, ?_, ?_⟩
    · exact ((tame_routes E s.phase r hr).phase msg act hact).run s
    · unfold handle
      rw [h]
      obtain ⟨h1, h2⟩ := routes_allowed E s.phase r hr
      exact afterHandler_run h1 h2 _ _ (((tame_routes E s.phase r hr).phase msg act hact).run s)

/-! ## C01 -/

/-- C01: the status response reports the phase and changes nothing. -/
theorem status_reports_phase (E : Env) (s : St) : handle E .statusRequest s = (.statusResponse s.phase, s) := by
  unfold handle
  cases hp : s.phase <;>
    simp only [routes, dispatch, status] <;>
    (show afterHandler _ (Except.ok (Msg.statusResponse s.phase), s) = _) <;>
    simp [afterHandler, finish, transition, hp]

/-- C01: one request changes the phase along a documented edge or not at all. -/
theorem phase_follows_graph (E : Env) (msg : Msg) (s : St) :
    (handle E msg s).2.phase = s.phase ∨ Edge s.phase (handle E msg s).2.phase := by
  rcases handle_cases E msg s with ⟨h, _⟩ | ⟨r, hr, act, x, s', hact, hx, hph, h⟩
  · rw [h]; exact .inl rfl
  · obtain ⟨h1, h2⟩ := routes_edges E s.phase r hr
    rw [h]
    split
    · exact .inl hph
    · exact h1
    · exact h2

theorem provision_answers (E : Env) (x : Bytes) (a : Approval) :
    Answers (fun m => ∃ r, m = .provisionResponse r) (do
      let r ← provision E x a
      return Msg.provisionResponse r : M Msg) :=
  answers_bind fun r => answers_pure ⟨r, rfl⟩

theorem inject_answers (E : Env) (x y : Bytes) :
    Answers (fun m => m = .injectKeyResponse) (do
      injectKey E x y
      return Msg.injectKeyResponse : M Msg) :=
  answers_bind fun _ => answers_pure rfl

theorem standard_answers (E : Env) (e : Envelope) (x : Bytes) :
    Answers (fun m => ∃ r, m = .bootStandardResponse r) (do
      let r ← putManifestAndPivot E e x
      return Msg.bootStandardResponse r : M Msg) :=
  answers_bind fun r => answers_pure ⟨r, rfl⟩

theorem forward_answers (E : Env) (e : Envelope) (x : Bytes) :
    Answers (fun m => ∃ r, m = .bootKeyForwardResponse r) (do
      let r ← putManifestAndPivot E e x
      return Msg.bootKeyForwardResponse r : M Msg) :=
  answers_bind fun r => answers_pure ⟨r, rfl⟩

theorem genesis_answers (E : Env) (set : GenesisSet) (k : Option Bytes) :
    Answers (fun m => ∃ r r', m = .bootGenesisResponse r r') (do
      let r ← bootGenesis E set k
      return Msg.bootGenesisResponse r.2 r.1 : M Msg) :=
  answers_bind fun r => answers_pure ⟨r.2, r.1, rfl⟩

/-- C01: exactly which phase follows: it is determined by the phase before, the kind of the request and the response
the client sees. -/
theorem phase_determined (E : Env) (msg : Msg) (s : St) :
    (handle E msg s).2.phase = next s.phase (kind msg) (handle E msg s).1 := by
  rcases handle_cases E msg s with ⟨h, hnone⟩ | ⟨r, hr, act, x, s', hact, hx, hph, h⟩
  · rw [h]
    revert hnone
    show (∀ r ∈ routes E s.phase, r.handler msg = none) → s.phase = _
    generalize s.phase = p
    cases p <;> cases msg <;>
      simp [routes, next, kind, status, version, manifestEnvelope, liveAttestation, provisionHandler, bootStandard,
        bootGenesisHandler, bootKeyForward, exportKeyHandler, injectKeyHandler]
  · have hans := ((tame_routes E s.phase r hr).answers msg act hact).run s
    rw [h]
    revert hr
    rw [← hph]
    generalize hp : s'.phase = p
    intro hr
    cases p <;> simp only [routes, List.mem_cons, List.not_mem_nil, or_false] at hr <;>
      rcases hr with rfl | rfl | rfl | rfl | rfl | rfl <;>
      (cases msg <;> simp only [status, version, manifestEnvelope, liveAttestation, provisionHandler, bootStandard,
        bootGenesisHandler, bootKeyForward, exportKeyHandler, injectKeyHandler] at hact <;> cases hact) <;>
      first
        | (split <;> simp [next, kind, hp] <;> done)
        | (rcases x with e | a
           · simp [next, kind, isError]
           · first
               | (obtain ⟨r, rfl⟩ := (provision_answers E _ _).run _ _ _ hx
                  cases r <;> simp [next, kind, hp])
               | (obtain rfl := (inject_answers E _ _).run _ _ _ hx
                  simp [next, kind])
               | (obtain ⟨r, rfl⟩ := (standard_answers E _ _).run _ _ _ hx
                  simp [next, kind, isError])
               | (obtain ⟨r, rfl⟩ := (forward_answers E _ _).run _ _ _ hx
                  simp [next, kind, isError])
               | (obtain ⟨r, r', rfl⟩ := (genesis_answers E _ _).run _ _ _ hx
                  simp [next, kind, isError]))

/-- C01: over any sequence of requests the phases form a path in the documented graph. -/
theorem phases_follow_graph (E : Env) (msgs : List Msg) (s : St) :
    Relation.ReflTransGen Edge s.phase (after E s msgs).phase := by
  induction msgs generalizing s with
  | nil => exact .refl
  | cons m ms ih =>
    unfold after
    refine Relation.ReflTransGen.trans ?_ (ih _)
    rcases phase_follows_graph E m s with h | h
    · rw [h]
    · exact .single h

/-- How far a phase is from the start. -/
def rank : Phase → Nat
  | .waitingForBootInstruction => 0
  | .waitingForQuorumShards => 1
  | .waitingForForwardedKey => 1
  | .genesisBooted => 1
  | .quorumKeyProvisioned => 2
  | .unrecoverableError => 3

/-- C01: the phase never goes backwards; a phase once left is never entered again. -/
theorem phase_never_backwards (E : Env) (s : St) (before later : List Msg)
    (h : (after E (after E s before) later).phase = s.phase) : (after E s before).phase = s.phase := by
  have edge_rank : ∀ a b, Edge a b → rank a < rank b := by intro a b h; cases h <;> decide
  have mono : ∀ a b, Relation.ReflTransGen Edge a b → a = b ∨ rank a < rank b := by
    intro a b h
    induction h with
    | refl => exact .inl rfl
    | tail _ he ih =>
      rcases ih with rfl | h
      · exact .inr (edge_rank _ _ he)
      · exact .inr (h.trans (edge_rank _ _ he))
  rcases mono _ _ (phases_follow_graph E before s) with h1 | h1
  · exact h1.symm
  · rcases mono _ _ (phases_follow_graph E later (after E s before)) with h2 | h2
    · rw [h2, h]
    · rw [h] at h2; omega

/-- C01: `InvalidStateTransition` is never the answer. -/
theorem no_invalid_transition (E : Env) (msg : Msg) (s : St) (a b : Phase) :
    (handle E msg s).1 ≠ .protocolErrorResponse (.invalidStateTransition a b) := by
  rcases handle_cases E msg s with ⟨h, _⟩ | ⟨r, hr, act, x, s', hact, hx, hph, h⟩
  · rw [h]; intro hc; cases hc
  · have hclean := ((tame_routes E s.phase r hr).clean msg act hact).run s
    rw [hx] at hclean
    rw [h]
    intro hc
    split at hc
    · cases hc
    · rename_i resp hne
      simp only at hc
      subst hc
      exact ((tame_routes E s.phase r hr).answers msg act hact).run _ _ _ hx
    · rename_i e
      simp only [Msg.protocolErrorResponse.injEq] at hc
      subst hc
      exact hclean.out _ rfl

/-! ## C03 -/

/-- C03: a request of a kind not served in the current phase is answered with `NoMatchingRoute` and changes
nothing at all. -/
theorem unserved_rejected (E : Env) (msg : Msg) (s : St) (h : kind msg ∉ served s.phase) :
    handle E msg s = (.protocolErrorResponse (.noMatchingRoute s.phase), s) := by
  rcases handle_cases E msg s with ⟨h', _⟩ | ⟨r, hr, act, x, s', hact, _⟩
  · exact h'
  · exfalso
    revert h
    generalize s.phase = p at hr
    cases p <;> simp only [routes, List.mem_cons, List.not_mem_nil, or_false] at hr <;>
      rcases hr with rfl | rfl | rfl | rfl | rfl | rfl <;>
      (cases msg <;> simp only [status, version, manifestEnvelope, liveAttestation, provisionHandler, bootStandard,
        bootGenesisHandler, bootKeyForward, exportKeyHandler, injectKeyHandler] at hact <;> cases hact) <;>
      simp [kind, served]

/-- C03: a request of a served kind reaches its handler: it is never answered with `NoMatchingRoute`. -/
theorem served_accepted (E : Env) (msg : Msg) (s : St) (h : kind msg ∈ served s.phase) (p : Phase) :
    (handle E msg s).1 ≠ .protocolErrorResponse (.noMatchingRoute p) := by
  rcases handle_cases E msg s with ⟨_, hnone⟩ | ⟨r, hr, act, x, s', hact, hx, hph, h'⟩
  · exfalso
    revert h hnone
    generalize s.phase = q
    cases q <;> simp only [routes, List.forall_mem_cons, List.not_mem_nil] <;> intro h hnone <;>
      cases msg <;> simp [kind, served] at h <;>
      simp [status, version, manifestEnvelope, liveAttestation, provisionHandler, bootStandard,
        bootGenesisHandler, bootKeyForward, exportKeyHandler, injectKeyHandler] at hnone
  · have hclean := ((tame_routes E s.phase r hr).clean msg act hact).run s
    rw [hx] at hclean
    rw [h']
    intro hc
    split at hc
    · cases hc
    · simp only at hc
      subst hc
      exact ((tame_routes E s.phase r hr).answers msg act hact).run _ _ _ hx
    · simp only [Msg.protocolErrorResponse.injEq] at hc
      subst hc
      exact hclean.out _ rfl

/-! ## C04 -/

theorem quiet_act (E : Env) {msg : Msg} (h : kind msg ∈ readOnly) {r : Route} {p : Phase} (hr : r ∈ routes E p)
    {act : M Msg} (hact : r.handler msg = some act) :
    Keeps Quiet act ∧ r.okPhase = p ∧ r.errPhase = p := by
  cases p <;> simp only [routes, List.mem_cons, List.not_mem_nil, or_false] at hr <;>
    rcases hr with rfl | rfl | rfl | rfl | rfl | rfl <;>
    (cases msg <;> simp only [status, version, manifestEnvelope, liveAttestation, provisionHandler, bootStandard,
      bootGenesisHandler, bootKeyForward, exportKeyHandler, injectKeyHandler] at hact <;> cases hact) <;>
    first
      | (exfalso; simp [kind, readOnly] at h; done)
      | (refine ⟨?_, rfl, rfl⟩
         keeps_tac quiet_pre <;> first
           | apply quiet_getManifestEnvelope
           | apply quiet_liveAttestationDoc
           | apply quiet_exportKey)

/-- C04: read-only requests, whether they succeed or fail, in every phase, leave phase, files, collected shares
and pending key as they are, and send the device nothing but attestation requests. -/
theorem read_only_requests (E : Env) (msg : Msg) (s : St) (h : kind msg ∈ readOnly) :
    Quiet s (handle E msg s).2 := by
  rcases handle_cases E msg s with ⟨h', _⟩ | ⟨r, hr, act, x, s', hact, hx, hph, h'⟩
  · rw [h']; exact quiet_pre.refl s
  · obtain ⟨hq, hok, herr⟩ := quiet_act E h hr hact
    have hs := hq.run s
    rw [hx] at hs
    have hs2 : Quiet s { s' with phase := s.phase } := ⟨rfl, hs.files, hs.shares, hs.pending, hs.seeds, hs.trace⟩
    rw [h']
    split
    · exact hs
    · rw [hok]; exact hs2
    · rw [herr]; exact hs2

/-! ## C02 -/

/-- C02: the final phases serve only read-only requests, so nothing changes any more, ever. -/
theorem final_phase_frozen (E : Env) (s : St) (h : s.phase ∈ final) (msgs : List Msg) :
    Quiet s (after E s msgs) := by
  induction msgs generalizing s with
  | nil => exact quiet_pre.refl s
  | cons m ms ih =>
    unfold after
    have h1 : Quiet s (handle E m s).2 := by
      by_cases hk : kind m ∈ readOnly
      · exact read_only_requests E m s hk
      · rw [unserved_rejected E m s]
        · exact quiet_pre.refl s
        · intro hs
          apply hk
          revert h hs
          generalize s.phase = p
          generalize kind m = k
          cases p <;> cases k <;> decide
    exact quiet_pre.trans _ _ _ h1 (ih _ (by rw [h1.phase]; exact h))

/-- C02: in particular the status stays the same. -/
theorem final_phase_status (E : Env) (s : St) (h : s.phase ∈ final) (msgs : List Msg) :
    (handle E .statusRequest (after E s msgs)).1 = .statusResponse s.phase := by
  rw [status_reports_phase, (final_phase_frozen E s h msgs).phase]

/-- C02: nothing a quiet stretch does can change the registers of a device that behaves like the NSM model: an
attestation request leaves its state alone. -/
theorem attestation_keeps_device (p : Prims) (pki : MockNsm.Pki) (d d' : MockNsm.State) (u n k : Option Bytes)
    (a : NsmResponse) (h : MockNsm.process p pki d (.attestation u n k) = some (d', a)) : d' = d := by
  unfold MockNsm.process at h
  simp only [Option.some.injEq, Prod.mk.injEq] at h
  exact h.1.symm

/-- C01: the phase change itself, whoever asks for it, goes through for the current phase, for the error phase and along
the documented edges, and for nothing else; a refused change ends in the error phase. -/
theorem transition_exact (next : Phase) (s : St) :
    (transition next s = (.ok (), { s with phase := next }) ∧
      (next = s.phase ∨ next = .unrecoverableError ∨ Edge s.phase next)) ∨
    (transition next s = (.error (.invalidStateTransition s.phase next), { s with phase := .unrecoverableError }) ∧
      next ≠ s.phase ∧ next ≠ .unrecoverableError ∧ ¬ Edge s.phase next) := by
  unfold transition
  by_cases h : s.phase = next
  · rw [if_pos h]
    exact Or.inl ⟨by subst h; rfl, Or.inl h.symm⟩
  · rw [if_neg h]
    by_cases hc : (transitions s.phase).contains next = true
    · rw [if_pos hc]
      refine Or.inl ⟨rfl, Or.inr ?_⟩
      revert hc h
      generalize s.phase = p
      cases p <;> cases next <;> intro h hc <;>
        first | exact Or.inl rfl | (exact Or.inr (by constructor)) | (exact absurd hc (by decide))
    · rw [if_neg hc]
      refine Or.inr ⟨rfl, fun e => h e.symm, ?_, ?_⟩
      · rintro rfl
        revert hc h
        generalize s.phase = p
        cases p <;> intro h hc <;> first | exact hc (by decide) | exact h rfl
      · intro he
        revert hc
        generalize s.phase = p at he
        cases he <;> decide

end Qos.Lifecycle
