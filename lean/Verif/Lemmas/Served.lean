import Verif.Props.Lifecycle
/-!
# Served requests, as equations

Each served request in terms of the service that answers it.
-/
namespace Qos
open StateMachine Services Handles Lifecycle

variable {E : Env} {s : St}

theorem bind_run {α β : Type} (m : M α) (f : α → M β) (s : St) : (m >>= f) s = match m s with
    | (.ok a, s') => f a s'
    | (.error e, s') => (.error e, s') := rfl

theorem pure_run {α : Type} (a : α) (s : St) : (pure a : M α) s = (.ok a, s) := rfl

theorem handle_standard (h : s.phase = .waitingForBootInstruction) {m : Msg} {e : Envelope} {x : Bytes}
    (hm : m = .bootStandardRequest e x ∨ m = .bootStandardJsonEnvelopeRequest e x) :
    handle E m s = match putManifestAndPivot E e x s with
      | (.ok r, s') => (.bootStandardResponse r, { s' with phase := .waitingForQuorumShards })
      | (.error e, s') => (.protocolErrorResponse e, { s' with phase := .unrecoverableError }) := by
  have hp := (phase_putManifestAndPivot E e x).run s
  unfold SamePhase at hp
  rcases hm with rfl | rfl <;>
    simp only [handle, h, routes, dispatch, status, version, manifestEnvelope, bootGenesisHandler, bootStandard,
      bind_run] <;>
    (match hr : putManifestAndPivot E e x s with
     | (.ok r, s') =>
       simp only [hr] at hp
       simp [pure_run, afterHandler, finish, transition, hp, h, transitions]
     | (.error er, s') =>
       simp only [hr] at hp
       simp [afterHandler, finish, transition, hp, h, transitions])

theorem handle_forward (h : s.phase = .waitingForBootInstruction) (e : Envelope) (x : Bytes) :
    handle E (.bootKeyForwardRequest e x) s = match putManifestAndPivot E e x s with
      | (.ok r, s') => (.bootKeyForwardResponse r, { s' with phase := .waitingForForwardedKey })
      | (.error e, s') => (.protocolErrorResponse e, { s' with phase := .unrecoverableError }) := by
  have hp := (phase_putManifestAndPivot E e x).run s
  unfold SamePhase at hp
  simp only [handle, h, routes, dispatch, status, version, manifestEnvelope, bootGenesisHandler, bootStandard,
    bootKeyForward, bind_run]
  match hr : putManifestAndPivot E e x s with
  | (.ok r, s') =>
    simp only [hr] at hp
    simp [pure_run, afterHandler, finish, transition, hp, h, transitions]
  | (.error er, s') =>
    simp only [hr] at hp
    simp [afterHandler, finish, transition, hp, h, transitions]

theorem handle_genesis (h : s.phase = .waitingForBootInstruction) (g : GenesisSet) (k : Option Bytes) :
    handle E (.bootGenesisRequest g k) s = match bootGenesis E g k s with
      | (.ok r, s') => (.bootGenesisResponse r.2 r.1, { s' with phase := .genesisBooted })
      | (.error e, s') => (.protocolErrorResponse e, { s' with phase := .unrecoverableError }) := by
  have hp := (phase_bootGenesis E g k).run s
  unfold SamePhase at hp
  simp only [handle, h, routes, dispatch, status, version, manifestEnvelope, bootGenesisHandler, bind_run]
  match hr : bootGenesis E g k s with
  | (.ok r, s') =>
    simp only [hr] at hp
    simp [pure_run, afterHandler, finish, transition, hp, h, transitions]
  | (.error er, s') =>
    simp only [hr] at hp
    simp [afterHandler, finish, transition, hp, h, transitions]

theorem handle_provision (h : s.phase = .waitingForQuorumShards) (x : Bytes) (a : Approval) :
    handle E (.provisionRequest x a) s = match provision E x a s with
      | (.ok false, s') => (.provisionResponse false, s')
      | (.ok true, s') => (.provisionResponse true, { s' with phase := .quorumKeyProvisioned })
      | (.error e, s') => (.protocolErrorResponse e, { s' with phase := .unrecoverableError }) := by
  have hp := (phase_provision E x a).run s
  unfold SamePhase at hp
  simp only [handle, h, routes, dispatch, status, version, manifestEnvelope, liveAttestation, provisionHandler,
    bind_run]
  match hr : provision E x a s with
  | (.ok true, s') =>
    simp only [hr] at hp
    simp [pure_run, afterHandler, finish, transition, hp, h, transitions]
  | (.ok false, s') =>
    simp only [hr] at hp
    simp [pure_run, afterHandler]
  | (.error er, s') =>
    simp only [hr] at hp
    simp [afterHandler, finish, transition, hp, h, transitions]

theorem handle_inject (h : s.phase = .waitingForForwardedKey) (ct sig : Bytes) :
    handle E (.injectKeyRequest ct sig) s = match injectKey E ct sig s with
      | (.ok _, s') => (.injectKeyResponse, { s' with phase := .quorumKeyProvisioned })
      | (.error e, s') => (.protocolErrorResponse e, { s' with phase := .unrecoverableError }) := by
  have hp := (phase_injectKey E ct sig).run s
  unfold SamePhase at hp
  simp only [handle, h, routes, dispatch, status, version, manifestEnvelope, liveAttestation, injectKeyHandler,
    bind_run]
  match hr : injectKey E ct sig s with
  | (.ok r, s') =>
    simp only [hr] at hp
    simp [pure_run, afterHandler, finish, transition, hp, h, transitions]
  | (.error er, s') =>
    simp only [hr] at hp
    simp [afterHandler, finish, transition, hp, h, transitions]

theorem handle_export (h : s.phase = .quorumKeyProvisioned) (e : Envelope) (doc : Bytes) :
    handle E (.exportKeyRequest e doc) s = match exportKey E e doc s with
      | (.ok r, s') => (.exportKeyResponse r.1 r.2, s')
      | (.error e, s') => (.protocolErrorResponse e, s') := by
  have hp := (quiet_exportKey E e doc).run s
  have hp := hp.phase
  simp only [handle, h, routes, dispatch, status, version, manifestEnvelope, liveAttestation, exportKeyHandler,
    bind_run]
  match hr : exportKey E e doc s with
  | (.ok r, s') =>
    simp only [hr] at hp
    simp [pure_run, afterHandler, finish, transition, hp, h]
  | (.error er, s') =>
    simp only [hr] at hp
    simp [afterHandler, finish, transition, hp, h]

theorem handle_live (h : kind .liveAttestationDocRequest ∈ served s.phase) :
    handle E .liveAttestationDocRequest s = match liveAttestationDoc E s with
      | (.ok r, s') => (.liveAttestationDocResponse r (StateMachine.optional (getManifestEnvelope E) s').1.toOption.join,
          (getManifestEnvelope E s').2)
      | (.error e, s') => (.protocolErrorResponse e, s') := by
  have hp := ((quiet_liveAttestationDoc E).run s).phase
  have hq := fun s => ((quiet_getManifestEnvelope E).run s).phase
  have hh : handle E .liveAttestationDocRequest s = afterHandler ⟨liveAttestation E, s.phase, s.phase⟩
      ((do let r ← liveAttestationDoc E
           let e ← StateMachine.optional (getManifestEnvelope E)
           return .liveAttestationDocResponse r e : M Msg) s) := by
    revert h
    unfold handle
    cases s.phase <;> simp [kind, served, routes, dispatch, status, version, manifestEnvelope, liveAttestation]
  rw [hh, bind_run]
  match hr : liveAttestationDoc E s with
  | (.ok r, s') =>
    simp only [hr] at hp
    simp only [bind_run, StateMachine.optional]
    have hq' := hq s'
    match hg : getManifestEnvelope E s' with
    | (.ok e, s'') =>
      simp only [hg] at hq'
      simp [pure_run, afterHandler, finish, transition, hp, hq', Except.toOption]
    | (.error e, s'') =>
      simp only [hg] at hq'
      simp [pure_run, afterHandler, finish, transition, hp, hq', Except.toOption]
  | (.error er, s') =>
    simp only [hr] at hp
    simp [afterHandler, finish, transition, hp]

theorem handle_manifestEnvelope (h : s.phase ≠ .genesisBooted) :
    handle E .manifestEnvelopeRequest s =
      (.manifestEnvelopeResponse (getManifestEnvelope E s).1.toOption, (getManifestEnvelope E s).2) := by
  have hq := ((quiet_getManifestEnvelope E).run s).phase
  have hh : handle E .manifestEnvelopeRequest s = afterHandler ⟨manifestEnvelope E, s.phase, s.phase⟩
      ((do let e ← StateMachine.optional (getManifestEnvelope E)
           return .manifestEnvelopeResponse e : M Msg) s) := by
    revert h
    unfold handle
    cases s.phase <;> simp [routes, dispatch, status, version, manifestEnvelope, liveAttestation]
  rw [hh, bind_run]
  simp only [StateMachine.optional]
  match hg : getManifestEnvelope E s with
  | (.ok e, s'') =>
    simp only [hg] at hq
    simp [pure_run, afterHandler, finish, transition, hq, Except.toOption]
  | (.error e, s'') =>
    simp only [hg] at hq
    simp [pure_run, afterHandler, finish, transition, hq, Except.toOption]

end Qos
