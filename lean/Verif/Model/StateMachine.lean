import Verif.Model.Msg
/-!
# The protocol state machine

`/repo/src/qos_core/src/protocol/state.rs:54-581`.
-/
namespace Qos.StateMachine
open Services Handles

/-! ## Handlers (state.rs:369-581) -/

/-- A handler: `none` when the message is not for it (`ProtocolRouteResponse::None`). A failure `e` of the
computation stands for `Some(Err(ProtocolErrorResponse(e)))`. state.rs:66-96, 369-581. -/
abbrev Handler := Msg → Option (M Msg)

/-- `Result::ok` of a failing computation: the failure is swallowed, effects stay. state.rs:66-96, 369-581. -/
def optional {α : Type} (m : M α) : M (Option α) := fun s =>
  match m s with
  | (.ok a, s') => (.ok (some a), s')
  | (.error _, s') => (.ok none, s')

/-- `handlers::status` (state.rs:381-390). -/
def status : Handler
  | .statusRequest => some do
    let s ← M.get
    return .statusResponse s.phase
  | _ => none

/-- `handlers::version` (state.rs:395-407). -/
def version (E : Env) : Handler
  | .versionRequest => some (return .versionResponse E.version E.commit)
  | _ => none

/-- `handlers::manifest_envelope` (state.rs:409-422). -/
def manifestEnvelope (E : Env) : Handler
  | .manifestEnvelopeRequest => some do
    let e ← optional (getManifestEnvelope E)
    return .manifestEnvelopeResponse e
  | _ => none

/-- `handlers::provision` (state.rs:424-439). -/
def provisionHandler (E : Env) : Handler
  | .provisionRequest share approval => some do
    let reconstructed ← provision E share approval
    return .provisionResponse reconstructed
  | _ => none

/-- `handlers::boot_standard` (state.rs:442-464) and `boot_standard` (boot.rs:779-788). -/
def bootStandard (E : Env) : Handler
  | .bootStandardRequest e pivot => some do
    let r ← putManifestAndPivot E e pivot
    return .bootStandardResponse r
  | .bootStandardJsonEnvelopeRequest e pivot => some do
    let r ← putManifestAndPivot E e pivot
    return .bootStandardResponse r
  | _ => none

/-- `handlers::boot_genesis` (state.rs:466-484). -/
def bootGenesisHandler (E : Env) : Handler
  | .bootGenesisRequest set drKey => some do
    let r ← bootGenesis E set drKey
    return .bootGenesisResponse r.2 r.1
  | _ => none

/-- `handlers::live_attestation_doc` (state.rs:486-506). -/
def liveAttestation (E : Env) : Handler
  | .liveAttestationDocRequest => some do
    let r ← liveAttestationDoc E
    let e ← optional (getManifestEnvelope E)
    return .liveAttestationDocResponse r e
  | _ => none

/-- `handlers::boot_key_forward` (state.rs:508-525) and `boot_key_forward` (key.rs:77-86). -/
def bootKeyForward (E : Env) : Handler
  | .bootKeyForwardRequest e pivot => some do
    let r ← putManifestAndPivot E e pivot
    return .bootKeyForwardResponse r
  | _ => none

/-- `handlers::export_key` (state.rs:527-555). -/
def exportKeyHandler (E : Env) : Handler
  | .exportKeyRequest e doc => some do
    let r ← exportKey E e doc
    return .exportKeyResponse r.1 r.2
  | _ => none

/-- `handlers::inject_key` (state.rs:557-580). -/
def injectKeyHandler (E : Env) : Handler
  | .injectKeyRequest ct sig => some do
    injectKey E ct sig
    return .injectKeyResponse
  | _ => none

/-! ## Routes -/

/-- `ProtocolRoute` (state.rs:59-63). -/
structure Route where
  handler : Handler
  okPhase : Phase
  errPhase : Phase

/-- `ProtocolState::transition`'s table (state.rs:321-351). -/
def transitions : Phase → List Phase
  | .unrecoverableError => []
  | .waitingForBootInstruction =>
    [.unrecoverableError, .genesisBooted, .waitingForQuorumShards, .waitingForForwardedKey]
  | .genesisBooted => [.unrecoverableError]
  | .waitingForQuorumShards => [.unrecoverableError, .quorumKeyProvisioned]
  | .quorumKeyProvisioned => [.unrecoverableError]
  | .waitingForForwardedKey => [.unrecoverableError, .quorumKeyProvisioned]

/-- `ProtocolState::transition` (state.rs:321-366). -/
def transition (next : Phase) : M Unit := fun s =>
  if s.phase = next then (.ok (), s)
  else if (transitions s.phase).contains next then (.ok (), { s with phase := next })
  else (.error (.invalidStateTransition s.phase next), { s with phase := .unrecoverableError })

/-- The end of `try_msg`: transition, and its error in place of the response (state.rs:88-95). -/
def finish (next : Phase) (resp : Msg) (s : St) : Msg × St :=
  match transition next s with
  | (.ok _, s') => (resp, s')
  | (.error e, s') => (.protocolErrorResponse e, s')

/-- `ProtocolRoute::try_msg` after the handler ran (state.rs:72-96). -/
def afterHandler (r : Route) : Except ProtocolError Msg × St → Msg × St
  | (.ok (.provisionResponse false), s) => (.provisionResponse false, s)
  | (.ok resp, s) => finish r.okPhase resp s
  | (.error e, s) => finish r.errPhase (.protocolErrorResponse e) s

/-- `routes` (state.rs:258-319) and the constructors (state.rs:98-176). -/
def routes (E : Env) (p : Phase) : List Route :=
  let status : Route := ⟨status, p, p⟩
  let version : Route := ⟨version E, p, p⟩
  let manifestEnvelope : Route := ⟨manifestEnvelope E, p, p⟩
  let live : Route := ⟨liveAttestation E, p, p⟩
  match p with
  | .unrecoverableError => [status, version, manifestEnvelope, live]
  | .genesisBooted => [status, version]
  | .waitingForBootInstruction =>
    [status, version, manifestEnvelope,
     ⟨bootGenesisHandler E, .genesisBooted, .unrecoverableError⟩,
     ⟨bootStandard E, .waitingForQuorumShards, .unrecoverableError⟩,
     ⟨bootKeyForward E, .waitingForForwardedKey, .unrecoverableError⟩]
  | .waitingForQuorumShards =>
    [status, version, live, manifestEnvelope,
     ⟨provisionHandler E, .quorumKeyProvisioned, .unrecoverableError⟩]
  | .quorumKeyProvisioned =>
    [status, version, live, manifestEnvelope, ⟨exportKeyHandler E, p, p⟩]
  | .waitingForForwardedKey =>
    [status, version, live, manifestEnvelope,
     ⟨injectKeyHandler E, .quorumKeyProvisioned, .unrecoverableError⟩]

/-- The loop of `handle_msg_response` (state.rs:238-255): the first route whose handler takes the message. -/
def dispatch (msg : Msg) : List Route → St → Msg × St
  | [], s => (.protocolErrorResponse (.noMatchingRoute s.phase), s)
  | r :: rs, s => match r.handler msg with
    | none => dispatch msg rs s
    | some m => afterHandler r (m s)

/-- `handle_msg_response` (state.rs:238-255). -/
def handle (E : Env) (msg : Msg) (s : St) : Msg × St := dispatch msg (routes E s.phase) s

/-- All the states reachable from a start with the given files, with the requests served so far and their
responses, oldest first. Callers of `ProtocolState::handle_msg`, state.rs:238-255. -/
inductive Reach (E : Env) (files : Files) : List (Msg × Msg) → St → Prop
  | start : Reach E files [] (St.initial files)
  | step {h : List (Msg × Msg)} {s : St} (req : Msg) : Reach E files h s →
      Reach E files (h ++ [(req, (handle E req s).1)]) (handle E req s).2

end Qos.StateMachine
