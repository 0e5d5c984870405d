import Verif.Model.StateMachine
/-!
# The documented lifecycle

The phase graph and the table of requests served per phase, as documented; nothing here mentions routes or
transition tables of the code.
-/
namespace Qos.Lifecycle

/-- One documented phase change. -/
inductive Edge : Phase → Phase → Prop
  | genesis : Edge .waitingForBootInstruction .genesisBooted
  | standard : Edge .waitingForBootInstruction .waitingForQuorumShards
  | forward : Edge .waitingForBootInstruction .waitingForForwardedKey
  | provisioned : Edge .waitingForQuorumShards .quorumKeyProvisioned
  | injected : Edge .waitingForForwardedKey .quorumKeyProvisioned
  | bootFailed : Edge .waitingForBootInstruction .unrecoverableError
  | provisionFailed : Edge .waitingForQuorumShards .unrecoverableError
  | injectFailed : Edge .waitingForForwardedKey .unrecoverableError

/-- Kinds of messages a client can send. -/
inductive Kind where
  | status | version | manifestEnvelope | liveAttestation | genesis | bootStandard | bootKeyForward | provision
  | exportKey | injectKey
  /-- proxy messages and responses: not served by the enclave -/
  | other
  deriving DecidableEq

/-- The kind of a message. -/
def kind : Msg → Kind
  | .statusRequest => .status
  | .versionRequest => .version
  | .manifestEnvelopeRequest => .manifestEnvelope
  | .liveAttestationDocRequest => .liveAttestation
  | .bootGenesisRequest _ _ => .genesis
  | .bootStandardRequest _ _ => .bootStandard
  | .bootStandardJsonEnvelopeRequest _ _ => .bootStandard
  | .bootKeyForwardRequest _ _ => .bootKeyForward
  | .provisionRequest _ _ => .provision
  | .exportKeyRequest _ _ => .exportKey
  | .injectKeyRequest _ _ => .injectKey
  | _ => .other

/-- Which kinds are served in which phase. -/
def served : Phase → List Kind
  | .unrecoverableError => [.status, .version, .manifestEnvelope, .liveAttestation]
  | .genesisBooted => [.status, .version]
  | .waitingForBootInstruction => [.status, .version, .manifestEnvelope, .genesis, .bootStandard, .bootKeyForward]
  | .waitingForQuorumShards => [.status, .version, .manifestEnvelope, .liveAttestation, .provision]
  | .quorumKeyProvisioned => [.status, .version, .manifestEnvelope, .liveAttestation, .exportKey]
  | .waitingForForwardedKey => [.status, .version, .manifestEnvelope, .liveAttestation, .injectKey]

/-- Kinds that only read. -/
def readOnly : List Kind := [.status, .version, .manifestEnvelope, .liveAttestation, .exportKey]

/-- Final phases. -/
def final : List Phase := [.unrecoverableError, .genesisBooted]

/-- Error responses. -/
def isError : Msg → Bool
  | .protocolErrorResponse _ => true
  | _ => false

/-- The phase after a request, as a function of the phase before, the kind of request and the response: a boot,
share or key injection moves on when it is answered without error and ends in `UnrecoverableError` otherwise; a
share that does not complete the set leaves the phase; everything else leaves the phase. -/
def next (p : Phase) (k : Kind) (resp : Msg) : Phase :=
  match p, k with
  | .waitingForBootInstruction, .genesis => if isError resp then .unrecoverableError else .genesisBooted
  | .waitingForBootInstruction, .bootStandard =>
    if isError resp then .unrecoverableError else .waitingForQuorumShards
  | .waitingForBootInstruction, .bootKeyForward =>
    if isError resp then .unrecoverableError else .waitingForForwardedKey
  | .waitingForQuorumShards, .provision => match resp with
    | .provisionResponse false => .waitingForQuorumShards
    | .provisionResponse true => .quorumKeyProvisioned
    | _ => .unrecoverableError
  | .waitingForForwardedKey, .injectKey => match resp with
    | .injectKeyResponse => .quorumKeyProvisioned
    | _ => .unrecoverableError
  | p, _ => p

/-- The state after a sequence of requests. -/
def after (E : Env) (s : St) : List Msg → St
  | [] => s
  | m :: ms => after E (StateMachine.handle E m s).2 ms

/-- The answers to a sequence of requests. -/
def answers (E : Env) (s : St) : List Msg → List Msg
  | [] => []
  | m :: ms => (StateMachine.handle E m s).1 :: answers E (StateMachine.handle E m s).2 ms

end Qos.Lifecycle
