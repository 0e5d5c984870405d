import Verif.Model.Manifest
import Verif.Model.P256
/-!
# Phases and errors

`/repo/src/qos_core/src/protocol/state.rs:22-52` and `/repo/src/qos_core/src/protocol/error.rs:12-213`.
-/
namespace Qos

/-- `ProtocolPhase` (state.rs:22-52), in declaration order. -/
inductive Phase where
  | unrecoverableError | waitingForBootInstruction | genesisBooted | waitingForQuorumShards
  | quorumKeyProvisioned | waitingForForwardedKey
  deriving DecidableEq

/-- Every phase. state.rs:21-52. -/
def Phase.all : List Phase :=
  [.unrecoverableError, .waitingForBootInstruction, .genesisBooted, .waitingForQuorumShards,
   .quorumKeyProvisioned, .waitingForForwardedKey]

/-- `ProtocolError` (error.rs:21-203), in declaration order. Texts produced with `format!` from other error
values (`QosAttestError`, `QosCrypto`, `CannotDeleteEphemeralKey`) are modelled by a fixed description, not
by the exact formatted text. -/
inductive ProtocolError where
  | invalidShare
  | reconstructionErrorEmptySecret
  | reconstructionErrorIncorrectPubKey
  | ioError
  | invalidManifestApproval (a : Approval)
  | notEnoughApprovals
  | noMatchingRoute (p : Phase)
  | invalidPivotHash (expected actual : String)
  | oversizeMsg
  | invalidMsg
  | enclaveClient
  | decryptionFailed
  | invalidPrivateKey
  | failedToParseFromString
  | badEphemeralKeyPath
  | cannotModifyPostPivotStatic
  | failedToGetEphemeralKey (e : P256Error)
  | failedToPutEphemeralKey
  | cannotRotateNonExistentEphemeralKey
  | cannotDeleteEphemeralKey (e : String)
  | failedToGetQuorumKey (e : P256Error)
  | failedToPutQuorumKey
  | failedToGetManifestEnvelope
  | failedToPutManifestEnvelope
  | failedToPutPivot
  | appClientRecvTimeout
  | appClientRecvInterrupted
  | appClientRecvConnectionClosed
  | appClientConnectError (e : String)
  | appClientSendError (e : String)
  | appClientError (e : String)
  | oversizedPayload
  | protocolMsgDeserialization
  | badShareSetApprovals
  | couldNotVerifyApproval
  | notShareSetMember
  | notManifestSetMember
  | p256Error (e : P256Error)
  | invalidP256DRKey (e : P256Error)
  | incorrectSecretLen
  | qosAttestError (e : String)
  | differentQuorumKey (expected actual : String)
  | differentManifestSet (expected actual : String)
  | differentNamespaceName (expected actual : String)
  | lowNonce (expected actual : UInt32)
  | differentPcr3 (expected actual : String)
  | missingEphemeralKey
  | invalidEphemeralKey
  | invalidEncryptedQuorumKeySignature
  | encryptedQuorumKeyInvalidLen
  | invalidQuorumSecret
  | wrongQuorumKey
  | invalidStateTransition (a b : Phase)
  | duplicateApproval
  | differentManifest (expected actual : String)
  | qosCrypto (e : String)
  | poolExpandError
  | invalidPivotEnv (e : String)
  | missingLiveEphemeralKey
  | duplicateQuorumMember
  | legacyGenesisNotSupported
  deriving DecidableEq

/-- Hex text as a Rust `String` (`qos_hex::encode`). qos_hex/src/lib.rs:185-196. -/
def hexString (b : Bytes) : String := String.ofList ((Hex.encode b).map fun x => Char.ofNat x.toNat)

/-- `?` on a `P256Error` (error.rs:234-238). -/
def liftP256 {α : Type} : Except P256Error α → Except ProtocolError α
  | .ok a => .ok a
  | .error e => .error (.p256Error e)

end Qos
