import Verif.Model.Services
/-!
# Protocol messages

`/repo/src/qos_core/src/protocol/msg.rs:87-262`.
-/
namespace Qos
open Services

/-- `ProtocolMsg` (msg.rs:96-262), in declaration order. `Box` and `JsonBytes` wrappers are transparent here; their
effect on the wire is modelled in `Model/Wire.lean`. -/
inductive Msg where
  | protocolErrorResponse (e : ProtocolError)
  | statusRequest
  | statusResponse (p : Phase)
  | bootStandardRequest (envelope : Envelope) (pivot : Bytes)
  | bootStandardResponse (nsm : NsmResponse)
  | bootGenesisRequest (set : GenesisSet) (drKey : Option Bytes)
  | bootGenesisResponse (nsm : NsmResponse) (output : GenesisOutput)
  | provisionRequest (share : Bytes) (approval : Approval)
  | provisionResponse (reconstructed : Bool)
  | proxyRequest (data : Bytes)
  | proxyResponse (data : Bytes)
  | liveAttestationDocRequest
  | liveAttestationDocResponse (nsm : NsmResponse) (envelope : Option Envelope)
  | bootKeyForwardRequest (envelope : Envelope) (pivot : Bytes)
  | bootKeyForwardResponse (nsm : NsmResponse)
  | exportKeyRequest (envelope : Envelope) (attestationDoc : Bytes)
  | exportKeyResponse (encryptedQuorumKey signature : Bytes)
  | injectKeyRequest (encryptedQuorumKey signature : Bytes)
  | injectKeyResponse
  | manifestEnvelopeRequest
  | manifestEnvelopeResponse (envelope : Option Envelope)
  | versionRequest
  | versionResponse (version commit : String)
  | bootStandardJsonEnvelopeRequest (envelope : Envelope) (pivot : Bytes)

end Qos
