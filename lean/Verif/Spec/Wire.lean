import Verif.Model.Wire
/-! What the wire theorems talk about. -/
namespace Qos

/-- The same bytes are also the encoding of an envelope of the other schema (the decoder refuses such bytes). -/
def Borsh.Ambiguous : Envelope → Prop
  | .v2 _ => False
  | .v1 x => ∃ y, (envelopeOf manifestV0).ok y ∧ (envelopeOf manifest).enc x = (envelopeOf manifestV0).enc y
  | .v0 y => ∃ x, (envelopeOf manifest).ok x ∧ (envelopeOf manifestV0).enc y = (envelopeOf manifest).enc x

/-- The messages that can be read back from their Borsh form: not the three requests in which bytes follow an
envelope, and no ambiguous envelope. -/
def Borsh.Readable : Msg → Prop
  | .bootStandardRequest _ _ => False
  | .bootKeyForwardRequest _ _ => False
  | .exportKeyRequest _ _ => False
  | .liveAttestationDocResponse _ o => ∀ e, o = some e → ¬ Ambiguous e
  | .manifestEnvelopeResponse o => ∀ e, o = some e → ¬ Ambiguous e
  | _ => True

/-- The manifest envelope in a message. -/
def Msg.envelope? : Msg → Option Envelope
  | .bootStandardRequest e _ => some e
  | .bootKeyForwardRequest e _ => some e
  | .exportKeyRequest e _ => some e
  | .bootStandardJsonEnvelopeRequest e _ => some e
  | .liveAttestationDocResponse _ o => o
  | .manifestEnvelopeResponse o => o
  | _ => none

/-- Is it a genesis request or response? -/
def Msg.Genesis (m : Msg) : Prop := (∃ s k, m = .bootGenesisRequest s k) ∨ ∃ r o, m = .bootGenesisResponse r o

/-- Does the message carry a manifest envelope with a V2 manifest? -/
def Msg.CarriesV2 (m : Msg) : Prop := ∃ x, m.envelope? = some (.v2 x)

/-- A response answers a request: it is an error, or the response of that request's kind. -/
def Msg.Answers (q r : Msg) : Prop :=
  (∃ e, r = .protocolErrorResponse e) ∨
  match q with
  | .statusRequest => ∃ p, r = .statusResponse p
  | .versionRequest => ∃ v c, r = .versionResponse v c
  | .manifestEnvelopeRequest => ∃ e, r = .manifestEnvelopeResponse e
  | .bootStandardRequest _ _ => ∃ n, r = .bootStandardResponse n
  | .bootStandardJsonEnvelopeRequest _ _ => ∃ n, r = .bootStandardResponse n
  | .bootGenesisRequest _ _ => ∃ n o, r = .bootGenesisResponse n o
  | .provisionRequest _ _ => ∃ b, r = .provisionResponse b
  | .liveAttestationDocRequest => ∃ n e, r = .liveAttestationDocResponse n e
  | .bootKeyForwardRequest _ _ => ∃ n, r = .bootKeyForwardResponse n
  | .exportKeyRequest _ _ => ∃ k s, r = .exportKeyResponse k s
  | .injectKeyRequest _ _ => r = .injectKeyResponse
  | _ => False

/-- The name of a message in JSON (msg.rs:95: camelCase) and its Borsh tag (position in the declaration, msg.rs:96-262). -/
def Msg.kind : Msg → String × Nat
  | .protocolErrorResponse _ => ("protocolErrorResponse", 0)
  | .statusRequest => ("statusRequest", 1)
  | .statusResponse _ => ("statusResponse", 2)
  | .bootStandardRequest _ _ => ("bootStandardRequest", 3)
  | .bootStandardResponse _ => ("bootStandardResponse", 4)
  | .bootGenesisRequest _ _ => ("bootGenesisRequest", 5)
  | .bootGenesisResponse _ _ => ("bootGenesisResponse", 6)
  | .provisionRequest _ _ => ("provisionRequest", 7)
  | .provisionResponse _ => ("provisionResponse", 8)
  | .proxyRequest _ => ("proxyRequest", 9)
  | .proxyResponse _ => ("proxyResponse", 10)
  | .liveAttestationDocRequest => ("liveAttestationDocRequest", 11)
  | .liveAttestationDocResponse _ _ => ("liveAttestationDocResponse", 12)
  | .bootKeyForwardRequest _ _ => ("bootKeyForwardRequest", 13)
  | .bootKeyForwardResponse _ => ("bootKeyForwardResponse", 14)
  | .exportKeyRequest _ _ => ("exportKeyRequest", 15)
  | .exportKeyResponse _ _ => ("exportKeyResponse", 16)
  | .injectKeyRequest _ _ => ("injectKeyRequest", 17)
  | .injectKeyResponse => ("injectKeyResponse", 18)
  | .manifestEnvelopeRequest => ("manifestEnvelopeRequest", 19)
  | .manifestEnvelopeResponse _ => ("manifestEnvelopeResponse", 20)
  | .versionRequest => ("versionRequest", 21)
  | .versionResponse _ _ => ("versionResponse", 22)
  | .bootStandardJsonEnvelopeRequest _ _ => ("", 23)

end Qos
