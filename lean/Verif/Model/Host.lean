import Verif.Model.Client
import Verif.Model.Stream
/-!
# The host's HTTP endpoints

`/repo/src/qos_host/src/host.rs` and `lib.rs`: what the host does with an HTTP request. HTTP itself is not modelled, nor
are log lines; of axum's routing only literal paths are (a base path with `:` or `*` would be a pattern). `call` is `SocketClient::call`
(Model/Net.lean, claims C35 and C36): it takes the request bytes to the enclave; `none` is an error.
-/
namespace Qos.Host

variable {S : Type}

/-- `SocketClient::call` seen from the host. qos_core/src/client.rs:70-86. -/
abbrev Call (S : Type) := S → Bytes → S × Option Bytes

/-- Status and body. host.rs:234-265. -/
structure Response where
  status : Nat
  body : Bytes

/-- `MAX_ENCODED_MSG_LEN` (lib.rs:29-29). -/
def maxEncodedMsgLen : Nat := 256 * (1024 * 1024)

/-- `ProtocolMsg::ProtocolErrorResponse(e).to_json_wire().expect(…)` with a status; `none` is a panic of the handler.
host.rs:234-265. -/
def errorResponse (status : Nat) (e : ProtocolError) : Option Response :=
  match Wire.errorAnswer e with
  | some b => some ⟨status, b⟩
  | none => none

/-- The answer to a call (host.rs:246-264). -/
def relay : Option Bytes → Option Response
  | some b => some ⟨200, b⟩
  | none => errorResponse 500 .enclaveClient

/-- `HostServer::message` (host.rs:234-265). -/
def message (call : Call S) (body : Bytes) (s : S) : S × Option Response :=
  if body.length > maxEncodedMsgLen then (s, errorResponse 400 .oversizeMsg)
  else ((call s body).1, relay (call s body).2)

/-- A request made by the host itself: `to_json_wire().expect(…)`, `call`, `from_wire_any` (host.rs:118-147, 170-188,
271-276, 296-304). -/
inductive Asked where
  | failed
  | unreadable
  | answered (m : Msg)

/-- Reading the answer. host.rs:115-231. -/
def readAsked : Option Bytes → Asked
  | none => .failed
  | some b => match Wire.fromWire b with
    | .ok (m, _) => .answered m
    | .error _ => .unreadable

/-- `none` is the panic of `expect`. host.rs:115-231. -/
def ask (call : Call S) (m : Msg) (s : S) : S × Option Asked :=
  match Wire.toJson m with
  | none => (s, none)
  | some b => ((call s b).1, some (readAsked (call s b).2))

/-- Status of `/enclave-health` for a phase (host.rs:152-160). -/
def phaseStatus : Phase → Nat
  | .unrecoverableError => 503
  | .waitingForBootInstruction => 503
  | .waitingForQuorumShards => 503
  | .waitingForForwardedKey => 503
  | .quorumKeyProvisioned => 200
  | .genesisBooted => 200

/-- What `/enclave-health` answers: a status and, when the enclave reported one, its phase (the body is the phase's
`Debug` text; error texts are not modelled). host.rs:115-168. -/
structure Health where
  status : Nat
  phase : Option Phase
  deriving DecidableEq

/-- The verdict (host.rs:120-171). -/
def healthOf : Asked → Health
  | .answered (.statusResponse p) => ⟨phaseStatus p, some p⟩
  | _ => ⟨500, none⟩

/-- `HostServer::enclave_health` (host.rs:115-168). -/
def enclaveHealth (call : Call S) (s : S) : S × Option Health :=
  match ask call .statusRequest s with
  | (s', none) => (s', none)
  | (s', some a) => (s', some (healthOf a))

/-- `EnclaveInfo` (lib.rs:56-65); the key as bytes before hexadecimal encoding. -/
structure EnclaveInfo where
  phase : Phase
  manifestEnvelope : Option Envelope
  ephemeralKey : Option Bytes

/-- The phase in the answer (host.rs:180-196). -/
def phaseIn : Option Asked → Option Phase
  | some (.answered (.statusResponse p)) => some p
  | _ => none

/-- `get_manifest_envelope` (host.rs:291-312): the outer `none` is an error. -/
def envelopeIn : Option Asked → Option (Option Envelope)
  | some (.answered (.manifestEnvelopeResponse e)) => some e
  | _ => none

/-- The key in a document, decoded without any check (host.rs:284-286). -/
def keyInDoc (decode : Bytes → Except AttestError AttestationDoc) (document : Bytes) : Option Bytes :=
  match decode document with
  | .ok d => d.publicKey
  | .error _ => none

/-- `get_eph_key_from_attestation_doc` (host.rs:268-287). -/
def ephemeralIn (decode : Bytes → Except AttestError AttestationDoc) : Option Asked → Option Bytes
  | some (.answered (.liveAttestationDocResponse (.attestation document) _)) => keyInDoc decode document
  | _ => none

/-- `HostServer::enclave_info` (host.rs:174-231); `none` is a 500. -/
def enclaveInfo (call : Call S) (decode : Bytes → Except AttestError AttestationDoc) (s : S) : S × Option EnclaveInfo :=
  let a := ask call .statusRequest s
  match phaseIn a.2 with
  | none => (a.1, none)
  | some phase =>
    let b := ask call .manifestEnvelopeRequest a.1
    match envelopeIn b.2 with
    | none => (b.1, none)
    | some e =>
      let c := ask call .liveAttestationDocRequest b.1
      (c.1, some ⟨phase, e, ephemeralIn decode c.2⟩)

/-- `HostServer::path` (host.rs:70-76). -/
def endpointPath (basePath : Option String) (endpoint : String) : String :=
  match basePath with
  | some p => "/" ++ p ++ endpoint
  | none => "/qos" ++ endpoint

/-- What a request can be for. host.rs:91-95. -/
inductive Endpoint where
  | hostHealth | enclaveHealth | message | enclaveInfo
  deriving DecidableEq

/-- HTTP methods. host.rs:91-95. -/
inductive Method where
  | get | post | other
  deriving DecidableEq

/-- The routes (host.rs:91-95), with the constants of lib.rs:48-53. -/
def routes (basePath : Option String) : List (String × Method × Endpoint) :=
  [(endpointPath basePath "/host-health", .get, .hostHealth),
   (endpointPath basePath "/enclave-health", .get, .enclaveHealth),
   (endpointPath basePath "/message", .post, .message),
   (endpointPath basePath "/enclave-info", .get, .enclaveInfo)]

/-- What axum makes of a request. host.rs:91-95. -/
inductive Routed where
  | served (e : Endpoint)
  | methodNotAllowed
  | notFound
  deriving DecidableEq

/-- The method decides on the handler of a path. host.rs:91-95. -/
def routed (method : Method) : Option (String × Method × Endpoint) → Routed
  | none => .notFound
  | some r => if r.2.1 = method then .served r.2.2 else .methodNotAllowed

/-- `Router` (host.rs:91-97). -/
def route (basePath : Option String) (method : Method) (path : String) : Routed :=
  routed method ((routes basePath).find? fun r => r.1 = path)

/-- The host in front of an enclave, as the client's HTTP library sees it: the body of a success, `none` for an error
status or a broken connection (`ureq` turns statuses from 400 on into errors). host.rs:234-265. -/
def http (call : Call S) (s : S) (body : Bytes) : S × Option Bytes :=
  let r := message call body s
  (r.1, r.2.bind fun x => if x.status < 400 then some x.body else none)

/-- What comes back: an answer longer than `MAX_PAYLOAD_SIZE` is not sent, the connection is closed instead
(qos_core/src/server.rs:228-240, io/stream.rs:199-206). -/
def delivered : Option Bytes → Option Bytes
  | some r => if r.length ≤ Stream.maxPayloadSize then some r else none
  | none => none

/-- The enclave as the host reaches it, over a connection that does not fail: a request longer than `MAX_PAYLOAD_SIZE` is
not sent (io/stream.rs:199-206), others are answered with what `process_request` returns (Model/Wire.lean,
Model/NetEnclave.lean). -/
noncomputable def enclaveCall (E : Env) : Call St := fun s b =>
  if b.length ≤ Stream.maxPayloadSize then ((Wire.process E b s).2, delivered (Wire.process E b s).1) else (s, none)

end Qos.Host
