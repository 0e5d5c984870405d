import Verif.Model.Host
import Verif.Model.HostCli
import Verif.Model.P256
import Verif.Model.SockAddr
import Verif.Model.Typed
/-!
# The signed-echo pivot application

`/repo/src/signed_echo/src/lib.rs` and `/repo/src/signed_echo/src/main.rs`: an HTTP server started by the reaper as the pivot,
which signs what it is asked to with the quorum key file. Simplifications: each request is one step in which the key file, the
clock and the answer of the fetched URL do not change; the texts of axum's own rejections and of errors of `ureq` are not
modelled (empty).
-/
namespace Qos.SignedEcho
open P256 (Pair Public)
open JCodec (bytesText)

/-- `DEFAULT_QUORUM_KEY_PATH` (lib.rs:19). -/
def defaultKeyPath : String := "/qos.quorum.key"

/-- `SIGNED_PAYLOAD_DOMAIN` (lib.rs:21). -/
def payloadDomain : String := "echo app signed"

/-- What `ureq`'s GET did (lib.rs:169-175, 179-181), or the blocking task that runs it (lib.rs:118-121). -/
inductive Fetch where
  | taskFailed
  | failed
  | answered (status : UInt16) (body : Option String)

/-- Files, the clock in seconds since the epoch, the rest of the net. lib.rs:107, 118-122, 148, 168-183. -/
structure Outside where
  file : String → Option Bytes
  now : Int
  get : String → Fetch

/-- `AppError` (lib.rs:185-194); the texts inside are not modelled. -/
inductive AppError where
  | systemTime | quorumKey | serialize | sign | fetch | fetchStatus (status : UInt16) | fetchRead

/-- `EchoResponse` (lib.rs:49-58). -/
structure EchoResponse where
  signedPayloadJson : String
  signatureHex : String
  publicKeyHex : String

/-- `SignedEchoPayload` as `serde_json::to_value` makes it (lib.rs:60-66, 139-140). -/
def echoPayload (message : String) (time : Nat) : Json :=
  .obj [("domain", .str payloadDomain), ("message", .str message), ("time", .int time)]

/-- `SignedGetUrlPayload` as `serde_json::to_value` makes it (lib.rs:68-83, 123-129). -/
def getUrlPayload (url : String) (status : UInt16) (body : String) (time : Nat) : Json :=
  .obj [("domain", .str payloadDomain), ("url", .str url), ("status", .int status.toNat), ("body", .str body),
    ("time", .int time)]

/-- `P256Pair::from_hex_file(config.quorum_key_path())` (lib.rs:148-149). -/
def readKey (p : Prims) (path : String) (W : Outside) : Except AppError Pair :=
  match W.file path with
  | none => .error .quorumKey
  | some c => match Pair.fromHexContents p c with
    | .ok k => .ok k
    | .error _ => .error .quorumKey

/-- `sign_json_payload` (lib.rs:144-161). Signing does not fail (as `Pair.sign`). -/
def signJsonPayload (p : Prims) (path : String) (W : Outside) (payload : Json) : Except AppError EchoResponse :=
  match readKey p path W with
  | .error e => .error e
  | .ok k => match Json.canon payload with
    | none => .error .serialize
    | some t => .ok ⟨String.ofList t, bytesText (Hex.encode (k.sign p (utf8 (String.ofList t)))),
        bytesText (Hex.encode (k.publicKey p).toBytes)⟩

/-- `SystemTime::now().duration_since(UNIX_EPOCH)?.as_secs()` (lib.rs:107, 122). -/
def unixTime (W : Outside) : Except AppError Nat := if W.now < 0 then .error .systemTime else .ok W.now.toNat

/-- `signed_echo` (lib.rs:103-110) with `sign_payload` (lib.rs:134-142). -/
def signedEcho (p : Prims) (path : String) (W : Outside) (message : String) : Except AppError EchoResponse :=
  match unixTime W with
  | .error e => .error e
  | .ok t => signJsonPayload p path W (echoPayload message t)

/-- `fetch` (lib.rs:168-183), and the task around it (lib.rs:118-121). -/
def fetch : Fetch → Except AppError (UInt16 × String)
  | .taskFailed => .error .fetch
  | .failed => .error .fetch
  | .answered status body =>
    if status < 200 ∨ 300 ≤ status then .error (.fetchStatus status) else
    match body with
    | none => .error .fetchRead
    | some b => .ok (status, b)

/-- `signed_get_url` (lib.rs:112-132). -/
def signedGetUrl (p : Prims) (path : String) (W : Outside) (url : String) : Except AppError EchoResponse :=
  match fetch (W.get url) with
  | .error e => .error e
  | .ok f => match unixTime W with
    | .error e => .error e
    | .ok t => signJsonPayload p path W (getUrlPayload url f.1 f.2 t)

/-- An HTTP request: what axum's extractors see of it. `url` is the query parameter, if the query is well-formed and has
exactly one. lib.rs:85-97, 103-115. -/
structure Request where
  method : Host.Method
  path : String
  body : Bytes
  url : Option String

/-- The statuses of `AppError::into_response` (lib.rs:203-209). -/
def errorStatus : AppError → Nat
  | .fetch => 502
  | .fetchStatus _ => 502
  | .fetchRead => 502
  | _ => 500

/-- The texts of `AppError::into_response` (lib.rs:210-224), without those of `ureq`. -/
def errorText : AppError → String
  | .systemTime => "system time is before the Unix epoch"
  | .quorumKey => "failed to read quorum key"
  | .serialize => "failed to serialize signed payload"
  | .sign => "failed to sign payload"
  | .fetch => "failed to fetch url: "
  | .fetchStatus s => "fetched url returned non-success status: " ++ toString s.toNat
  | .fetchRead => "failed to read fetched url response: "

/-- `Json(EchoResponse)` as axum writes it (lib.rs:109, 131, 49-58). -/
def EchoResponse.json (r : EchoResponse) : Json :=
  .obj [("signed_payload_json", .str r.signedPayloadJson), ("signature_hex", .str r.signatureHex),
    ("public_key_hex", .str r.publicKeyHex)]

/-- The response of a handler (lib.rs:109, 131, 202-227). -/
def respond : Except AppError EchoResponse → Host.Response
  | .ok r => ⟨200, Json.writeBytes r.json⟩
  | .error e => ⟨errorStatus e, Json.writeBytes (.obj [("error", .str (errorText e))])⟩

/-- The limit axum 0.6 puts on a body taken as a `String`. External crate `axum`, used at lib.rs:105. -/
def bodyLimit : Nat := 2097152

/-- `POST /echo` with axum's `String` extractor: 413 for a body over the limit, 400 for one that is not UTF-8. lib.rs:103-110. -/
def serveEcho (p : Prims) (path : String) (W : Outside) (body : Bytes) : Host.Response :=
  if bodyLimit < body.length then ⟨413, []⟩ else
  match utf8Decode body with
  | none => ⟨400, []⟩
  | some m => respond (signedEcho p path W m)

/-- `GET /get_url` with axum's `Query` extractor: 400 if there is no such query. lib.rs:112-132. -/
def serveGetUrl (p : Prims) (path : String) (W : Outside) : Option String → Host.Response
  | none => ⟨400, []⟩
  | some url => respond (signedGetUrl p path W url)

/-- `router` (lib.rs:90-97) and `health` (lib.rs:99-101). -/
def serve (p : Prims) (path : String) (W : Outside) (r : Request) : Host.Response :=
  if r.path = "/health" then
    if r.method = .get then ⟨200, Json.writeBytes (.obj [("status", .str "healthy")])⟩ else ⟨405, []⟩
  else if r.path = "/echo" then
    if r.method = .post then serveEcho p path W r.body else ⟨405, []⟩
  else if r.path = "/get_url" then
    if r.method = .get then serveGetUrl p path W r.url else ⟨405, []⟩
  else ⟨404, []⟩

/-! ## The command line (main.rs) -/

/-- `Cli` (main.rs:10-15). -/
structure Cli where
  host : String
  port : UInt16
  keyPath : String
  deriving DecidableEq

/-- `Cli::default` (main.rs:17-25, 7-8). -/
def Cli.default : Cli := ⟨"127.0.0.1", 3000, defaultKeyPath⟩

/-- The loop of `Cli::parse` (main.rs:28-54) with `next_value` (main.rs:65-70); `none` is an error. -/
def Cli.parseFrom (c : Cli) : List String → Option Cli
  | [] => some c
  | [_] => none
  | a :: v :: rest =>
    if a = "--host" then Cli.parseFrom { c with host := v } rest
    else if a = "--port" then
      match HostCli.parsePort v with
      | none => none
      | some n => Cli.parseFrom { c with port := n } rest
    else if a = "--quorum-file" then Cli.parseFrom { c with keyPath := v } rest
    else none

/-- `Cli::parse` (main.rs:28-54). -/
def Cli.parse (args : List String) : Option Cli := Cli.parseFrom Cli.default args

/-- `Cli::addr` (main.rs:56-58). -/
def Cli.addr (c : Cli) : Option SockAddr.Addr := SockAddr.parse (c.host ++ ":" ++ toString c.port.toNat)

/-- `main` (main.rs:72-83) up to listening: the address to listen on and the key file, or an error. -/
def main (args : List String) : Option (SockAddr.Addr × String) :=
  match Cli.parse args with
  | none => none
  | some c => c.addr.map fun a => (a, c.keyPath)

end Qos.SignedEcho
