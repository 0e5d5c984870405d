import Verif.Model.SignedEcho
import Verif.Spec.ClientTools
import Verif.Spec.HostCli
import Verif.Spec.Json
/-!
# What an answer of the signed-echo application is good for

In terms of what a client sees: an HTTP status and a JSON object with three texts, which it checks against a public key.
-/
namespace Qos.SignedEcho
open P256 (Pair Public)
open Json (Step Shape observe)

/-- A successful response: status 200 and a JSON object with the signed text, the signature and the key. -/
def Answers (r : Host.Response) (payload signature key : String) : Prop :=
  r.status = 200 ∧ Json.parse r.body =
    some (.obj [("signed_payload_json", .str payload), ("signature_hex", .str signature), ("public_key_hex", .str key)])

/-- The key is this public key in hexadecimal, and the signature, in hexadecimal, is one of the text's bytes under it. -/
structure SignedBy (p : Prims) (pub : Public) (payload signature key : String) : Prop where
  key : Hex.decode (utf8 key) = .ok pub.toBytes ∧ Public.fromBytes p pub.toBytes = .ok pub
  signature : ∃ sig, Hex.decode (utf8 signature) = .ok sig ∧ pub.verify p (utf8 payload) sig = .ok ()

/-- The text is a JSON object which has these members, each a text, and no others. -/
def Reads (payload : String) (fields : List (String × String)) : Prop :=
  ∃ v, Json.parse (utf8 payload) = some v ∧ observe v [] = some .object ∧
    (∀ k s, (k, s) ∈ fields → observe v [.key k] = some (.text s)) ∧
    ∀ st q sh, observe v (st :: q) = some sh → q = [] ∧ ∃ k s, st = .key k ∧ sh = .text s ∧ (k, s) ∈ fields

/-- The members of what `POST /echo` signs. -/
def echoFields (message : String) (time : Nat) : List (String × String) :=
  [("domain", "echo app signed"), ("message", message), ("time", toString time)]

/-- The members of what `GET /get_url` signs. -/
def getUrlFields (url : String) (status : Nat) (body : String) (time : Nat) : List (String × String) :=
  [("domain", "echo app signed"), ("url", url), ("status", toString status), ("body", body), ("time", toString time)]

/-- The key file holds the seed of this pair. -/
def KeyFile (p : Prims) (W : Outside) (path : String) (pair : Pair) : Prop :=
  ∃ c, W.file path = some c ∧ Client.SeedText p c pair

/-- The URL gives a status of success and a readable body. -/
def Fetches (W : Outside) (url : String) (status : Nat) (body : String) : Prop :=
  ∃ st : UInt16, W.get url = .answered st (some body) ∧ st.toNat = status ∧ 200 ≤ status ∧ status < 300

/-- What a request must be to be answered with a signature: an echo of a UTF-8 body of at most 2 MiB, or a URL which gives a
status of success and a readable body; and the text that is signed for it. -/
inductive Wants (W : Outside) (r : Request) : List (String × String) → Prop
  | echo (m : String) : r.method = .post → r.path = "/echo" → utf8 m = r.body → r.body.length ≤ 2097152 →
      Wants W r (echoFields m W.now.toNat)
  | getUrl (url : String) (status : Nat) (body : String) : r.method = .get → r.path = "/get_url" → r.url = some url →
      Fetches W url status body → Wants W r (getUrlFields url status body W.now.toNat)

/-! ## The command line -/

/-- The words of a command line: each option followed by its value. -/
def words (opts : List (String × String)) : List String := opts.flatMap fun o => [o.1, o.2]

/-- The value of the last of the options with this name, or the default. -/
def LastOr (opts : List (String × String)) (name default v : String) : Prop :=
  (∃ before after, opts = before ++ (name, v) :: after ∧ ∀ o ∈ after, o.1 ≠ name) ∨
  ((∀ o ∈ opts, o.1 ≠ name) ∧ v = default)

/-- What a command line of options says. -/
structure CliSays (opts : List (String × String)) (c : Cli) : Prop where
  names : ∀ o ∈ opts, o.1 = "--host" ∨ o.1 = "--port" ∨ o.1 = "--quorum-file"
  ports : ∀ v, ("--port", v) ∈ opts → ∃ n, HostCli.Number v n ∧ n < 65536
  host : LastOr opts "--host" "127.0.0.1" c.host
  port : ∃ v, LastOr opts "--port" "3000" v ∧ HostCli.Number v c.port.toNat
  keyPath : LastOr opts "--quorum-file" "/qos.quorum.key" c.keyPath

end Qos.SignedEcho
