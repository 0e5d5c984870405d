import Verif.Model.World
/-!
# The provider of the real device

`/repo/src/qos_nsm/src/nsm.rs` (`Nsm`) and the conversions of `/repo/src/qos_nsm/src/types.rs`. The crate
`aws_nitro_enclaves_nsm_api` is external: its request and response types are open (`#[non_exhaustive]`), which is the constructor
`other` here, and its driver calls are answered by `Driver`.
-/
namespace Qos.NsmProvider

/-- `ErrorCode`. External: aws_nitro_enclaves_nsm_api, used at types.rs:43-76. -/
inductive DriverError where
  | success | invalidArgument | invalidIndex | invalidResponse | readOnlyIndex | invalidOperation
  | bufferTooSmall | inputTooLarge | internalError
  deriving DecidableEq

/-- `Digest`. External: aws_nitro_enclaves_nsm_api, used at types.rs:98-120. -/
inductive DriverDigest where
  | sha256 | sha384 | sha512
  deriving DecidableEq

/-- `Request`. External: aws_nitro_enclaves_nsm_api, used at types.rs:191-238. -/
inductive DriverRequest where
  | describePCR (index : UInt16)
  | extendPCR (index : UInt16) (data : Bytes)
  | lockPCR (index : UInt16)
  | lockPCRs (range : UInt16)
  | describeNSM
  | attestation (userData nonce publicKey : Option Bytes)
  | getRandom
  | other (n : Nat)
  deriving DecidableEq

/-- `Response`. External: aws_nitro_enclaves_nsm_api, used at types.rs:313-376. -/
inductive DriverResponse where
  | describePCR (lock : Bool) (data : Bytes)
  | extendPCR (data : Bytes)
  | lockPCR
  | lockPCRs
  | describeNSM (versionMajor versionMinor versionPatch : UInt16) (moduleId : String) (maxPcrs : UInt16)
      (lockedPcrs : List UInt16) (digest : DriverDigest)
  | attestation (document : Bytes)
  | getRandom (random : Bytes)
  | error (e : DriverError)
  | other (n : Nat)
  deriving DecidableEq

/-- `From<ErrorCode> for NsmErrorCode` (types.rs:43-58). -/
def ofError : DriverError → NsmErrorCode
  | .success => .success
  | .invalidArgument => .invalidArgument
  | .invalidIndex => .invalidIndex
  | .invalidResponse => .invalidResponse
  | .readOnlyIndex => .readOnlyIndex
  | .invalidOperation => .invalidOperation
  | .bufferTooSmall => .bufferTooSmall
  | .inputTooLarge => .inputTooLarge
  | .internalError => .internalError

/-- `From<NsmErrorCode> for ErrorCode` (types.rs:60-75). -/
def toError : NsmErrorCode → DriverError
  | .success => .success
  | .invalidArgument => .invalidArgument
  | .invalidIndex => .invalidIndex
  | .invalidResponse => .invalidResponse
  | .readOnlyIndex => .readOnlyIndex
  | .invalidOperation => .invalidOperation
  | .bufferTooSmall => .bufferTooSmall
  | .inputTooLarge => .inputTooLarge
  | .internalError => .internalError

/-- `From<Digest> for NsmDigest` (types.rs:98-107). -/
def ofDigest : DriverDigest → NsmDigest
  | .sha256 => .sha256
  | .sha384 => .sha384
  | .sha512 => .sha512

/-- `From<NsmDigest> for Digest` (types.rs:109-118). -/
def toDigest : NsmDigest → DriverDigest
  | .sha256 => .sha256
  | .sha384 => .sha384
  | .sha512 => .sha512

/-- `From<Request> for NsmRequest` (types.rs:191-213); a request it does not know is a panic (`none`). -/
def ofRequest : DriverRequest → Option NsmRequest
  | .describePCR i => some (.describePCR i)
  | .extendPCR i d => some (.extendPCR i d)
  | .lockPCR i => some (.lockPCR i)
  | .lockPCRs r => some (.lockPCRs r)
  | .describeNSM => some .describeNSM
  | .attestation u n k => some (.attestation u n k)
  | .getRandom => some .getRandom
  | .other _ => none

/-- `From<NsmRequest> for Request` (types.rs:215-236). -/
def toRequest : NsmRequest → DriverRequest
  | .describePCR i => .describePCR i
  | .extendPCR i d => .extendPCR i d
  | .lockPCR i => .lockPCR i
  | .lockPCRs r => .lockPCRs r
  | .describeNSM => .describeNSM
  | .attestation u n k => .attestation u n k
  | .getRandom => .getRandom

/-- `From<Response> for NsmResponse` (types.rs:313-345): a response it does not know is an internal error. -/
def ofResponse : DriverResponse → NsmResponse
  | .describePCR l d => .describePCR l d
  | .extendPCR d => .extendPCR d
  | .lockPCR => .lockPCR
  | .lockPCRs => .lockPCRs
  | .describeNSM a b c m x l d => .describeNSM a b c m x l (ofDigest d)
  | .attestation d => .attestation d
  | .getRandom r => .getRandom r
  | .error e => .error (ofError e)
  | .other _ => .error (ofError .internalError)

/-- `From<NsmResponse> for nsm::api::Response` (types.rs:347-376). -/
def toResponse : NsmResponse → DriverResponse
  | .describePCR l d => .describePCR l d
  | .extendPCR d => .extendPCR d
  | .lockPCR => .lockPCR
  | .lockPCRs => .lockPCRs
  | .describeNSM a b c m x l d => .describeNSM a b c m x l (toDigest d)
  | .attestation d => .attestation d
  | .getRandom r => .getRandom r
  | .error e => .error (toError e)

/-- A call of the driver, with its answer. External: `nsm::driver`, used at nsm.rs:54-57. -/
inductive DriverCall where
  /-- `nsm_init` gave this descriptor -/
  | opened (fd : Int)
  /-- `nsm_process_request` -/
  | asked (fd : Int) (req : DriverRequest) (resp : DriverResponse)
  /-- `nsm_exit` -/
  | closed (fd : Int)

/-- The driver: its answers may depend on everything that was called before. External: `nsm::driver`, used at nsm.rs:54-57. -/
structure Driver where
  descriptor : List DriverCall → Int
  answer : List DriverCall → Int → DriverRequest → DriverResponse

/-- `Nsm::nsm_process_request` (nsm.rs:50-59), after the calls of `log`. -/
def processRequest (D : Driver) (log : List DriverCall) (request : NsmRequest) : NsmResponse × List DriverCall :=
  let fd := D.descriptor log
  let log1 := log ++ [.opened fd]
  let response := D.answer log1 fd (toRequest request)
  (ofResponse response, log1 ++ [.asked fd (toRequest request) response, .closed fd])

/-- The end of `Nsm::timestamp_ms` (nsm.rs:69-76). -/
def readTimestamp (pki : Attest.Pki) : NsmResponse → Except AttestError Nat
  | .attestation document => do
    let doc ← pki.decode document
    return doc.timestamp
  | resp => .error (.unexpectedNsmResponse resp)

/-- `Nsm::timestamp_ms` (nsm.rs:61-77). -/
def timestampMs (D : Driver) (pki : Attest.Pki) (log : List DriverCall) : Except AttestError Nat × List DriverCall :=
  let r := processRequest D log (.attestation none none none)
  (readTimestamp pki r.1, r.2)

/-- What the enclave asks of its provider. nsm.rs:12-29. -/
inductive Ask where
  | request (r : NsmRequest)
  | time

/-- What it is told. nsm.rs:12-29. -/
inductive Told where
  | response (r : NsmResponse)
  | time (t : Except AttestError Nat)

/-- One call of the provider (nsm.rs:49-78). -/
def call (D : Driver) (pki : Attest.Pki) (log : List DriverCall) : Ask → Told × List DriverCall
  | .request r => (.response (processRequest D log r).1, (processRequest D log r).2)
  | .time => (.time (timestampMs D pki log).1, (timestampMs D pki log).2)

/-- A sequence of calls (nsm.rs:49-78): what was told, and the driver calls so far. -/
def calls (D : Driver) (pki : Attest.Pki) (log : List DriverCall) : List Ask → List Told × List DriverCall
  | [] => ([], log)
  | a :: as => ((call D pki log a).1 :: (calls D pki (call D pki log a).2 as).1, (calls D pki (call D pki log a).2 as).2)

end Qos.NsmProvider
