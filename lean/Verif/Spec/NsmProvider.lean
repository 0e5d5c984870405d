import Verif.Model.NsmProvider
/-!
# What a request or response of the device says: its name and its fields, in the words of the Nitro API
-/
namespace Qos.NsmProvider

/-- A field of a request or response. -/
inductive Field where
  | number (n : UInt16)
  | bytes (b : Bytes)
  | maybe (b : Option Bytes)
  | flag (b : Bool)
  | text (s : String)
  | numbers (l : List UInt16)
  deriving DecidableEq

/-- Name and fields. -/
abbrev View := String × List Field

/-- The name of an error code. -/
def errorName : NsmErrorCode → String
  | .success => "Success"
  | .invalidArgument => "InvalidArgument"
  | .invalidIndex => "InvalidIndex"
  | .invalidResponse => "InvalidResponse"
  | .readOnlyIndex => "ReadOnlyIndex"
  | .invalidOperation => "InvalidOperation"
  | .bufferTooSmall => "BufferTooSmall"
  | .inputTooLarge => "InputTooLarge"
  | .internalError => "InternalError"

/-- The name of an error code of the driver. -/
def driverErrorName : DriverError → String
  | .success => "Success"
  | .invalidArgument => "InvalidArgument"
  | .invalidIndex => "InvalidIndex"
  | .invalidResponse => "InvalidResponse"
  | .readOnlyIndex => "ReadOnlyIndex"
  | .invalidOperation => "InvalidOperation"
  | .bufferTooSmall => "BufferTooSmall"
  | .inputTooLarge => "InputTooLarge"
  | .internalError => "InternalError"

/-- The name of a digest. -/
def digestName : NsmDigest → String
  | .sha256 => "SHA256"
  | .sha384 => "SHA384"
  | .sha512 => "SHA512"

/-- The name of a digest of the driver. -/
def driverDigestName : DriverDigest → String
  | .sha256 => "SHA256"
  | .sha384 => "SHA384"
  | .sha512 => "SHA512"

/-- What a request says. -/
def requestView : NsmRequest → View
  | .describePCR i => ("DescribePCR", [.number i])
  | .extendPCR i d => ("ExtendPCR", [.number i, .bytes d])
  | .lockPCR i => ("LockPCR", [.number i])
  | .lockPCRs r => ("LockPCRs", [.number r])
  | .describeNSM => ("DescribeNSM", [])
  | .attestation u n k => ("Attestation", [.maybe u, .maybe n, .maybe k])
  | .getRandom => ("GetRandom", [])

/-- What a request to the driver says; of one the code does not know, nothing. -/
def driverRequestView : DriverRequest → Option View
  | .describePCR i => some ("DescribePCR", [.number i])
  | .extendPCR i d => some ("ExtendPCR", [.number i, .bytes d])
  | .lockPCR i => some ("LockPCR", [.number i])
  | .lockPCRs r => some ("LockPCRs", [.number r])
  | .describeNSM => some ("DescribeNSM", [])
  | .attestation u n k => some ("Attestation", [.maybe u, .maybe n, .maybe k])
  | .getRandom => some ("GetRandom", [])
  | .other _ => none

/-- What a response says. -/
def responseView : NsmResponse → View
  | .describePCR l d => ("DescribePCR", [.flag l, .bytes d])
  | .extendPCR d => ("ExtendPCR", [.bytes d])
  | .lockPCR => ("LockPCR", [])
  | .lockPCRs => ("LockPCRs", [])
  | .describeNSM a b c m x l d => ("DescribeNSM", [.number a, .number b, .number c, .text m, .number x, .numbers l, .text (digestName d)])
  | .attestation d => ("Attestation", [.bytes d])
  | .getRandom r => ("GetRandom", [.bytes r])
  | .error e => ("Error", [.text (errorName e)])

/-- What a response of the driver says; one the code does not know says that there was an internal error. -/
def driverResponseView : DriverResponse → View
  | .describePCR l d => ("DescribePCR", [.flag l, .bytes d])
  | .extendPCR d => ("ExtendPCR", [.bytes d])
  | .lockPCR => ("LockPCR", [])
  | .lockPCRs => ("LockPCRs", [])
  | .describeNSM a b c m x l d =>
    ("DescribeNSM", [.number a, .number b, .number c, .text m, .number x, .numbers l, .text (driverDigestName d)])
  | .attestation d => ("Attestation", [.bytes d])
  | .getRandom r => ("GetRandom", [.bytes r])
  | .error e => ("Error", [.text (driverErrorName e)])
  | .other _ => ("Error", [.text "InternalError"])

/-- The request behind a call of the provider. The time is that of a document about nothing. -/
def Ask.view : Ask → View
  | .request r => requestView r
  | .time => ("Attestation", [.maybe none, .maybe none, .maybe none])

/-- What the provider tells is what the driver answered; the time is that in the document. -/
def Tells (pki : Attest.Pki) : Ask → Told → DriverResponse → Prop
  | .request _, .response r, a => responseView r = driverResponseView a
  | .time, .time (.ok t), a => ∃ der doc, driverResponseView a = ("Attestation", [.bytes der]) ∧ pki.decode der = .ok doc ∧ doc.timestamp = t
  | .time, .time (.error e), a =>
    (∃ der, driverResponseView a = ("Attestation", [.bytes der]) ∧ pki.decode der = .error e) ∨
    (∃ r, e = .unexpectedNsmResponse r ∧ responseView r = driverResponseView a ∧ (driverResponseView a).1 ≠ "Attestation")
  | _, _, _ => False

/-- What a sequence of provider calls does with the driver: for each one, a descriptor is opened, exactly that request is sent over
it, it is closed, and the answer is what is told. -/
inductive Sessions (D : Driver) (pki : Attest.Pki) : List DriverCall → List Ask → List Told → List DriverCall → Prop
  | done (log : List DriverCall) : Sessions D pki log [] [] log
  | step {log log' : List DriverCall} {a : Ask} {as : List Ask} {t : Told} {ts : List Told} (q : DriverRequest)
      (hsays : driverRequestView q = some a.view)
      (htells : Tells pki a t (D.answer (log ++ [.opened (D.descriptor log)]) (D.descriptor log) q))
      (rest : Sessions D pki (log ++ [.opened (D.descriptor log), .asked (D.descriptor log) q
        (D.answer (log ++ [.opened (D.descriptor log)]) (D.descriptor log) q), .closed (D.descriptor log)]) as ts log') :
      Sessions D pki log (a :: as) (t :: ts) log'

/-- An enclave on the real device: what it is told by its provider is what `Nsm` tells over this driver. -/
structure Backed (E : Env) (D : Driver) : Prop where
  nsm : ∀ hist r, ∃ log, E.nsm hist r = (processRequest D log r).1
  timestamp : ∀ n hist, ∃ log, E.timestamp n hist = (timestampMs D E.pki log).1

/-- The driver has given this answer to a request that says this. -/
def Answers (D : Driver) (v : View) (a : DriverResponse) : Prop :=
  ∃ log q, driverRequestView q = some v ∧ a = D.answer (log ++ [.opened (D.descriptor log)]) (D.descriptor log) q

end Qos.NsmProvider
