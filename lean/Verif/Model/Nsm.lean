import Verif.Model.Errors
import Verif.Model.Json
/-!
# Nitro Secure Module: request and response types, and the mock device

`/repo/src/qos_nsm/src/types.rs`, `/repo/src/qos_nsm/src/mock.rs`.
-/
namespace Qos

/-- `NsmErrorCode` (types.rs:21-41). -/
inductive NsmErrorCode where
  | success | invalidArgument | invalidIndex | invalidResponse | readOnlyIndex | invalidOperation
  | bufferTooSmall | inputTooLarge | internalError
  deriving DecidableEq

/-- `NsmDigest` (types.rs:89-96). -/
inductive NsmDigest where
  | sha256 | sha384 | sha512
  deriving DecidableEq

/-- `NsmRequest` (types.rs:129-189). -/
inductive NsmRequest where
  | describePCR (index : UInt16)
  | extendPCR (index : UInt16) (data : Bytes)
  | lockPCR (index : UInt16)
  | lockPCRs (range : UInt16)
  | describeNSM
  | attestation (userData nonce publicKey : Option Bytes)
  | getRandom
  deriving DecidableEq

/-- `NsmResponse` (types.rs:242-311). The `BTreeSet` of locked registers is the list of its elements. -/
inductive NsmResponse where
  | describePCR (lock : Bool) (data : Bytes)
  | extendPCR (data : Bytes)
  | lockPCR
  | lockPCRs
  | describeNSM (versionMajor versionMinor versionPatch : UInt16) (moduleId : String) (maxPcrs : UInt16)
      (lockedPcrs : List UInt16) (digest : NsmDigest)
  | attestation (document : Bytes)
  | getRandom (random : Bytes)
  | error (e : NsmErrorCode)
  deriving DecidableEq

/-- `AttestationDoc` of the external `aws_nitro_enclaves_nsm_api` crate. The `BTreeMap` of registers is the
list of its entries. Used at nitro/mod.rs:60-300. -/
structure AttestationDoc where
  moduleId : String
  digest : NsmDigest
  timestamp : Nat
  pcrs : List (Nat × Bytes)
  certificate : Bytes
  cabundle : List Bytes
  publicKey : Option Bytes
  userData : Option Bytes
  nonce : Option Bytes

/-- `BTreeMap::get`. nitro/mod.rs:200-260. -/
def AttestationDoc.pcr (d : AttestationDoc) (i : Nat) : Option Bytes :=
  match d.pcrs.find? (fun kv => kv.1 = i) with
  | some kv => some kv.2
  | none => none

/-- 48 zero bytes: `MANIFEST_COMMITMENT_INITIAL_PCR` (nitro/mod.rs:59-60) and the mock's default PCR. -/
def zeroPcr : Bytes := List.replicate 48 0

/-- `pcr_extend_sha384` (nitro/mod.rs:158-170); `none` is `AttestError::InvalidPcr`. -/
def pcrExtend (p : Prims) (current data : Bytes) : Option Bytes :=
  if current.length ≠ 48 then none else some (p.sha384 (current ++ data))

namespace MockNsm

/-- `MockNsmState` (mock.rs:82-86). -/
structure State where
  maxPcrs : UInt16
  pcrs : UInt16 → Option Bytes
  locked : UInt16 → Bool

/-- `MockNsmState::default` (mock.rs:90-104). -/
def initial : State where
  maxPcrs := 32
  pcrs i := if i = 16 ∨ i = 17 then some zeroPcr else none
  locked _ := false

/-- `MockNsm::with_pcr` (mock.rs:129-145); `none` is the assertion panic. -/
def withPcr (s : State) (index : UInt16) (value : Bytes) : Option State :=
  if index < 32 then
    if value.length = 32 ∨ value.length = 48 ∨ value.length = 64 then
      some { s with pcrs := fun i => if i = index then some value else s.pcrs i }
    else none
  else none

/-- The registers an attestation document reports (mock.rs:156-167). -/
def State.value (s : State) (i : UInt16) : Bytes := (s.pcrs i).getD zeroPcr

/-- The certificates of the mock PKI (mock.rs:61-78) and the COSE signing of a document (mock.rs:190-197),
which is external code. -/
structure Pki where
  leaf : Bytes
  root : Bytes
  intermediate : Bytes
  signDoc : AttestationDoc → Bytes

/-- The document of `signed_attestation_document` (mock.rs:150-188). -/
def attestationDoc (pki : Pki) (s : State) (userData nonce publicKey : Option Bytes) : AttestationDoc where
  moduleId := "mock_module_id"
  digest := .sha384
  timestamp := 1657117102484
  pcrs := (List.range 32).map fun i => (i, s.value (UInt16.ofNat i))
  certificate := pki.leaf
  cabundle := [pki.root, pki.intermediate]
  publicKey := publicKey
  userData := userData
  nonce := nonce

/-- The elements of the locked set in increasing order. Only indices below `maxPcrs` are ever inserted.
mock.rs:253-264, `DescribeNSM`. -/
def State.lockedList (s : State) : List UInt16 :=
  ((List.range s.maxPcrs.toNat).map UInt16.ofNat).filter s.locked

/-- `MockNsm::nsm_process_request` (mock.rs:244-312). `none` is a panic: the `unwrap` of `pcr_extend_sha384` on
a register that was seeded with a value that is not 48 bytes long (the mutex is then poisoned). -/
def process (p : Prims) (pki : Pki) (s : State) : NsmRequest → Option (State × NsmResponse)
  | .attestation u n k => some (s, .attestation (pki.signDoc (attestationDoc pki s u n k)))
  | .describeNSM => some (s, .describeNSM 1 2 14 "mock_module_id" s.maxPcrs s.lockedList .sha384)
  | .extendPCR i d =>
    if s.maxPcrs ≤ i then some (s, .error .invalidIndex)
    else if s.locked i then some (s, .error .readOnlyIndex)
    else match pcrExtend p (s.value i) d with
      | none => none
      | some x => some ({ s with pcrs := fun j => if j = i then some x else s.pcrs j }, .extendPCR x)
  | .getRandom => some (s, .getRandom [4, 2, 0, 69])
  | .lockPCR i =>
    if s.maxPcrs ≤ i then some (s, .error .invalidIndex)
    else some ({ s with locked := fun j => j = i || s.locked j }, .lockPCR)
  | .lockPCRs r =>
    if s.maxPcrs < r then some (s, .error .invalidIndex)
    else some ({ s with locked := fun j => j < r || s.locked j }, .lockPCRs)
  | .describePCR i =>
    if s.maxPcrs ≤ i then some (s, .error .invalidIndex)
    else some ({ s with pcrs := fun j => if j = i then some (s.value i) else s.pcrs j },
      .describePCR (s.locked i) (s.value i))

/-- A sequence of requests, with the responses given. A caller of mock.rs:244-316. -/
def run (p : Prims) (pki : Pki) (s : State) : List NsmRequest → Option (State × List NsmResponse)
  | [] => some (s, [])
  | r :: rs => match process p pki s r with
    | none => none
    | some (s', a) => match run p pki s' rs with
      | none => none
      | some (s'', as) => some (s'', a :: as)

end MockNsm
end Qos
