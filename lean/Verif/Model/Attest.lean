import Verif.Model.Nsm
/-!
# Attestation documents

`/repo/src/qos_nsm/src/nitro/mod.rs`, `nitro/syntactic_validation.rs`, `nitro/error.rs`.
-/
namespace Qos

/-- `AttestError` (nitro/error.rs:6-108). Wrapped external errors carry no detail. -/
inductive AttestError where
  | webPki | invalidCertChain | nsm | invalidEndEntityCert | invalidCOSESign1Signature
  | invalidCOSESign1Structure | invalidDigest | invalidModuleId | invalidPcr | invalidCABundle
  | invalidTimeStamp | invalidPubKey | invalidBytes | unexpectedNsmResponse (r : NsmResponse)
  | pemDecodingError | failedDecodeKeyFromCert | failedToParseCert
  | missingUserData | differentUserData (expected actual : String)
  | unexpectedAttestationDocNonce
  | missingPcr0 | differentPcr0 (expected actual : String)
  | missingPcr1 | differentPcr1 (expected actual : String)
  | missingPcr2 | differentPcr2 (expected actual : String)
  | missingPcr3 | differentPcr3 (expected actual : String)
  | missingPubKey
  | missingPcr (index : Nat)
  | differentPcr (index : Nat) (expected actual : String)
  deriving DecidableEq

namespace Attest

/-! ## Syntactic validation -/

/-- `validate_pcrs` (syntactic_validation.rs:53-68). -/
def validatePcrs (pcrs : List (Nat × Bytes)) : Except AttestError Unit :=
  let countOk := pcrs.length ≥ 1 && pcrs.length ≤ 32
  let entriesOk := pcrs.all fun kv => kv.1 ≤ 32 && [32, 48, 64].contains kv.2.length
  if !entriesOk || !countOk then .error .invalidPcr else .ok ()

/-- `validate_cabundle` (syntactic_validation.rs:70-81). -/
def validateCabundle (b : List Bytes) : Except AttestError Unit :=
  let lenOk := b.length ≥ 1
  let entriesOk := b.all fun c => c.length ≥ 1 && c.length ≤ 1024
  if !lenOk || !entriesOk then .error .invalidCABundle else .ok ()

/-- `validate_public_key` (syntactic_validation.rs:91-99). -/
def validatePublicKey : Option Bytes → Except AttestError Unit
  | some k => if k.length ≥ 1 && k.length ≤ 1024 then .ok () else .error .invalidPubKey
  | none => .ok ()

/-- `validate_bytes_512` (syntactic_validation.rs:101-109). -/
def validateBytes512 : Option Bytes → Except AttestError Unit
  | some v => if v.length > 512 then .error .invalidBytes else .ok ()
  | none => .ok ()

/-- `validate_module_id` (syntactic_validation.rs:49-51). -/
def validateModuleId (id : String) : Except AttestError Unit :=
  if id.isEmpty then .error .invalidModuleId else .ok ()

/-- `validate_digest` (syntactic_validation.rs:83-85). -/
def validateDigest (d : NsmDigest) : Except AttestError Unit :=
  if d = .sha384 then .ok () else .error .invalidDigest

/-- `validate_timestamp` (syntactic_validation.rs:87-89). -/
def validateTimestamp (t : Nat) : Except AttestError Unit :=
  if t = 0 then .error .invalidTimeStamp else .ok ()

/-- `validate_attestation_doc` (syntactic_validation.rs:21-46). -/
def validateDoc (d : AttestationDoc) : Except AttestError Unit := do
  validateModuleId d.moduleId
  validateDigest d.digest
  validatePcrs d.pcrs
  validateCabundle d.cabundle
  validateTimestamp d.timestamp
  validatePublicKey d.publicKey
  validateBytes512 d.userData
  validateBytes512 d.nonce

/-! ## Manifest commitments -/

/-- `ManifestCommitmentKind` (nitro/mod.rs:68-74). -/
inductive Kind where
  | setup | live
  deriving DecidableEq

/-- `pcr_index` (nitro/mod.rs:93-99, constants 47-50). -/
def Kind.pcrIndex : Kind → Nat
  | .setup => 16
  | .live => 17

/-- `domain` (nitro/mod.rs:101-106, constants 62-65). -/
def Kind.domain : Kind → String
  | .setup => "qos-setup-manifest-pcr-commitment-v1"
  | .live => "qos-live-manifest-pcr-commitment-v1"

/-- `manifest_pcr_commitment_preimage` (nitro/mod.rs:119-130): canonical JSON. The `expect` never fires
(`preimage_defined`). -/
def preimage (kind : Kind) (manifestHash key : Bytes) : Bytes :=
  (Json.canonBytes (.obj [("domain", .str kind.domain), ("manifestHash", .str (hexString manifestHash)),
    ("ephemeralPublicKey", .str (hexString key))])).getD []

/-- `manifest_pcr_commitment` (nitro/mod.rs:134-147). -/
def commitment (p : Prims) (kind : Kind) (manifestHash key : Bytes) : Bytes :=
  p.sha384 (preimage kind manifestHash key)

/-- `expected_manifest_commitment_pcr` (nitro/mod.rs:178-186); `pcr_extend_sha384` cannot fail on the 48-byte
constant (the length test is evaluated here). -/
def expectedPcr (p : Prims) (kind : Kind) (manifestHash key : Bytes) : Bytes :=
  (pcrExtend p zeroPcr (commitment p kind manifestHash key)).getD []

/-- First missing index of the loop at nitro/mod.rs:198-202. -/
def firstMissing (d : AttestationDoc) : List Nat → Option Nat
  | [] => none
  | i :: is => if (d.pcr i).isSome then firstMissing d is else some i

/-- `verify_attestation_doc_manifest_commitment` (nitro/mod.rs:193-229). -/
def verifyCommitment (p : Prims) (d : AttestationDoc) (kind : Kind) (manifestHash : Bytes) :
    Except AttestError Unit :=
  match firstMissing d (List.range 32) with
  | some i => .error (.missingPcr i)
  | none => match d.publicKey with
    | none => .error .missingPubKey
    | some k => match d.pcr kind.pcrIndex with
      | none => .error (.missingPcr kind.pcrIndex)
      | some actual =>
        if actual ≠ expectedPcr p kind manifestHash k then
          .error (.differentPcr kind.pcrIndex (hexString (expectedPcr p kind manifestHash k)) (hexString actual))
        else .ok ()

/-- One register comparison of `verify_attestation_doc_against_user_input` (nitro/mod.rs:351-401). -/
def comparePcr (d : AttestationDoc) (i : Nat) (expected : Bytes) (missing : AttestError)
    (different : String → String → AttestError) : Except AttestError Unit :=
  match d.pcr i with
  | none => .error missing
  | some x => if expected ≠ x then .error (different (hexString expected) (hexString x)) else .ok ()

/-- `verify_attestation_doc_against_user_input` (nitro/mod.rs:323-404). -/
def verifyUserInput (d : AttestationDoc) (userData pcr0 pcr1 pcr2 pcr3 : Bytes) : Except AttestError Unit :=
  match d.userData with
  | none => .error .missingUserData
  | some u =>
    if userData ≠ u then .error (.differentUserData (hexString userData) (hexString u))
    else if d.nonce.isSome then .error .unexpectedAttestationDocNonce
    else do
      comparePcr d 0 pcr0 .missingPcr0 .differentPcr0
      comparePcr d 1 pcr1 .missingPcr1 .differentPcr1
      comparePcr d 2 pcr2 .missingPcr2 .differentPcr2
      comparePcr d 3 pcr3 .missingPcr3 .differentPcr3

/-- `ManifestAttestationInput` (nitro/mod.rs:77-89). -/
structure Input where
  manifestHash : Bytes
  pcr0 : Bytes
  pcr1 : Bytes
  pcr2 : Bytes
  pcr3 : Bytes

/-- `verify_attestation_doc_against_manifest` (nitro/mod.rs:236-256); `_setup` and `_live` (263-288) fix the
kind. -/
def verifyManifest (p : Prims) (kind : Kind) (d : AttestationDoc) (i : Input) : Except AttestError Unit := do
  verifyUserInput d i.manifestHash i.pcr0 i.pcr1 i.pcr2 i.pcr3
  verifyCommitment p d kind i.manifestHash

/-! ## Signed documents -/

/-- External code used by `attestation_doc_from_der`: COSE and CBOR decoding
(`unsafe_attestation_doc_from_der`, nitro/mod.rs:424-437), X.509 chain validation (`verify_certificate_chain`,
nitro/mod.rs:479-506, of the intermediates, root, end-entity certificate and time) and the COSE signature
(`verify_cose_sign1_sig`, nitro/mod.rs:510-555, of the certificate and the signed bytes). -/
structure Pki where
  decode : Bytes → Except AttestError AttestationDoc
  chain : List Bytes → Bytes → Bytes → Nat → Except AttestError Unit
  signature : Bytes → Bytes → Except AttestError Unit

/-- `attestation_doc_from_der` (nitro/mod.rs:457-476). The slice `cabundle[1..]` (line 491) does not panic
because `validate_attestation_doc` has accepted the document (`validateDoc_cabundle`). -/
def fromDer (pki : Pki) (der rootCert : Bytes) (time : Nat) : Except AttestError AttestationDoc := do
  let d ← pki.decode der
  validateDoc d
  pki.chain (d.cabundle.drop 1) rootCert d.certificate time
  pki.signature d.certificate der
  return d

end Attest
end Qos
