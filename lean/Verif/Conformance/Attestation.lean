import Verif.Conformance.Real
import Verif.Conformance.Fixtures
import Verif.Model.Attest
/-!
# Replay of the tests of qos_nsm

The published test vectors of the manifest commitment, the tests of the checks on attestation documents, run on the recorded
document of a real device where the test does so, and the tests of the mock device. Checks of the model against the
program's own tests, not properties.
-/
namespace Qos.Conformance
open Attest

/-- The error, if any. -/
def attestErr (r : Except AttestError Unit) : Option AttestError :=
  match r with
  | .error e => some e
  | .ok _ => none

/-! ## nitro/mod.rs:694-960, manifest commitments -/

/-- `manifest_pcr_commitment_preimage_uses_qos_json`. -/
example : preimage .setup [1, 2] [3, 4] = utf8
    "{\"domain\":\"qos-setup-manifest-pcr-commitment-v1\",\"ephemeralPublicKey\":\"0304\",\"manifestHash\":\"0102\"}" := by
  decide +kernel
/-- `pcr_extend_sha384_matches_aws_pcr3_example`. -/
example : pcrExtend realPrims (List.replicate 48 0) (ascii "arn:aws:iam::123456789012:role/Webserver") = some (be 48
    0x78fce75db17cd4e0a3fb8dad3ad128ca5e77edbb2b2c7f75329dccd99aa5f6ef4fc1f1a452e315b9e98f9e312e6921e6) := by
  decide +kernel
/-- `manifest_commitment_pcr_test_vectors`. -/
example : commitment realPrims .setup (List.replicate 32 1) (List.replicate 65 3) = be 48
    0xe5997907ea1b7204c7a8890ae76d8d70b05f37d3bdda729d6b4c1febc55c7f3ecae51ce4746f136c07527c00b1298876 := by
  decide +kernel
example : expectedPcr realPrims .setup (List.replicate 32 1) (List.replicate 65 3) = be 48
    0xf3e7209964e7d8f4915cc6038ec22d6dcdfcbea625b98f8a1a338e24407f122803f79be43ab65a4c4ad32a52b2c6ab4e := by
  decide +kernel
example : commitment realPrims .live (List.replicate 32 1) (List.replicate 65 3) = be 48
    0x47a6e41fa6bbd0e9f46829dbcaf359829934b4fdbbcce099e508aab4127332c5812f385a4e9133ec3db812aa00be2b3f := by
  decide +kernel
example : expectedPcr realPrims .live (List.replicate 32 1) (List.replicate 65 3) = be 48
    0xafb56dbbe66008a5b6f190b81cf4e63603e15bf24bc6a93a135b82f8b1bb72ac4d3a0a191a20b3fd77e5b9333677b7fc := by
  decide +kernel
example : Kind.setup.pcrIndex = 16 ∧ Kind.live.pcrIndex = 17 ∧ zeroPcr = List.replicate 48 0 := by decide +kernel

/-- `manifest_commitment_attestation_doc` (nitro/mod.rs:579-612). -/
def committed (kind : Kind) : AttestationDoc where
  moduleId := "test-module"
  digest := .sha384
  timestamp := 1
  pcrs := (List.range 32).map fun i => (i,
    if i = kind.pcrIndex then expectedPcr realPrims kind (List.replicate 32 1) (List.replicate 65 3) else List.replicate 48 0)
  certificate := []
  cabundle := []
  publicKey := some (List.replicate 65 3)
  userData := some (List.replicate 32 1)
  nonce := none

/-- The outcome of the check of the commitment. -/
def commits (d : AttestationDoc) (kind : Kind) : Option AttestError :=
  attestErr (verifyCommitment realPrims d kind (List.replicate 32 1))

/-- The register of the error. -/
def differs (e : Option AttestError) : Option Nat := match e with | some (.differentPcr i _ _) => some i | _ => none

#eval check (commits (committed .setup) .setup == none)
#eval check (commits (committed .live) .live == none)
#eval check (differs (commits (committed .setup) .live) == some 17)
#eval check (differs (commits (committed .live) .setup) == some 16)
#eval check (match attestErr (verifyManifest realPrims .setup (committed .setup) ⟨List.replicate 32 1, List.replicate 48 0,
    List.replicate 48 0, List.replicate 48 9, List.replicate 48 0⟩) with | some (.differentPcr2 _ _) => true | _ => false)
#eval check (differs (commits { committed .setup with publicKey := some (List.replicate 65 4) } .setup) == some 16)
#eval check (commits { committed .setup with pcrs := (committed .setup).pcrs.filter fun p => p.1 != 31 } .setup ==
  some (.missingPcr 31))

/-! ## nitro/mod.rs:1186-1310, a document of a real device against expectations -/

/-- The recorded document. -/
def recordedDoc : AttestationDoc where
  moduleId := docModule
  digest := .sha384
  timestamp := docTimestamp
  pcrs := docPcrs
  certificate := docCertificate
  cabundle := docCabundle
  publicKey := docPublicKey
  userData := some docUserData
  nonce := none

/-- The syntactic checks of `attestation_doc_from_der_works_with_valid_payload`. -/
example : attestErr (validateDoc recordedDoc) = none := by decide +kernel
example : attestErr (verifyUserInput recordedDoc mockUserData mockPcr0 mockPcr1 mockPcr2 mockPcr3) = none := by decide +kernel

/-- The tests with a wrong expectation, and with a nonce: which error. -/
def expectation (d : AttestationDoc) (i : Nat) : Option AttestError :=
  let v (j : Nat) (right : Bytes) : Bytes := if i = j then List.replicate 48 255 else right
  attestErr (verifyUserInput d (v 4 mockUserData) (v 0 mockPcr0) (v 1 mockPcr1) (v 2 mockPcr2) (v 3 mockPcr3))
#eval check (match expectation recordedDoc 4 with | some (.differentUserData _ _) => true | _ => false)
#eval check (match expectation recordedDoc 0 with | some (.differentPcr0 _ _) => true | _ => false)
#eval check (match expectation recordedDoc 1 with | some (.differentPcr1 _ _) => true | _ => false)
#eval check (match expectation recordedDoc 2 with | some (.differentPcr2 _ _) => true | _ => false)
#eval check (match expectation recordedDoc 3 with | some (.differentPcr3 _ _) => true | _ => false)
#eval check (expectation { recordedDoc with nonce := some [] } 9 == some .unexpectedAttestationDocNonce)

/-! ## nitro/syntactic_validation.rs:111-300 -/

/-- `valid_attestation_doc`. -/
def validDoc : AttestationDoc where
  moduleId := "1"
  digest := .sha384
  timestamp := 1
  pcrs := [(0, List.replicate 48 3), (5, List.replicate 64 3), (32, List.replicate 32 3)]
  certificate := []
  cabundle := [[42]]
  publicKey := some [1]
  userData := some (List.replicate 512 42)
  nonce := some (List.replicate 512 42)

example : attestErr (validateDoc validDoc) = none ∧ attestErr (validateDoc { validDoc with publicKey := none }) = none := by
  decide +kernel
example : attestErr (validateBytes512 none) = none ∧ attestErr (validateBytes512 (some [])) = none ∧
    (attestErr (validateBytes512 (some (List.replicate 513 42)))).isSome := by decide +kernel
example : attestErr (validateDoc { validDoc with publicKey := some [] }) = some .invalidPubKey ∧
    attestErr (validateDoc { validDoc with publicKey := some (List.replicate 1025 42) }) = some .invalidPubKey ∧
    attestErr (validateDoc { validDoc with timestamp := 0 }) = some .invalidTimeStamp ∧
    attestErr (validateDoc { validDoc with digest := .sha256 }) = some .invalidDigest ∧
    attestErr (validateDoc { validDoc with cabundle := [] }) = some .invalidCABundle ∧
    attestErr (validateDoc { validDoc with cabundle := [[]] }) = some .invalidCABundle ∧
    attestErr (validateDoc { validDoc with cabundle := [List.replicate 1025 3] }) = some .invalidCABundle ∧
    attestErr (validateDoc { validDoc with pcrs := (List.range 33).map fun i => (i, List.replicate 32 3) }) =
      some .invalidPcr ∧
    attestErr (validateDoc { validDoc with pcrs := [] }) = some .invalidPcr ∧
    attestErr (validateDoc { validDoc with pcrs := [(33, List.replicate 32 3)] }) = some .invalidPcr ∧
    attestErr (validateDoc { validDoc with pcrs := [(5, List.replicate 31 3)] }) = some .invalidPcr ∧
    attestErr (validateDoc { validDoc with moduleId := "" }) = some .invalidModuleId := by decide +kernel

/-! ## mock.rs:343-560 -/

/-- Certificates and signing of the mock device are outside the model. -/
def anyPki : MockNsm.Pki := ⟨[1], [2], [3], fun _ => []⟩

/-- The answers of a new mock device. -/
def mockAnswers (reqs : List NsmRequest) : Option (List NsmResponse) :=
  (MockNsm.run realPrims anyPki MockNsm.initial reqs).map (·.2)

/-- `mock_nsm_tracks_pcr_state`: a register is zero, changes when extended, keeps its value when locked, and is then refused. -/
def tracksState : Bool :=
  match mockAnswers [.describePCR 5, .extendPCR 5 (ascii "mock-state-check"), .lockPCR 5, .describePCR 5,
      .extendPCR 5 (ascii "after-lock")] with
  | some [.describePCR false zero, .extendPCR extended, .lockPCR, .describePCR true kept, .error .readOnlyIndex] =>
    zero == List.replicate 48 0 && extended != zero && kept == extended
  | _ => false
#eval check tracksState

/-- The document of a device after these requests, with a seeded register 0. -/
def mockDocument (pcr0 : Option Bytes) (reqs : List NsmRequest) : Option AttestationDoc :=
  let start : Option MockNsm.State := match pcr0 with
    | some v => MockNsm.withPcr MockNsm.initial 0 v
    | none => some MockNsm.initial
  (start.bind fun s => MockNsm.run realPrims anyPki s reqs).map fun (r : MockNsm.State × List NsmResponse) =>
    MockNsm.attestationDoc anyPki r.1 (some [1, 2, 3]) (some [4, 5, 6]) (some (List.replicate 65 7))

#eval check (match mockDocument none [] with
  | some d => d.userData == some [1, 2, 3] && d.nonce == some [4, 5, 6] && d.publicKey == some (List.replicate 65 7) &&
      d.moduleId == "mock_module_id" && (List.range 32).all fun i => (d.pcr i).isSome
  | none => false)
#eval check (match mockDocument (some (List.replicate 48 42)) [.extendPCR 16 (ascii "commitment")] with
  | some d => d.pcr 0 == some (List.replicate 48 42) &&
      d.pcr 16 == pcrExtend realPrims (List.replicate 48 0) (ascii "commitment")
  | none => false)

end Qos.Conformance
