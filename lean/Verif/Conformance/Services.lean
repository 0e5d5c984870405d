import Verif.Conformance.Real
import Verif.Spec.Device
import Verif.Model.Services
/-!
# Replay of the tests of the enclave's services

The tests of provisioning and of key forwarding (qos_core/src/protocol/services/{provision,key}.rs), run on the model with
the standard cryptographic functions and the model of the mock device: each gives the result, the error and the files that
the test asserts. Evaluated by Lean's interpreter; the build stops if one differs. Checks of the model against the program's
own tests, not properties.
-/
namespace Qos.Conformance
open P256 (Pair Public)
open Services

instance : Inhabited Pair := ⟨⟨[], [], [], []⟩⟩

/-- The key pair of a seed. -/
def testPair (n : UInt8) : Pair :=
  match Pair.fromMasterSeed realPrims (List.replicate 32 n) with
  | .ok p => p
  | .error _ => ⟨[], [], [], []⟩

/-- Its public key. -/
def testPub (n : UInt8) : Bytes := ((testPair n).publicKey realPrims).toBytes

/-- The quorum key and the ephemeral keys of the tests. -/
def quorumSeedByte : UInt8 := 11
/-- The ephemeral key. -/
def ephSeedByte : UInt8 := 12
/-- The pending live key. -/
def liveSeedByte : UInt8 := 13

/-- A document of the mock device stands for its signed form. -/
def docBytes (d : AttestationDoc) : Bytes :=
  (d.userData.getD []) ++ (d.publicKey.getD []) ++ (d.pcrs.flatMap fun p => p.2)

/-- The certificates of the mock device; the signed form is `docBytes`. -/
def testNsmPki : MockNsm.Pki := ⟨[1], [2], [3], docBytes⟩

/-- The surroundings of the tests; `device` is the state of the mock device, `known` a document it has signed. -/
def testEnv (device : MockNsm.State) (known : Option AttestationDoc) (trusted : Bool) : Qos.Env where
  prims := realPrims
  paths := ⟨"eph", "quorum", "manifest", "pivot"⟩
  nsm := mockDevice realPrims testNsmPki device
  timestamp _ _ := .ok 1657117102484
  rootCa := []
  pki := ⟨fun b => match known with
      | some d => if b = docBytes d then .ok d else .error .invalidCOSESign1Structure
      | none => .error .invalidCOSESign1Structure,
    fun _ _ _ _ => if trusted then .ok () else .error .webPki, fun _ _ => .ok ()⟩
  seedAt n := List.replicate 32 (UInt8.ofNat (n + 40))
  randAt n := ⟨List.replicate 32 (UInt8.ofNat (n + 60)), List.replicate 12 (UInt8.ofNat n)⟩
  coeffsAt _ i j := UInt8.ofNat (7 * i + 3 * j + 1)
  io _ := .ok
  createMode := 0o644
  version := "1"
  commit := "c"

/-- The mock device of `MockNsm::new()`. -/
def plainEnv : Qos.Env := testEnv MockNsm.initial none true

/-- The bytes of a file. -/
def fileOf (s : St) (path : String) : Option Bytes := (s.files path).map (·.data)

/-- An encryption to the ephemeral key. -/
def sealFor (n : UInt8) (r : UInt8) (msg : Bytes) : Bytes :=
  match ((testPair n).publicKey realPrims).encrypt realPrims ⟨List.replicate 32 r, List.replicate 12 r⟩ msg with
  | .ok b => b
  | .error _ => []

/-! ## provision.rs:142-560 -/

/-- The manifest of `setup` (provision.rs:182-265). -/
def provisionManifest : Manifest where
  «namespace» := ⟨"vape-space", 420, testPub quorumSeedByte⟩
  pivot := ⟨sha256 (ascii "this is a pivot binary"), .always, [], false, []⟩
  manifestSet := ⟨3, []⟩
  shareSet := ⟨3, [⟨"0", testPub 21⟩, ⟨"1", testPub 22⟩, ⟨"2", testPub 23⟩, ⟨"3", testPub 24⟩]⟩
  enclave := ⟨List.replicate 32 4, List.replicate 32 3, List.replicate 32 2, List.replicate 32 1, ascii "cert lord", "mock qos commit"⟩
  patchSet := ⟨0, []⟩

/-- Its hash. -/
def provisionHash : Bytes := (VersionedManifest.v1 provisionManifest).hash realPrims

/-- The approval of the i-th member. -/
def provisionApproval (i : Nat) : Approval :=
  ⟨(testPair (UInt8.ofNat (21 + i))).sign realPrims provisionHash, ⟨toString i, testPub (UInt8.ofNat (21 + i))⟩⟩

/-- The state of `setup`. -/
def provisionState : St :=
  { St.initial fun p =>
      if p = "eph" then some ⟨Hex.encode (testPair ephSeedByte).seed, 0o400⟩
      else if p = "manifest" then some ⟨Json.writeBytes (JCodec.envelopeV1.enc ⟨provisionManifest, [], []⟩), 0o400⟩
      else none with
    phase := .waitingForQuorumShards, pending := some (testPair liveSeedByte) }

/-- Shares of a key, sealed to the ephemeral key. -/
def sealedShares (seed : Bytes) : List Bytes :=
  match Shamir.sharesGenerate seed 4 3 (fun i j => UInt8.ofNat (7 * i + 3 * j + 1)) with
  | .ok shares => shares.mapIdx fun i s => sealFor ephSeedByte (UInt8.ofNat (70 + i)) s
  | .error _ => []

/-- A call of `provision`. -/
def provide (share : Bytes) (a : Approval) (s : St) : Except ProtocolError Bool × St := provision plainEnv share a s

/-- Two calls that are accepted and do not complete the key: no quorum key is written, the phase stays. -/
def afterTwo (shares : List Bytes) : Option St :=
  match provide (shares.getD 0 []) (provisionApproval 0) provisionState with
  | (.ok false, s1) =>
    match provide (shares.getD 1 []) (provisionApproval 1) s1 with
    | (.ok false, s2) =>
      if fileOf s1 "quorum" = none ∧ fileOf s2 "quorum" = none ∧ s2.phase = .waitingForQuorumShards then some s2 else none
    | _ => none
  | _ => none

/-- Number of recorded share approvals. -/
def recorded (s : St) : Option Nat :=
  match (Handles.getManifestEnvelope plainEnv s).1 with
  | .ok e => some e.shareSetApprovals.length
  | .error _ => none

/-- `provision_works`. -/
def provisionWorks : Bool :=
  let shares := sealedShares (testPair quorumSeedByte).seed
  match afterTwo shares with
  | none => false
  | some s2 =>
    match provide (shares.getD 3 []) (provisionApproval 3) s2 with
    | (.ok true, s3) => fileOf s3 "quorum" == some (Hex.encode (testPair quorumSeedByte).seed) &&
        fileOf s3 "eph" == some (Hex.encode (testPair liveSeedByte).seed) && recorded s3 == some 3
    | _ => false
#eval check provisionWorks

/-- The third call fails with this error and writes no quorum key. -/
def thirdFails (first : List Bytes) (third : Bytes) (e : ProtocolError) : Bool :=
  match afterTwo first with
  | none => false
  | some s2 =>
    match provide third (provisionApproval 3) s2 with
    | (.error e', s3) => e' == e && fileOf s3 "quorum" == none && s3.phase == .waitingForQuorumShards
    | _ => false

/-! `provision_rejects_the_wrong_key`. -/
#eval check (thirdFails (sealedShares (testPair 99).seed) ((sealedShares (testPair 99).seed).getD 3 [])
  .reconstructionErrorIncorrectPubKey)
/-! `provision_rejects_if_a_shard_is_invalid`. -/
#eval check (thirdFails (sealedShares (testPair quorumSeedByte).seed) (sealFor ephSeedByte 88 (List.replicate 33 69))
  .reconstructionErrorIncorrectPubKey)

/-- A first call fails with this error. -/
def firstFails (a : Approval) (e : ProtocolError) : Bool :=
  match provide ((sealedShares (testPair quorumSeedByte).seed).getD 0 []) a provisionState with
  | (.error e', s) => e' == e && fileOf s "quorum" == none && s.phase == .waitingForQuorumShards
  | _ => false

/-! `provisions_rejects_if_an_approval_is_invalid`. -/
#eval check (firstFails { provisionApproval 0 with signature := ascii "ffffffffffffffffffffffffffffffffffffffffffffff" }
  .couldNotVerifyApproval)
/-! `provision_rejects_if_approval_is_not_from_share_set_member`. -/
#eval check (firstFails ⟨(testPair 98).sign realPrims provisionHash, ⟨"0", testPub 98⟩⟩ .notShareSetMember)
/-! `provision_rejects_with_signature_error_if_approval_is_not_from_share_set_member_and_bad_signature`. -/
#eval check (firstFails ⟨(provisionApproval 0).signature, ⟨"0", testPub 98⟩⟩ .couldNotVerifyApproval)

/-! ## key.rs:285-1630 -/

/-- The manifest of `get_test_args` (key.rs:345-376). -/
def keyManifest : Manifest where
  «namespace» := ⟨"mock namespace", 420, testPub quorumSeedByte⟩
  pivot := ⟨sha256 (ascii "this is a pivot binary"), .always, [], false, []⟩
  manifestSet := ⟨2, [⟨"member1", testPub 31⟩, ⟨"member2", testPub 32⟩, ⟨"member3", testPub 33⟩]⟩
  shareSet := ⟨2, []⟩
  enclave := ⟨List.replicate 32 4, List.replicate 32 3, List.replicate 32 2, List.replicate 32 1, ascii "mock cert", "mock qos commit"⟩
  patchSet := ⟨0, []⟩

/-- `qos_hash` of a manifest. -/
def hashV1 (m : Manifest) : Bytes := (VersionedManifest.v1 m).hash realPrims

/-- The manifest with the approvals of the first two members. -/
def approved (m : Manifest) : EnvelopeOf Manifest :=
  ⟨m, [⟨(testPair 31).sign realPrims (hashV1 m), ⟨"member1", testPub 31⟩⟩,
       ⟨(testPair 32).sign realPrims (hashV1 m), ⟨"member2", testPub 32⟩⟩], []⟩

/-- The envelope of `get_test_args`. -/
def keyEnvelope : EnvelopeOf Manifest := approved keyManifest

/-- The document of `get_test_args` (key.rs:390-437). -/
def keyDoc : AttestationDoc where
  moduleId := ""
  digest := .sha384
  timestamp := 0
  pcrs := (List.range 32).map fun i => (i,
    if i = 0 then List.replicate 32 4 else if i = 1 then List.replicate 32 3 else if i = 2 then List.replicate 32 2
    else if i = 3 then List.replicate 32 1
    else if i = 16 then Attest.expectedPcr realPrims .setup (hashV1 keyManifest) (testPub ephSeedByte)
    else List.replicate 48 0)
  certificate := []
  cabundle := []
  publicKey := some (testPub ephSeedByte)
  userData := some (hashV1 keyManifest)
  nonce := none

/-- The approval of a key that is not in the set, for a manifest. -/
def strangerApproval (m : Manifest) : Approval := ⟨(testPair 97).sign realPrims (hashV1 m), ⟨"member1", testPub 97⟩⟩

/-- No files. -/
def emptyState : St := St.initial fun _ => none

/-- A key forward boot fails with an error that `p` recognises; nothing is written, the phase stays. -/
def bootFails (e : EnvelopeOf Manifest) (pivot : Bytes) (p : ProtocolError → Bool) : Bool :=
  match putManifestAndPivot plainEnv (.v1 e) pivot emptyState with
  | (.error err, s) => p err && fileOf s "pivot" == none && fileOf s "manifest" == none &&
      s.phase == .waitingForBootInstruction
  | _ => false

/-- The pivot of the tests. -/
def keyPivot : Bytes := ascii "this is a pivot binary"

/-- `accepts_approved_manifest`. -/
def bootWorks : Bool :=
  match putManifestAndPivot plainEnv (.v1 keyEnvelope) keyPivot emptyState with
  | (.ok (.attestation d), s) => d != [] && fileOf s "pivot" == some keyPivot &&
      (match (Handles.getManifestEnvelope plainEnv s).1 with
        | .ok e => e == .v1 keyEnvelope
        | .error _ => false) &&
      (Handles.getEphemeralKey plainEnv s).1.toOption.isSome
  | _ => false
#eval check bootWorks
/-! `rejects_manifest_if_not_enough_approvals`. -/
#eval check (bootFails { keyEnvelope with manifestSetApprovals := keyEnvelope.manifestSetApprovals.take 1 } keyPivot
  (· == .notEnoughApprovals))
/-! `rejects_manifest_if_wrong_pivot_hash`. -/
#eval check (bootFails keyEnvelope (ascii "other pivot") fun e => match e with
  | .invalidPivotHash _ _ => true
  | _ => false)

/-- The first approval with a signature of 32 ones. -/
def badSignature : EnvelopeOf Manifest :=
  { keyEnvelope with manifestSetApprovals := keyEnvelope.manifestSetApprovals.mapIdx fun i a =>
      if i = 0 then { a with signature := List.replicate 32 1 } else a }
/-! `rejects_manifest_with_bad_approval_signature`. -/
#eval check (bootFails badSignature keyPivot
  (· == .invalidManifestApproval ⟨List.replicate 32 1, ⟨"member1", testPub 31⟩⟩))

/-- A third approval by a key that is not in the set. -/
def withStranger : EnvelopeOf Manifest :=
  { keyEnvelope with manifestSetApprovals := keyEnvelope.manifestSetApprovals ++ [strangerApproval keyManifest] }
/-! `rejects_manifest_with_approval_from_non_member`. -/
#eval check (bootFails withStranger keyPivot (· == .notManifestSetMember))

/-- The outcome of `validate_manifest` of a new and an old envelope. -/
def validates (new old : EnvelopeOf Manifest) (d : AttestationDoc) : Except ProtocolError Unit :=
  validateManifest plainEnv (.v1 new) (.v1 old) d

/-- An old envelope with another manifest and the same approvals. -/
def oldWith (f : Manifest → Manifest) : EnvelopeOf Manifest := { keyEnvelope with manifest := f keyEnvelope.manifest }

/-- The outcome with this old manifest. -/
def againstOld (f : Manifest → Manifest) : Except ProtocolError Unit := validates keyEnvelope (oldWith f) keyDoc

/-- Another nonce. -/
def withNonce (n : UInt32) (m : Manifest) : Manifest := { m with «namespace» := { m.namespace with nonce := n } }

/-- It is accepted. -/
def accepts (r : Except ProtocolError Unit) : Bool := r.toOption.isSome

/-- It is refused with an error that `p` recognises. -/
def refuses (r : Except ProtocolError Unit) (p : ProtocolError → Bool) : Bool :=
  match r with
  | .error e => p e
  | .ok _ => false

/-! The tests of `validate_manifest`, in order. -/
#eval check (accepts (againstOld id))
#eval check (accepts (againstOld (withNonce 419)))
#eval check (refuses (againstOld (withNonce 421)) fun e => match e with | .lowNonce _ _ => true | _ => false)
#eval check (refuses (againstOld fun m => { m with enclave := { m.enclave with pcr0 := List.replicate 32 128 } }) fun e =>
  match e with | .differentManifest _ _ => true | _ => false)
#eval check (refuses (againstOld fun m => { m with «namespace» := { m.namespace with quorumKey := testPub 96 } }) fun e =>
  match e with | .differentQuorumKey _ _ => true | _ => false)
#eval check (refuses (againstOld fun m =>
    withNonce 419 { m with manifestSet := ⟨2, m.manifestSet.members.take 2⟩ }) fun e =>
  match e with | .differentManifestSet _ _ => true | _ => false)
#eval check (refuses (againstOld fun m => { m with manifestSet := ⟨1, m.manifestSet.members⟩ }) fun e =>
  match e with | .differentManifestSet _ _ => true | _ => false)
#eval check (accepts (againstOld fun m =>
  withNonce 419 { m with manifestSet := ⟨2, m.manifestSet.members.drop 2 ++ m.manifestSet.members.take 2⟩ }))
#eval check (refuses (againstOld fun m => { m with «namespace» := { m.namespace with name := "other namespace" } }) fun e =>
  match e with | .differentNamespaceName _ _ => true | _ => false)
#eval check (refuses (againstOld fun m => withNonce 419 { m with enclave := { m.enclave with pcr3 := List.replicate 32 128 } })
  fun e => match e with | .differentPcr3 _ _ => true | _ => false)
#eval check (refuses (validates { keyEnvelope with manifestSetApprovals := keyEnvelope.manifestSetApprovals.take 1 }
  keyEnvelope keyDoc) (· == .notEnoughApprovals))
#eval check (refuses (validates badSignature keyEnvelope keyDoc)
  (· == .invalidManifestApproval ⟨List.replicate 32 1, ⟨"member1", testPub 31⟩⟩))
#eval check (refuses (validates withStranger keyEnvelope keyDoc) (· == .notManifestSetMember))

/-- A new manifest, with approvals, and the document for its hash. -/
def againstDoc (f : NitroConfig → NitroConfig) (updateDoc : Bool) : Except ProtocolError Unit :=
  let m := withNonce 421 { keyManifest with enclave := f keyManifest.enclave }
  validates (approved m) keyEnvelope (if updateDoc then { keyDoc with userData := some (hashV1 m) } else keyDoc)

/-- The outcome of the comparison with the document itself (the text of the error is not modelled). -/
def docError (f : NitroConfig → NitroConfig) (updateDoc : Bool) : Option AttestError :=
  let m := withNonce 421 { keyManifest with enclave := f keyManifest.enclave }
  match Attest.verifyManifest realPrims .setup
      (if updateDoc then { keyDoc with userData := some (hashV1 m) } else keyDoc) (attestInput realPrims (.v1 m)) with
  | .error e => some e
  | .ok _ => none

/-- An attestation error. -/
def isAttest (e : ProtocolError) : Bool := match e with | .qosAttestError _ => true | _ => false

/-! The tests of `validate_manifest_attestation_tests`: the error is from the attestation document. -/
#eval check (refuses (againstDoc (fun n => { n with pcr0 := List.replicate 32 128 }) true) isAttest)
#eval check (refuses (againstDoc (fun n => { n with pcr1 := List.replicate 32 128 }) true) isAttest)
#eval check (refuses (againstDoc (fun n => { n with pcr2 := List.replicate 32 128 }) true) isAttest)
#eval check (refuses (againstDoc (fun n => { n with pcr3 := List.replicate 32 128 }) true) isAttest)
#eval check (refuses (againstDoc id false) isAttest)

/-! And it is the one of the text that the test expects. -/
/-- 32 times this text. -/
def times32 (t : String) : String := String.join (List.replicate 32 t)
#eval check (docError (fun n => { n with pcr0 := List.replicate 32 128 }) true ==
  some (.differentPcr0 (times32 "80") (times32 "04")))
#eval check (docError (fun n => { n with pcr1 := List.replicate 32 128 }) true ==
  some (.differentPcr1 (times32 "80") (times32 "03")))
#eval check (docError (fun n => { n with pcr2 := List.replicate 32 128 }) true ==
  some (.differentPcr2 (times32 "80") (times32 "02")))
#eval check (docError (fun n => { n with pcr3 := List.replicate 32 128 }) true ==
  some (.differentPcr3 (times32 "80") (times32 "01")))
#eval check (match docError id false with | some (.differentUserData _ _) => true | _ => false)

/-! ### Export -/

/-- The files of an enclave that has a manifest, a quorum key and an ephemeral key. -/
def exportState : St :=
  St.initial fun p =>
    if p = "eph" then some ⟨Hex.encode (testPair 95).seed, 0o400⟩
    else if p = "quorum" then some ⟨Hex.encode (testPair quorumSeedByte).seed, 0o400⟩
    else if p = "manifest" then some ⟨Json.writeBytes (JCodec.envelopeV1.enc keyEnvelope), 0o400⟩
    else none

/-- `new_enclave_mock_nsm` (key.rs:1119-1142), with this PCR0. -/
def exportDevice (pcr0 : Bytes) : Option MockNsm.State :=
  (MockNsm.withPcr MockNsm.initial 0 pcr0).bind fun s =>
  (MockNsm.withPcr s 1 keyManifest.enclave.pcr1).bind fun s =>
  (MockNsm.withPcr s 2 keyManifest.enclave.pcr2).bind fun s =>
  (MockNsm.withPcr s 3 keyManifest.enclave.pcr3).bind fun s =>
  MockNsm.withPcr s 16 (Attest.expectedPcr realPrims .setup (hashV1 keyManifest) (testPub ephSeedByte))

/-- An export, of a document of that device. -/
def exports (pcr0 : Bytes) (trusted : Bool) : Option (Except ProtocolError (Bytes × Bytes)) :=
  (exportDevice pcr0).map fun s =>
    let d := MockNsm.attestationDoc testNsmPki s (some (hashV1 keyManifest)) none (some (testPub ephSeedByte))
    (exportKey (testEnv s (some d) trusted) (.v1 keyEnvelope) (docBytes d) exportState).1

/-- The exported key is signed by the quorum key and opens to its seed with the attested key. -/
def goodExport (r : Except ProtocolError (Bytes × Bytes)) : Bool :=
  match r with
  | .ok (enc, sig) =>
    (((testPair quorumSeedByte).publicKey realPrims).verify realPrims enc sig).toOption.isSome &&
    ((testPair ephSeedByte).decrypt realPrims enc).toOption == some (testPair quorumSeedByte).seed
  | .error _ => false

/-! `export_key_works_with_fully_verified_attestation_doc`, `export_key_rejects_doc_not_signed_by_the_trusted_root`,
`export_key_rejects_doc_with_wrong_pcrs`, `works`. -/
#eval check (((exports (List.replicate 32 4) true).map goodExport) == some true)
#eval check (match exports (List.replicate 32 4) false with | some (.error e) => isAttest e | _ => false)
#eval check (match exports (List.replicate 32 128) true with | some (.error e) => isAttest e | _ => false)
#eval check (goodExport (exportKeyInternal plainEnv (.v1 keyEnvelope) keyDoc exportState).1)

/-! ### Injection -/

/-- The files of an enclave that waits for the key. -/
def injectState : St :=
  { St.initial fun p =>
      if p = "eph" then some ⟨Hex.encode (testPair ephSeedByte).seed, 0o400⟩
      else if p = "manifest" then some ⟨Json.writeBytes (JCodec.envelopeV1.enc keyEnvelope), 0o400⟩
      else none with
    pending := some (testPair liveSeedByte) }

/-- An injection of these bytes, signed by this key. -/
def injects (signer : UInt8) (msg : Bytes) (s : St) : Except ProtocolError Unit × St :=
  injectKey plainEnv (sealFor ephSeedByte 71 msg) ((testPair signer).sign realPrims (sealFor ephSeedByte 71 msg)) s

/-- `works`. -/
def injectWorks : Bool :=
  match injects quorumSeedByte (testPair quorumSeedByte).seed { injectState with phase := .waitingForForwardedKey } with
  | (.ok (), s) => (fileOf s "quorum").isSome && fileOf s "eph" == some (Hex.encode (testPair liveSeedByte).seed)
  | _ => false
#eval check injectWorks

/-- It fails with this error, writes no quorum key and leaves the phase. -/
def injectFails (signer : UInt8) (msg : Bytes) (e : ProtocolError) : Bool :=
  match injects signer msg { injectState with pending := none } with
  | (.error e', s) => e' == e && fileOf s "quorum" == none && s.phase == .waitingForBootInstruction
  | _ => false

/-! `rejects_wrong_encrypted_key`, `rejects_bad_signature`, `rejects_invalid_quorum_key`. -/
#eval check (injectFails quorumSeedByte (testPair 94).seed .wrongQuorumKey)
#eval check (injectFails 94 (testPair quorumSeedByte).seed .invalidEncryptedQuorumKeySignature)
#eval check (injectFails quorumSeedByte ((testPair quorumSeedByte).seed.drop 1) .encryptedQuorumKeyInvalidLen)

end Qos.Conformance
