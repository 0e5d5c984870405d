import Verif.Conformance.Services
import Verif.Model.Wire
/-!
# Replay of the tests of boot, genesis and the message format

The tests of qos_core/src/protocol/services/{boot,genesis}.rs, protocol/msg.rs and protocol/processor.rs, run on the model.
Evaluated by Lean's interpreter; the build stops if one differs. Checks of the model against the program's own tests, not
properties. The stable encodings of boot.rs are in `Encodings.lean`.
-/
namespace Qos.Conformance
open P256 (Pair Public)
open Services

/-! ## boot.rs:1063-1478 -/

/-- The members of `get_manifest` (boot.rs:835-909). -/
def bootMember (i : Nat) : QuorumMember := ⟨s!"member{i}", testPub (UInt8.ofNat (30 + i))⟩

/-- Its pivot. -/
def bootPivot : Bytes := ascii "this is a pivot binary"

/-- Its manifest. -/
def bootManifest : Manifest where
  «namespace» := ⟨"vape lord", 420, testPub quorumSeedByte⟩
  pivot := ⟨sha256 bootPivot, .always, [], false, []⟩
  manifestSet := ⟨2, [bootMember 1, bootMember 2, bootMember 3]⟩
  shareSet := ⟨2, []⟩
  enclave := ⟨List.replicate 32 4, List.replicate 32 3, List.replicate 32 2, List.replicate 32 1, ascii "cert lord", "mock qos commit"⟩
  patchSet := ⟨0, []⟩

/-- The approval of a manifest by a key, in the name of this member. -/
def approvalBy (m : Manifest) (n : UInt8) (member : QuorumMember) : Approval :=
  ⟨(testPair n).sign realPrims ((VersionedManifest.v1 m).hash realPrims), member⟩

/-- The approvals of all three members. -/
def bootApprovals : List Approval :=
  [1, 2, 3].map fun i => approvalBy bootManifest (UInt8.ofNat (30 + i)) (bootMember i)

/-- A boot with these approvals, no file being there. -/
def boots (set shares : List Approval) : Except ProtocolError NsmResponse × St :=
  putManifestAndPivot plainEnv (.v1 ⟨bootManifest, set, shares⟩) bootPivot (St.initial fun _ => none)

/-- `boot_standard_accepts_approved_manifest`. -/
def bootAccepts : Bool :=
  match boots bootApprovals [] with
  | (.ok _, s) => fileOf s "pivot" == some bootPivot && (fileOf s "eph").isSome &&
      (Handles.getManifestEnvelope plainEnv s).1.toOption == some (.v1 ⟨bootManifest, bootApprovals, []⟩)
  | _ => false
#eval check bootAccepts

/-- A refused boot leaves no file. -/
def bootRefuses (set shares : List Approval) : Option ProtocolError :=
  match boots set shares with
  | (.error e, s) => if ["pivot", "eph", "manifest", "quorum"].all fun p => (s.files p).isNone then some e else none
  | _ => none

/-! `boot_standard_rejects_manifest_if_not_enough_approvals`, `boot_standard_rejects_unapproved_manifest`,
`boot_standard_rejects_manifest_envelope_with_share_set_approvals`,
`boot_standard_rejects_approval_from_non_manifest_set_member`. -/
#eval check (bootRefuses (bootApprovals.take 1) []).isSome
#eval check (bootRefuses ([1, 2, 3].map fun i => ⟨[0, 0], bootMember i⟩) []).isSome
#eval check (bootRefuses bootApprovals (bootApprovals.take 1) == some .badShareSetApprovals)
#eval check (bootRefuses (approvalBy bootManifest 90 ⟨"member1", testPub 90⟩ :: bootApprovals.drop 1) [] ==
  some .notManifestSetMember)

/-- The pivot and the manifest are not there when the device is asked to lock its registers, and are there at the end:
`boot_standard_locks_pcrs_before_publishing_pivot_start_files`. -/
def lockComesFirst : Bool :=
  match boots bootApprovals [] with
  | (.ok _, s) =>
    let marks : List Nat := s.trace.map fun e => match e with
      | .nsm (.lockPCRs _) _ => 1
      | .files fs => if (fs "pivot").isSome || (fs "manifest").isSome then 2 else 0
      | _ => 0
    marks.filter (· != 0) == 1 :: List.replicate ((marks.filter (· == 2)).length) 2 && marks.contains 2
  | _ => false
#eval check lockComesFirst

/-- `check_approvals_rejects_duplicates`. -/
def duplicateError : Option ProtocolError :=
  let a := bootApprovals.take 1
  match (Envelope.v1 ⟨bootManifest, a ++ a, []⟩).checkApprovals realPrims with
  | .error e => some e
  | .ok _ => none
#eval check (duplicateError == some .duplicateApproval)

/-- `mixed_public_key` (boot.rs:887-901). -/
def mixedKey (enc sign : UInt8) : Bytes := (testPub enc).take 65 ++ (testPub sign).drop 65

/-- The error of a set of members. -/
def membersError (ms : List QuorumMember) : Option ProtocolError :=
  match ensureUniqueMembers realPrims ms with
  | .error e => some e
  | .ok _ => none

/-! `ensure_unique_members_rejects_shared_components`. -/
#eval check ((testPub 51).length == 130)
#eval check (membersError [⟨"a", testPub 51⟩, ⟨"b", testPub 52⟩] == none)
#eval check (membersError [⟨"a", testPub 51⟩, ⟨"a", testPub 52⟩] == some .duplicateQuorumMember)
#eval check (membersError [⟨"a", testPub 51⟩, ⟨"b", testPub 51⟩] == some .duplicateQuorumMember)
#eval check (membersError [⟨"a", mixedKey 52 51⟩, ⟨"b", mixedKey 53 51⟩] == some .duplicateQuorumMember)
#eval check (membersError [⟨"a", mixedKey 51 52⟩, ⟨"b", mixedKey 51 53⟩] == some .duplicateQuorumMember)

/-- `check_approvals_rejects_same_key_under_different_aliases`. -/
def sameKeyError : Option ProtocolError :=
  let a : QuorumMember := ⟨"alias-a", testPub 31⟩
  let b : QuorumMember := ⟨"alias-b", testPub 31⟩
  let m := { bootManifest with manifestSet := ⟨2, [a, b]⟩ }
  match (Envelope.v1 ⟨m, [approvalBy m 31 a, approvalBy m 31 b], []⟩).checkApprovals realPrims with
  | .error e => some e
  | .ok _ => none
#eval check (sameKeyError == some .duplicateQuorumMember)

/-! ## genesis.rs:252-405 -/

/-- The members of the ceremony. -/
def genesisTestSet : GenesisSet := ⟨[⟨"member1", testPub 61⟩, ⟨"member2", testPub 62⟩, ⟨"member3", testPub 63⟩], 2⟩

/-- The ceremony. -/
def genesisRun (set : GenesisSet) (dr : Option Bytes) : Except ProtocolError (GenesisOutput × NsmResponse) × St :=
  bootGenesis plainEnv set dr (St.initial fun _ => none)

/-- What the test checks about the two shares `i` and `j` of the output. -/
def sharesRebuild (o : GenesisOutput) (i j : Nat) : Bool :=
  let opened (k : Nat) : Option Bytes := match o.memberOutputs[k]? with
    | some m => match (testPair (UInt8.ofNat (61 + k))).decrypt realPrims m.encryptedShare with
      | .ok b => if realPrims.sha512 b = m.shareHash then some b else none
      | .error _ => none
    | none => none
  match opened i, opened j with
  | some a, some b => match Shamir.sharesReconstruct [a, b] with
    | .ok seed => match Pair.fromMasterSeed realPrims seed with
      | .ok k => (k.publicKey realPrims).toBytes == o.quorumKey &&
          (k.decrypt realPrims o.testMessageCiphertext).toOption == some (ascii "qos-test-message") &&
          ((k.publicKey realPrims).verify realPrims (ascii "qos-test-message") o.testMessageSignature).toOption.isSome &&
          o.quorumKeyHash == realPrims.sha512 (Hex.encode seed)
      | .error _ => false
    | .error _ => false
  | _, _ => false

/-- `boot_genesis_works`. -/
def genesisWorks : Bool :=
  match genesisRun genesisTestSet none with
  | (.ok (o, _), s) => sharesRebuild o 0 1 && sharesRebuild o 2 0 &&
      ["pivot", "manifest", "quorum"].all fun p => (s.files p).isNone
  | _ => false
#eval check genesisWorks

/-- `boot_genesis_rejects_duplicate_members`. -/
def genesisDuplicate : Option ProtocolError :=
  match genesisRun ⟨[⟨"alias-a", testPub 61⟩, ⟨"alias-b", testPub 61⟩], 2⟩ none with
  | (.error e, _) => some e
  | _ => none
#eval check (genesisDuplicate == some .duplicateQuorumMember)

/-- `qos_hash` of an output. -/
def outputHash (o : GenesisOutput) : Bytes := sha256 (genesisOutputCodec.enc o)

/-- `boot_genesis_output_echoes_the_exact_request`. -/
def genesisEchoes : Bool :=
  match genesisRun genesisTestSet (some (testPub 64)), genesisRun genesisTestSet none with
  | (.ok (o, _), _), (.ok (o', _), _) =>
    o.set == genesisTestSet && o.drKey == some (testPub 64) &&
    outputHash { o with set := { o.set with threshold := 1 } } != outputHash o &&
    outputHash { o with drKey := none } != outputHash o &&
    o'.set == genesisTestSet && o'.drKey == none
  | _, _ => false
#eval check genesisEchoes

/-! ## msg.rs:470-712, processor.rs:60-140 -/

/-- `sample_genesis_output` (msg.rs:470-483). -/
def sampleOutput : GenesisOutput where
  set := ⟨[], 2⟩
  drKey := none
  quorumKey := [3, 2, 1]
  memberOutputs := []
  recoveryPermutations := []
  drKeyWrappedQuorumKey := none
  quorumKeyHash := List.replicate 64 22
  testMessageCiphertext := []
  testMessageSignature := []
  testMessage := []

/-- The JSON wire form is read back: same encoding, and the same message (compared by its two encodings). -/
def jsonRoundTrip (m : Msg) : Bool :=
  match Wire.toJson m with
  | none => false
  | some b => match Wire.fromWire b with
    | .ok (m', .json) => Wire.toJson m' == some b && Borsh.msg.enc m' == Borsh.msg.enc m
    | _ => false

/-- The Borsh bytes are refused with this error. -/
def borshRefused (m : Msg) : Option ProtocolError :=
  match Wire.fromWire (Borsh.msg.enc m) with
  | .error e => some e
  | .ok _ => none

/-- The Borsh bytes are read back. -/
def borshRoundTrip (m : Msg) : Bool :=
  match Wire.fromWire (Borsh.msg.enc m) with
  | .ok (m', .borsh) => Borsh.msg.enc m' == Borsh.msg.enc m
  | _ => false

/-! `genesis_messages_are_json_wire_only`. -/
#eval check ([Msg.bootGenesisRequest ⟨[], 2⟩ none, .bootGenesisResponse .lockPCR sampleOutput].all fun m =>
  borshRefused m == some .legacyGenesisNotSupported && jsonRoundTrip m)
/-! `version_response_round_trip`, `version_request_round_trip`, `json_wire_round_trips_numeric_protocol_payloads`. -/
#eval check (borshRoundTrip (.versionResponse "0.5.0" "abc1234") && borshRoundTrip .versionRequest)
#eval check (jsonRoundTrip (.bootGenesisResponse (.describeNSM 1 2 3 "module" 32 [0, 1, 2] .sha384) sampleOutput))

/-- The V2 envelope of the tests. -/
def wireV2 : Envelope :=
  .v2 ⟨⟨.v2, ⟨"test", 1, List.replicate 33 7⟩, ⟨List.replicate 32 9, .never, [], false, [], []⟩, ⟨1, []⟩, ⟨1, []⟩,
    ⟨List.replicate 48 0, List.replicate 48 1, List.replicate 48 2, List.replicate 48 3, [], "commit"⟩, none⟩, [], []⟩

/-- The V1 envelope of the tests. -/
def wireV1 : Envelope :=
  .v1 ⟨⟨⟨"test", 1, List.replicate 33 7⟩, ⟨List.replicate 32 9, .never, [], false, []⟩, ⟨1, []⟩, ⟨1, []⟩,
    ⟨List.replicate 48 0, List.replicate 48 1, List.replicate 48 2, List.replicate 48 3, [], "commit"⟩, ⟨0, []⟩⟩, [], []⟩

/-! `v2_manifest_envelope_is_json_wire_only`, `boot_standard_json_envelope_request_is_borsh_only`,
`borsh_variant_discriminants_preserve_legacy_boot_standard_request`. -/
#eval check (jsonRoundTrip (.bootStandardRequest wireV2 []))
example : ¬ Borsh.msg.ok (.bootStandardRequest wireV2 []) := fun h => absurd (show False ∧ True from ⟨h.1, trivial⟩).1 id
#eval check (borshRoundTrip (.bootStandardJsonEnvelopeRequest wireV2 [1, 2, 3, 4]) &&
  (Wire.toJson (.bootStandardJsonEnvelopeRequest wireV2 [1, 2, 3, 4])).isNone)
#eval check ((Borsh.msg.enc (.bootStandardRequest wireV1 [1, 2, 3, 4])).head? == some 3)

/-- The answer to these bytes, in the format of the request (processor.rs:24-50). -/
def answers (bs : Bytes) : Option (Bytes × Wire.Encoding) :=
  match Wire.fromWire bs with
  | .error e => (Wire.errorAnswer e).map fun b => (b, .json)
  | .ok (m, enc) =>
    let r := (StateMachine.handle plainEnv m (St.initial fun _ => none)).1
    match enc with
    | .json => (Wire.toJson r).map fun b => (b, .json)
    | .borsh => some (Borsh.msg.enc r, .borsh)

/-! `json_request_gets_json_response`, `borsh_genesis_request_is_rejected`, `borsh_request_gets_borsh_response`. -/
#eval check (match (Wire.toJson .statusRequest).bind answers with
  | some (b, .json) => match Wire.fromWire b with
    | .ok (.statusResponse .waitingForBootInstruction, .json) => true
    | _ => false
  | _ => false)
#eval check (match answers (Borsh.msg.enc (.bootGenesisRequest ⟨[], 1⟩ none)) with
  | some (b, .json) => match Wire.fromWire b with
    | .ok (.protocolErrorResponse .legacyGenesisNotSupported, .json) => true
    | _ => false
  | _ => false)
#eval check (match answers (Borsh.msg.enc .statusRequest) with
  | some (b, .borsh) => match Borsh.tryFromSlice Borsh.msg b with
    | some (.statusResponse .waitingForBootInstruction) => true
    | _ => false
  | _ => false)

end Qos.Conformance
