import Verif.Spec.Format
import Verif.Spec.Wire
/-!
# The protocol messages, field by field

What a JSON document says as a message, which JSON document a message is written as, and the bytes of the Borsh form: written
out with the literal names, tags, orders and widths, independent of the codecs of the model.
-/
namespace Qos.Format
open Services

/-! ## Reading JSON -/

/-- A variant of an enumeration: its bare name, or an object whose only member has that name and says so. -/
def Variant (v : Json) (name : String) : Option (Json → Prop) → Prop
  | none => IsName v name
  | some P => ∃ x, v = .obj [(name, x)] ∧ P x

/-- Name and position of a phase. -/
def phaseKind : Phase → String × Nat
  | .unrecoverableError => ("UnrecoverableError", 0)
  | .waitingForBootInstruction => ("WaitingForBootInstruction", 1)
  | .genesisBooted => ("GenesisBooted", 2)
  | .waitingForQuorumShards => ("WaitingForQuorumShards", 3)
  | .quorumKeyProvisioned => ("QuorumKeyProvisioned", 4)
  | .waitingForForwardedKey => ("WaitingForForwardedKey", 5)

/-- The other accepted name of a phase. -/
def phaseAlias : Phase → String
  | .unrecoverableError => "unrecoverableError"
  | .waitingForBootInstruction => "waitingForBootInstruction"
  | .genesisBooted => "genesisBooted"
  | .waitingForQuorumShards => "waitingForQuorumShards"
  | .quorumKeyProvisioned => "quorumKeyProvisioned"
  | .waitingForForwardedKey => "waitingForForwardedKey"

/-- A phase. -/
def PhaseDoc (v : Json) (p : Phase) : Prop := IsName v (phaseKind p).1 ∨ IsName v (phaseAlias p)

/-- Name and position of a device error. -/
def nsmErrorKind : NsmErrorCode → String × Nat
  | .success => ("Success", 0)
  | .invalidArgument => ("InvalidArgument", 1)
  | .invalidIndex => ("InvalidIndex", 2)
  | .invalidResponse => ("InvalidResponse", 3)
  | .readOnlyIndex => ("ReadOnlyIndex", 4)
  | .invalidOperation => ("InvalidOperation", 5)
  | .bufferTooSmall => ("BufferTooSmall", 6)
  | .inputTooLarge => ("InputTooLarge", 7)
  | .internalError => ("InternalError", 8)

/-- Name and position of a digest. -/
def digestKind : NsmDigest → String × Nat
  | .sha256 => ("SHA256", 0)
  | .sha384 => ("SHA384", 1)
  | .sha512 => ("SHA512", 2)

/-- A set of numbers: given in any order, also repeatedly; kept in increasing order. -/
def SetOf (given set : List UInt16) : Prop := set.Pairwise (· < ·) ∧ ∀ n, n ∈ set ↔ n ∈ given

/-- A set of numbers. -/
def NumbersDoc (v : Json) (set : List UInt16) : Prop :=
  ∃ given, IsList (fun x (n : UInt16) => IsNumber x n.toNat) v given ∧ SetOf given set

/-- Name and position of an answer of the device. -/
def nsmKind : NsmResponse → String × Nat
  | .describePCR _ _ => ("describePCR", 0)
  | .extendPCR _ => ("extendPCR", 1)
  | .lockPCR => ("lockPCR", 2)
  | .lockPCRs => ("lockPCRs", 3)
  | .describeNSM _ _ _ _ _ _ _ => ("describeNSM", 4)
  | .attestation _ => ("attestation", 5)
  | .getRandom _ => ("getRandom", 6)
  | .error _ => ("error", 7)

/-- What an answer of the device carries. -/
def nsmSays : NsmResponse → Option (Json → Prop)
  | .describePCR lock data => some fun v => ∃ field, Record false ["lock", "data"] v field ∧
      Has field "lock" (IsFlag · lock) ∧ Has field "data" (IsHex · data)
  | .extendPCR data => some fun v => ∃ field, Record false ["data"] v field ∧ Has field "data" (IsHex · data)
  | .lockPCR => none
  | .lockPCRs => none
  | .describeNSM major minor patch moduleId maxPcrs lockedPcrs digest => some fun v => ∃ field,
      Record false ["version_major", "version_minor", "version_patch", "module_id", "max_pcrs", "locked_pcrs", "digest"] v field ∧
      Has field "version_major" (IsNumber · major.toNat) ∧ Has field "version_minor" (IsNumber · minor.toNat) ∧
      Has field "version_patch" (IsNumber · patch.toNat) ∧ Has field "module_id" (IsText · moduleId) ∧
      Has field "max_pcrs" (IsNumber · maxPcrs.toNat) ∧ Has field "locked_pcrs" (NumbersDoc · lockedPcrs) ∧
      Has field "digest" (IsName · (digestKind digest).1)
  | .attestation document => some fun v => ∃ field, Record false ["document"] v field ∧ Has field "document" (IsHex · document)
  | .getRandom random => some fun v => ∃ field, Record false ["random"] v field ∧ Has field "random" (IsHex · random)
  | .error e => some (IsName · (nsmErrorKind e).1)

/-- An answer of the device. -/
def NsmDoc (v : Json) (r : NsmResponse) : Prop := Variant v (nsmKind r).1 (nsmSays r)

/-- Name and position of an error of the key library. -/
def keyErrorKind : P256Error → String × Nat
  | .qosHex _ => ("QosHex", 0)
  | .ioError _ => ("IOError", 1)
  | .failedToSerializeEnvelope => ("FailedToSerializeEnvelope", 2)
  | .failedToDeserializeEnvelope => ("FailedToDeserializeEnvelope", 3)
  | .aesGcm256DecryptError => ("AesGcm256DecryptError", 4)
  | .aesGcm256EncryptError => ("AesGcm256EncryptError", 5)
  | .failedToCreateAes256GcmCipher => ("FailedToCreateAes256GcmCipher", 6)
  | .failedToDeserializePublicKey => ("FailedToDeserializePublicKey", 7)
  | .failedToCoercePublicKeyToIntendedLength => ("FailedToCoercePublicKeyToIntendedLength", 8)
  | .failedToCoerceNonceToIntendedLength => ("FailedToCoerceNonceToIntendedLength", 9)
  | .failedToDeserializeSignature => ("FailedToDeserializeSignature", 10)
  | .failedSignatureVerification => ("FailedSignatureVerification", 11)
  | .failedToReadSecret => ("FailedToReadSecret", 12)
  | .failedToReadPublicKey => ("FailedToReadPublicKey", 13)
  | .encodedPublicKeyTooLong => ("EncodedPublicKeyTooLong", 14)
  | .encodedPublicKeyTooShort => ("EncodedPublicKeyTooShort", 15)
  | .hkdfExpansionFailed => ("HkdfExpansionFailed", 16)
  | .masterSeedInvalidUtf8 => ("MasterSeedInvalidUtf8", 17)
  | .masterSeedInvalidLength => ("MasterSeedInvalidLength", 18)
  | .invalidMasterSeed => ("InvalidMasterSeed", 19)
  | .cannotCoerceLenToU8 => ("CannotCoerceLenToU8", 20)

/-- What an error of the key library carries. -/
def keyErrorSays : P256Error → Option (Json → Prop)
  | .qosHex text => some (IsText · text)
  | .ioError text => some (IsText · text)
  | _ => none

/-- An error of the key library. -/
def KeyErrorDoc (v : Json) (e : P256Error) : Prop := Variant v (keyErrorKind e).1 (keyErrorSays e)

/-- Name and position of an error. -/
def errorKind : ProtocolError → String × Nat
  | .invalidShare => ("InvalidShare", 0)
  | .reconstructionErrorEmptySecret => ("ReconstructionErrorEmptySecret", 1)
  | .reconstructionErrorIncorrectPubKey => ("ReconstructionErrorIncorrectPubKey", 2)
  | .ioError => ("IOError", 3)
  | .invalidManifestApproval _ => ("InvalidManifestApproval", 4)
  | .notEnoughApprovals => ("NotEnoughApprovals", 5)
  | .noMatchingRoute _ => ("NoMatchingRoute", 6)
  | .invalidPivotHash _ _ => ("InvalidPivotHash", 7)
  | .oversizeMsg => ("OversizeMsg", 8)
  | .invalidMsg => ("InvalidMsg", 9)
  | .enclaveClient => ("EnclaveClient", 10)
  | .decryptionFailed => ("DecryptionFailed", 11)
  | .invalidPrivateKey => ("InvalidPrivateKey", 12)
  | .failedToParseFromString => ("FailedToParseFromString", 13)
  | .badEphemeralKeyPath => ("BadEphemeralKeyPath", 14)
  | .cannotModifyPostPivotStatic => ("CannotModifyPostPivotStatic", 15)
  | .failedToGetEphemeralKey _ => ("FailedToGetEphemeralKey", 16)
  | .failedToPutEphemeralKey => ("FailedToPutEphemeralKey", 17)
  | .cannotRotateNonExistentEphemeralKey => ("CannotRotateNonExistentEphemeralKey", 18)
  | .cannotDeleteEphemeralKey _ => ("CannotDeleteEphemeralKey", 19)
  | .failedToGetQuorumKey _ => ("FailedToGetQuorumKey", 20)
  | .failedToPutQuorumKey => ("FailedToPutQuorumKey", 21)
  | .failedToGetManifestEnvelope => ("FailedToGetManifestEnvelope", 22)
  | .failedToPutManifestEnvelope => ("FailedToPutManifestEnvelope", 23)
  | .failedToPutPivot => ("FailedToPutPivot", 24)
  | .appClientRecvTimeout => ("AppClientRecvTimeout", 25)
  | .appClientRecvInterrupted => ("AppClientRecvInterrupted", 26)
  | .appClientRecvConnectionClosed => ("AppClientRecvConnectionClosed", 27)
  | .appClientConnectError _ => ("AppClientConnectError", 28)
  | .appClientSendError _ => ("AppClientSendError", 29)
  | .appClientError _ => ("AppClientError", 30)
  | .oversizedPayload => ("OversizedPayload", 31)
  | .protocolMsgDeserialization => ("ProtocolMsgDeserialization", 32)
  | .badShareSetApprovals => ("BadShareSetApprovals", 33)
  | .couldNotVerifyApproval => ("CouldNotVerifyApproval", 34)
  | .notShareSetMember => ("NotShareSetMember", 35)
  | .notManifestSetMember => ("NotManifestSetMember", 36)
  | .p256Error _ => ("P256Error", 37)
  | .invalidP256DRKey _ => ("InvalidP256DRKey", 38)
  | .incorrectSecretLen => ("IncorrectSecretLen", 39)
  | .qosAttestError _ => ("QosAttestError", 40)
  | .differentQuorumKey _ _ => ("DifferentQuorumKey", 41)
  | .differentManifestSet _ _ => ("DifferentManifestSet", 42)
  | .differentNamespaceName _ _ => ("DifferentNamespaceName", 43)
  | .lowNonce _ _ => ("LowNonce", 44)
  | .differentPcr3 _ _ => ("DifferentPcr3", 45)
  | .missingEphemeralKey => ("MissingEphemeralKey", 46)
  | .invalidEphemeralKey => ("InvalidEphemeralKey", 47)
  | .invalidEncryptedQuorumKeySignature => ("InvalidEncryptedQuorumKeySignature", 48)
  | .encryptedQuorumKeyInvalidLen => ("EncryptedQuorumKeyInvalidLen", 49)
  | .invalidQuorumSecret => ("InvalidQuorumSecret", 50)
  | .wrongQuorumKey => ("WrongQuorumKey", 51)
  | .invalidStateTransition _ _ => ("InvalidStateTransition", 52)
  | .duplicateApproval => ("DuplicateApproval", 53)
  | .differentManifest _ _ => ("DifferentManifest", 54)
  | .qosCrypto _ => ("QosCrypto", 55)
  | .poolExpandError => ("PoolExpandError", 56)
  | .invalidPivotEnv _ => ("InvalidPivotEnv", 57)
  | .missingLiveEphemeralKey => ("MissingLiveEphemeralKey", 58)
  | .duplicateQuorumMember => ("DuplicateQuorumMember", 59)
  | .legacyGenesisNotSupported => ("LegacyGenesisNotSupported", 60)

/-- Two texts, what was expected and what was there. -/
def PairDoc (expected actual : String) (v : Json) : Prop :=
  ∃ field, Record false ["expected", "actual"] v field ∧ Has field "expected" (IsText · expected) ∧
    Has field "actual" (IsText · actual)

/-- What an error carries. -/
def errorSays : ProtocolError → Option (Json → Prop)
  | .invalidManifestApproval a => some (ApprovalDoc · a)
  | .noMatchingRoute p => some (PhaseDoc · p)
  | .invalidPivotHash x y => some (PairDoc x y)
  | .failedToGetEphemeralKey e => some (KeyErrorDoc · e)
  | .cannotDeleteEphemeralKey text => some (IsText · text)
  | .failedToGetQuorumKey e => some (KeyErrorDoc · e)
  | .appClientConnectError text => some (IsText · text)
  | .appClientSendError text => some (IsText · text)
  | .appClientError text => some (IsText · text)
  | .p256Error e => some (KeyErrorDoc · e)
  | .invalidP256DRKey e => some (KeyErrorDoc · e)
  | .qosAttestError text => some (IsText · text)
  | .differentQuorumKey x y => some (PairDoc x y)
  | .differentManifestSet x y => some (PairDoc x y)
  | .differentNamespaceName x y => some (PairDoc x y)
  | .lowNonce x y => some fun v => ∃ field, Record false ["expected", "actual"] v field ∧
      Has field "expected" (IsNumber · x.toNat) ∧ Has field "actual" (IsNumber · y.toNat)
  | .differentPcr3 x y => some (PairDoc x y)
  | .invalidStateTransition p q => some fun v => ∃ x y, v = .arr [x, y] ∧ PhaseDoc x p ∧ PhaseDoc y q
  | .differentManifest x y => some (PairDoc x y)
  | .qosCrypto text => some (IsText · text)
  | .invalidPivotEnv text => some (IsText · text)
  | _ => none

/-- An error. -/
def ErrorDoc (v : Json) (e : ProtocolError) : Prop := Variant v (errorKind e).1 (errorSays e)

/-- A member that may be left out or be `null`. -/
def MayHave {α : Type} (field : String → Option Json) (name : String) (P : Json → α → Prop) (o : Option α) : Prop :=
  (o = none ∧ (field name = none ∨ field name = some .null)) ∨ ∃ a, o = some a ∧ Has field name (P · a)

/-- The parameters of a key ceremony. -/
def GenesisSetDoc (v : Json) (s : GenesisSet) : Prop :=
  ∃ field, Record false ["members", "threshold"] v field ∧ Has field "members" (IsList MemberDoc · s.members) ∧
    Has field "threshold" (IsNumber · s.threshold.toNat)

/-- A SHA-512 digest. -/
def IsLongDigest (v : Json) (b : Bytes) : Prop := IsHex v b ∧ b.length = 64

/-- The share of one member. -/
def MemberOutputDoc (v : Json) (o : MemberOutput) : Prop :=
  ∃ field, Record false ["shareSetMember", "encryptedQuorumKeyShare", "shareHash"] v field ∧
    Has field "shareSetMember" (MemberDoc · o.member) ∧ Has field "encryptedQuorumKeyShare" (IsHex · o.encryptedShare) ∧
    Has field "shareHash" (IsLongDigest · o.shareHash)

/-- A shard of one member. -/
def ShardDoc (v : Json) (o : MemberShard) : Prop :=
  ∃ field, Record false ["member", "shard"] v field ∧ Has field "member" (MemberDoc · o.member) ∧
    Has field "shard" (IsHex · o.shard)

/-- The output of a key ceremony. -/
def GenesisDoc (v : Json) (o : GenesisOutput) : Prop :=
  ∃ field, Record false ["set", "dr_key", "quorum_key", "member_outputs", "recovery_permutations", "dr_key_wrapped_quorum_key",
      "quorum_key_hash", "test_message_ciphertext", "test_message_signature", "test_message"] v field ∧
    Has field "set" (GenesisSetDoc · o.set) ∧ MayHave field "dr_key" IsHex o.drKey ∧ Has field "quorum_key" (IsHex · o.quorumKey) ∧
    Has field "member_outputs" (IsList MemberOutputDoc · o.memberOutputs) ∧
    Has field "recovery_permutations" (IsList (IsList ShardDoc) · o.recoveryPermutations) ∧
    MayHave field "dr_key_wrapped_quorum_key" IsHex o.drKeyWrappedQuorumKey ∧
    Has field "quorum_key_hash" (IsLongDigest · o.quorumKeyHash) ∧
    Has field "test_message_ciphertext" (IsHex · o.testMessageCiphertext) ∧
    Has field "test_message_signature" (IsHex · o.testMessageSignature) ∧ Has field "test_message" (IsHex · o.testMessage)

/-- What a message carries. -/
def msgSays : Msg → Option (Json → Prop)
  | .protocolErrorResponse e => some (ErrorDoc · e)
  | .statusRequest => none
  | .statusResponse p => some (PhaseDoc · p)
  | .bootStandardRequest e pivot => some fun v => ∃ field, Record false ["manifest_envelope", "pivot"] v field ∧
      Has field "manifest_envelope" (EnvelopeSays · e) ∧ Has field "pivot" (IsHex · pivot)
  | .bootStandardResponse r => some fun v => ∃ field, Record false ["nsm_response"] v field ∧ Has field "nsm_response" (NsmDoc · r)
  | .bootGenesisRequest set drKey => some fun v => ∃ field, Record false ["set", "dr_key"] v field ∧
      Has field "set" (GenesisSetDoc · set) ∧ MayHave field "dr_key" IsHex drKey
  | .bootGenesisResponse r o => some fun v => ∃ field, Record false ["nsm_response", "genesis_output"] v field ∧
      Has field "nsm_response" (NsmDoc · r) ∧ Has field "genesis_output" (GenesisDoc · o)
  | .provisionRequest share a => some fun v => ∃ field, Record false ["share", "approval"] v field ∧
      Has field "share" (IsHex · share) ∧ Has field "approval" (ApprovalDoc · a)
  | .provisionResponse b => some fun v => ∃ field, Record false ["reconstructed"] v field ∧ Has field "reconstructed" (IsFlag · b)
  | .proxyRequest data => some fun v => ∃ field, Record false ["data"] v field ∧ Has field "data" (IsHex · data)
  | .proxyResponse data => some fun v => ∃ field, Record false ["data"] v field ∧ Has field "data" (IsHex · data)
  | .liveAttestationDocRequest => none
  | .liveAttestationDocResponse r e => some fun v => ∃ field, Record false ["nsm_response", "manifest_envelope"] v field ∧
      Has field "nsm_response" (NsmDoc · r) ∧ MayHave field "manifest_envelope" EnvelopeSays e
  | .bootKeyForwardRequest e pivot => some fun v => ∃ field, Record false ["manifest_envelope", "pivot"] v field ∧
      Has field "manifest_envelope" (EnvelopeSays · e) ∧ Has field "pivot" (IsHex · pivot)
  | .bootKeyForwardResponse r => some fun v => ∃ field, Record false ["nsm_response"] v field ∧ Has field "nsm_response" (NsmDoc · r)
  | .exportKeyRequest e doc => some fun v => ∃ field, Record false ["manifest_envelope", "cose_sign1_attestation_doc"] v field ∧
      Has field "manifest_envelope" (EnvelopeSays · e) ∧ Has field "cose_sign1_attestation_doc" (IsHex · doc)
  | .exportKeyResponse key sig => some fun v => ∃ field, Record false ["encrypted_quorum_key", "signature"] v field ∧
      Has field "encrypted_quorum_key" (IsHex · key) ∧ Has field "signature" (IsHex · sig)
  | .injectKeyRequest key sig => some fun v => ∃ field, Record false ["encrypted_quorum_key", "signature"] v field ∧
      Has field "encrypted_quorum_key" (IsHex · key) ∧ Has field "signature" (IsHex · sig)
  | .injectKeyResponse => none
  | .manifestEnvelopeRequest => none
  | .manifestEnvelopeResponse e => some fun v => ∃ field, Record false ["manifest_envelope"] v field ∧
      MayHave field "manifest_envelope" EnvelopeSays e
  | .versionRequest => none
  | .versionResponse version commit => some fun v => ∃ field, Record false ["version", "commit"] v field ∧
      Has field "version" (IsText · version) ∧ Has field "commit" (IsText · commit)
  | .bootStandardJsonEnvelopeRequest _ _ => some fun _ => False

/-- A message. The boot request with a JSON envelope inside Borsh has no JSON form. -/
def MsgDoc (v : Json) (m : Msg) : Prop := Variant v m.kind.1 (msgSays m)

/-! ## Writing JSON -/

/-- A variant, as it is written. -/
def variant (name : String) : Option Json → Json
  | none => .str name
  | some x => .obj [(name, x)]

/-- A member that is left out if there is nothing to say. -/
def may {α : Type} (name : String) (f : α → Json) : Option α → List (String × Json)
  | none => []
  | some a => [(name, f a)]

/-- What an answer of the device is written with. -/
def nsmPayload : NsmResponse → Option Json
  | .describePCR lock data => some (.obj [("lock", .bool lock), ("data", hex data)])
  | .extendPCR data => some (.obj [("data", hex data)])
  | .lockPCR => none
  | .lockPCRs => none
  | .describeNSM major minor patch moduleId maxPcrs lockedPcrs digest => some (.obj [("version_major", .int major.toNat),
      ("version_minor", .int minor.toNat), ("version_patch", .int patch.toNat), ("module_id", .str moduleId),
      ("max_pcrs", .int maxPcrs.toNat), ("locked_pcrs", list (fun (n : UInt16) => .int n.toNat) lockedPcrs),
      ("digest", .str (digestKind digest).1)])
  | .attestation document => some (.obj [("document", hex document)])
  | .getRandom random => some (.obj [("random", hex random)])
  | .error e => some (.str (nsmErrorKind e).1)

/-- An answer of the device. -/
def nsmJson (r : NsmResponse) : Json := variant (nsmKind r).1 (nsmPayload r)

/-- What an error of the key library is written with. -/
def keyErrorPayload : P256Error → Option Json
  | .qosHex text => some (.str text)
  | .ioError text => some (.str text)
  | _ => none

/-- An error of the key library. -/
def keyErrorJson (e : P256Error) : Json := variant (keyErrorKind e).1 (keyErrorPayload e)

/-- A phase. -/
def phaseJson (p : Phase) : Json := .str (phaseKind p).1

/-- Two texts, what was expected and what was there. -/
def pairJson (expected actual : String) : Json := .obj [("expected", .str expected), ("actual", .str actual)]

/-- What an error is written with. -/
def errorPayload : ProtocolError → Option Json
  | .invalidManifestApproval a => some (approvalJson a)
  | .noMatchingRoute p => some (phaseJson p)
  | .invalidPivotHash x y => some (pairJson x y)
  | .failedToGetEphemeralKey e => some (keyErrorJson e)
  | .cannotDeleteEphemeralKey text => some (.str text)
  | .failedToGetQuorumKey e => some (keyErrorJson e)
  | .appClientConnectError text => some (.str text)
  | .appClientSendError text => some (.str text)
  | .appClientError text => some (.str text)
  | .p256Error e => some (keyErrorJson e)
  | .invalidP256DRKey e => some (keyErrorJson e)
  | .qosAttestError text => some (.str text)
  | .differentQuorumKey x y => some (pairJson x y)
  | .differentManifestSet x y => some (pairJson x y)
  | .differentNamespaceName x y => some (pairJson x y)
  | .lowNonce x y => some (.obj [("expected", .int x.toNat), ("actual", .int y.toNat)])
  | .differentPcr3 x y => some (pairJson x y)
  | .invalidStateTransition p q => some (.arr [phaseJson p, phaseJson q])
  | .differentManifest x y => some (pairJson x y)
  | .qosCrypto text => some (.str text)
  | .invalidPivotEnv text => some (.str text)
  | _ => none

/-- An error. -/
def errorJson (e : ProtocolError) : Json := variant (errorKind e).1 (errorPayload e)

/-- The parameters of a key ceremony. -/
def genesisSetJson (s : GenesisSet) : Json := .obj [("members", list memberJson s.members), ("threshold", .int s.threshold.toNat)]

/-- The share of one member. -/
def memberOutputJson (o : MemberOutput) : Json :=
  .obj [("shareSetMember", memberJson o.member), ("encryptedQuorumKeyShare", hex o.encryptedShare), ("shareHash", hex o.shareHash)]

/-- A shard of one member. -/
def shardJson (o : MemberShard) : Json := .obj [("member", memberJson o.member), ("shard", hex o.shard)]

/-- The output of a key ceremony. -/
def genesisJson (o : GenesisOutput) : Json :=
  .obj ([("set", genesisSetJson o.set)] ++ may "dr_key" hex o.drKey ++ [("quorum_key", hex o.quorumKey),
    ("member_outputs", list memberOutputJson o.memberOutputs),
    ("recovery_permutations", list (list shardJson) o.recoveryPermutations)] ++
    may "dr_key_wrapped_quorum_key" hex o.drKeyWrappedQuorumKey ++ [("quorum_key_hash", hex o.quorumKeyHash),
    ("test_message_ciphertext", hex o.testMessageCiphertext), ("test_message_signature", hex o.testMessageSignature),
    ("test_message", hex o.testMessage)])

/-- What a message is written with. -/
def msgPayload : Msg → Option Json
  | .protocolErrorResponse e => some (errorJson e)
  | .statusResponse p => some (phaseJson p)
  | .bootStandardRequest e pivot => some (.obj [("manifest_envelope", envelopeJson e), ("pivot", hex pivot)])
  | .bootStandardResponse r => some (.obj [("nsm_response", nsmJson r)])
  | .bootGenesisRequest set drKey => some (.obj ([("set", genesisSetJson set)] ++ may "dr_key" hex drKey))
  | .bootGenesisResponse r o => some (.obj [("nsm_response", nsmJson r), ("genesis_output", genesisJson o)])
  | .provisionRequest share a => some (.obj [("share", hex share), ("approval", approvalJson a)])
  | .provisionResponse b => some (.obj [("reconstructed", .bool b)])
  | .proxyRequest data => some (.obj [("data", hex data)])
  | .proxyResponse data => some (.obj [("data", hex data)])
  | .liveAttestationDocResponse r e =>
      some (.obj ([("nsm_response", nsmJson r)] ++ may "manifest_envelope" envelopeJson e))
  | .bootKeyForwardRequest e pivot => some (.obj [("manifest_envelope", envelopeJson e), ("pivot", hex pivot)])
  | .bootKeyForwardResponse r => some (.obj [("nsm_response", nsmJson r)])
  | .exportKeyRequest e doc => some (.obj [("manifest_envelope", envelopeJson e), ("cose_sign1_attestation_doc", hex doc)])
  | .exportKeyResponse key sig => some (.obj [("encrypted_quorum_key", hex key), ("signature", hex sig)])
  | .injectKeyRequest key sig => some (.obj [("encrypted_quorum_key", hex key), ("signature", hex sig)])
  | .manifestEnvelopeResponse e => some (.obj (may "manifest_envelope" envelopeJson e))
  | .versionResponse version commit => some (.obj [("version", .str version), ("commit", .str commit)])
  | _ => none

/-- A message. -/
def msgJson (m : Msg) : Json := variant m.kind.1 (msgPayload m)

/-! ## Borsh -/

/-- The byte of a position. -/
def tagged (n : Nat) (b : Bytes) : Bytes := UInt8.ofNat n :: b

/-- A phase. -/
def phaseBytes (p : Phase) : Bytes := tagged (phaseKind p).2 []

/-- What is or is not there. -/
def optional {α : Type} (f : α → Bytes) : Option α → Bytes
  | none => [0]
  | some a => [1] ++ f a

/-- A truth value. -/
def flagBytes (b : Bool) : Bytes := [if b then 1 else 0]

/-- What an answer of the device carries, the set of locked registers given in some order. -/
def nsmBody (given : List UInt16) : NsmResponse → Bytes
  | .describePCR lock data => flagBytes lock ++ sized data
  | .extendPCR data => sized data
  | .lockPCR => []
  | .lockPCRs => []
  | .describeNSM major minor patch moduleId maxPcrs _ digest =>
      two major.toNat ++ two minor.toNat ++ two patch.toNat ++ text moduleId ++ two maxPcrs.toNat ++
        many (fun (n : UInt16) => two n.toNat) given ++ tagged (digestKind digest).2 []
  | .attestation document => sized document
  | .getRandom random => sized random
  | .error e => tagged (nsmErrorKind e).2 []

/-- The set of locked registers. -/
def lockedPcrs : NsmResponse → List UInt16
  | .describeNSM _ _ _ _ _ set _ => set
  | _ => []

/-- All lengths of an answer of the device. -/
def ShortNsm : NsmResponse → Prop
  | .describePCR _ data => Short data
  | .extendPCR data => Short data
  | .describeNSM _ _ _ moduleId _ _ _ => ShortText moduleId
  | .attestation document => Short document
  | .getRandom random => Short random
  | _ => True

/-- The bytes stand for the answer of the device. -/
def NsmForm (b : Bytes) (r : NsmResponse) : Prop :=
  ∃ given, b = tagged (nsmKind r).2 (nsmBody given r) ∧ SetOf given (lockedPcrs r) ∧ given.length < 2 ^ 32 ∧ ShortNsm r

/-- An answer of the device, as it is written. -/
def nsmBytes (r : NsmResponse) : Bytes := tagged (nsmKind r).2 (nsmBody (lockedPcrs r) r)

/-- An error of the key library. -/
def keyErrorBytes (e : P256Error) : Bytes := tagged (keyErrorKind e).2 <| match e with
  | .qosHex s => text s
  | .ioError s => text s
  | _ => []

/-- All lengths of an error of the key library. -/
def ShortKeyError : P256Error → Prop
  | .qosHex s => ShortText s
  | .ioError s => ShortText s
  | _ => True

/-- What an error carries. -/
def errorBody : ProtocolError → Bytes
  | .invalidManifestApproval a => approvalBytes a
  | .noMatchingRoute p => phaseBytes p
  | .invalidPivotHash x y => text x ++ text y
  | .failedToGetEphemeralKey e => keyErrorBytes e
  | .cannotDeleteEphemeralKey s => text s
  | .failedToGetQuorumKey e => keyErrorBytes e
  | .appClientConnectError s => text s
  | .appClientSendError s => text s
  | .appClientError s => text s
  | .p256Error e => keyErrorBytes e
  | .invalidP256DRKey e => keyErrorBytes e
  | .qosAttestError s => text s
  | .differentQuorumKey x y => text x ++ text y
  | .differentManifestSet x y => text x ++ text y
  | .differentNamespaceName x y => text x ++ text y
  | .lowNonce x y => four x.toNat ++ four y.toNat
  | .differentPcr3 x y => text x ++ text y
  | .invalidStateTransition p q => phaseBytes p ++ phaseBytes q
  | .differentManifest x y => text x ++ text y
  | .qosCrypto s => text s
  | .invalidPivotEnv s => text s
  | _ => []

/-- An error. -/
def errorBytes (e : ProtocolError) : Bytes := tagged (errorKind e).2 (errorBody e)

/-- An approval. -/
def ShortApproval (a : Approval) : Prop := Short a.signature ∧ ShortMember a.member

/-- All lengths of an error. -/
def ShortError : ProtocolError → Prop
  | .invalidManifestApproval a => ShortApproval a
  | .invalidPivotHash x y => ShortText x ∧ ShortText y
  | .failedToGetEphemeralKey e => ShortKeyError e
  | .cannotDeleteEphemeralKey s => ShortText s
  | .failedToGetQuorumKey e => ShortKeyError e
  | .appClientConnectError s => ShortText s
  | .appClientSendError s => ShortText s
  | .appClientError s => ShortText s
  | .p256Error e => ShortKeyError e
  | .invalidP256DRKey e => ShortKeyError e
  | .qosAttestError s => ShortText s
  | .differentQuorumKey x y => ShortText x ∧ ShortText y
  | .differentManifestSet x y => ShortText x ∧ ShortText y
  | .differentNamespaceName x y => ShortText x ∧ ShortText y
  | .differentPcr3 x y => ShortText x ∧ ShortText y
  | .differentManifest x y => ShortText x ∧ ShortText y
  | .qosCrypto s => ShortText s
  | .invalidPivotEnv s => ShortText s
  | _ => True

/-- The parameters of a key ceremony. -/
def genesisSetBytes (s : GenesisSet) : Bytes := many memberBytes s.members ++ four s.threshold.toNat

/-- The output of a key ceremony: what its attestation is about. -/
def genesisBytes (o : GenesisOutput) : Bytes :=
  genesisSetBytes o.set ++ optional sized o.drKey ++ sized o.quorumKey ++
    many (fun m => memberBytes m.member ++ sized m.encryptedShare ++ m.shareHash) o.memberOutputs ++
    many (many fun m => memberBytes m.member ++ sized m.shard) o.recoveryPermutations ++
    optional sized o.drKeyWrappedQuorumKey ++ o.quorumKeyHash ++ sized o.testMessageCiphertext ++ sized o.testMessageSignature ++
    sized o.testMessage

/-- All lengths of what may be there. -/
def ShortMay {α : Type} (P : α → Prop) (o : Option α) : Prop := ∀ a, o = some a → P a

/-- All lengths of the output of a key ceremony. -/
def ShortGenesis (o : GenesisOutput) : Prop :=
  ShortList ShortMember o.set.members ∧ ShortMay Short o.drKey ∧ Short o.quorumKey ∧
    ShortList (fun m => ShortMember m.member ∧ Short m.encryptedShare ∧ m.shareHash.length = 64) o.memberOutputs ∧
    ShortList (ShortList fun m => ShortMember m.member ∧ Short m.shard) o.recoveryPermutations ∧
    ShortMay Short o.drKeyWrappedQuorumKey ∧ o.quorumKeyHash.length = 64 ∧ Short o.testMessageCiphertext ∧
    Short o.testMessageSignature ∧ Short o.testMessage

/-- The bytes of an envelope; V2 has none. -/
def legacyBytes : Envelope → Bytes
  | .v2 _ => []
  | .v1 e => envelopeBytes manifestBytesV1 e
  | .v0 e => envelopeBytes manifestBytesV0 e

/-- All lengths of an envelope; V2 has no bytes. -/
def ShortEnvelope : Envelope → Prop
  | .v2 _ => False
  | .v1 e => ShortV1 e.manifest ∧ ShortApprovals e.manifestSetApprovals ∧ ShortApprovals e.shareSetApprovals
  | .v0 e => ShortV0 e.manifest ∧ ShortApprovals e.manifestSetApprovals ∧ ShortApprovals e.shareSetApprovals

/-- The bytes stand for the envelope, and for no envelope of the other version. -/
def EnvelopeForm (b : Bytes) : Envelope → Prop
  | .v2 _ => False
  | .v1 e => BorshEnvelopeV1 b e ∧ ¬ ∃ e0, BorshEnvelopeV0 b e0
  | .v0 e => BorshEnvelopeV0 b e ∧ ¬ ∃ e1, BorshEnvelopeV1 b e1

/-- The bytes stand for an envelope or for none. -/
def MayEnvelopeForm (b : Bytes) (o : Option Envelope) : Prop :=
  (o = none ∧ b = [0]) ∨ ∃ e b', o = some e ∧ b = [1] ++ b' ∧ EnvelopeForm b' e

/-- What a message carries, as it is written. -/
def msgBody : Msg → Bytes
  | .protocolErrorResponse e => errorBytes e
  | .statusResponse p => phaseBytes p
  | .bootStandardRequest e pivot => legacyBytes e ++ sized pivot
  | .bootStandardResponse r => nsmBytes r
  | .bootGenesisRequest set drKey => genesisSetBytes set ++ optional sized drKey
  | .bootGenesisResponse r o => nsmBytes r ++ genesisBytes o
  | .provisionRequest share a => sized share ++ approvalBytes a
  | .provisionResponse b => flagBytes b
  | .proxyRequest data => sized data
  | .proxyResponse data => sized data
  | .liveAttestationDocResponse r e => nsmBytes r ++ optional legacyBytes e
  | .bootKeyForwardRequest e pivot => legacyBytes e ++ sized pivot
  | .bootKeyForwardResponse r => nsmBytes r
  | .exportKeyRequest e doc => legacyBytes e ++ sized doc
  | .exportKeyResponse key sig => sized key ++ sized sig
  | .injectKeyRequest key sig => sized key ++ sized sig
  | .manifestEnvelopeResponse e => optional legacyBytes e
  | .versionResponse version commit => text version ++ text commit
  | .bootStandardJsonEnvelopeRequest e pivot => sized (Json.writeBytes (envelopeJson e)) ++ sized pivot
  | _ => []

/-- A message, as it is written. -/
def msgBytes (m : Msg) : Bytes := tagged m.kind.2 (msgBody m)

/-- All lengths of an answer of the device that is written. -/
def ShortNsmSet (r : NsmResponse) : Prop := ShortNsm r ∧ (lockedPcrs r).length < 2 ^ 32 ∧ (lockedPcrs r).Pairwise (· < ·)

/-- Which messages can be written in Borsh. -/
def ShortMsg : Msg → Prop
  | .protocolErrorResponse e => ShortError e
  | .bootStandardRequest e pivot => ShortEnvelope e ∧ Short pivot
  | .bootStandardResponse r => ShortNsmSet r
  | .bootGenesisRequest set drKey => ShortList ShortMember set.members ∧ ShortMay Short drKey
  | .bootGenesisResponse r o => ShortNsmSet r ∧ ShortGenesis o
  | .provisionRequest share a => Short share ∧ ShortApproval a
  | .proxyRequest data => Short data
  | .proxyResponse data => Short data
  | .liveAttestationDocResponse r e => ShortNsmSet r ∧ ShortMay ShortEnvelope e
  | .bootKeyForwardRequest e pivot => ShortEnvelope e ∧ Short pivot
  | .bootKeyForwardResponse r => ShortNsmSet r
  | .exportKeyRequest e doc => ShortEnvelope e ∧ Short doc
  | .exportKeyResponse key sig => Short key ∧ Short sig
  | .injectKeyRequest key sig => Short key ∧ Short sig
  | .manifestEnvelopeResponse e => ShortMay ShortEnvelope e
  | .versionResponse version commit => ShortText version ∧ ShortText commit
  | .bootStandardJsonEnvelopeRequest e pivot => (e.Ok ∧ Short (Json.writeBytes (envelopeJson e))) ∧ Short pivot
  | _ => True

/-- What bytes are read as. An envelope takes all bytes that follow, so the three requests in which a pivot or a document follows
an envelope are never read. -/
def BodyForm (b : Bytes) : Msg → Prop
  | .bootStandardRequest _ _ => False
  | .bootKeyForwardRequest _ _ => False
  | .exportKeyRequest _ _ => False
  | .bootStandardResponse r => NsmForm b r
  | .bootKeyForwardResponse r => NsmForm b r
  | .bootGenesisResponse r o => ∃ x, b = x ++ genesisBytes o ∧ NsmForm x r ∧ ShortGenesis o
  | .liveAttestationDocResponse r o => ∃ x y, b = x ++ y ∧ NsmForm x r ∧ MayEnvelopeForm y o
  | .manifestEnvelopeResponse o => MayEnvelopeForm b o
  | .bootStandardJsonEnvelopeRequest e pivot => ∃ j, b = sized j ++ sized pivot ∧ Short j ∧ Short pivot ∧ JsonOf EnvelopeSays j e
  | m => b = msgBody m ∧ ShortMsg m

/-- The bytes stand for the message: its position, then what it carries. -/
def MsgForm (b : Bytes) (m : Msg) : Prop := ∃ body, b = tagged m.kind.2 body ∧ BodyForm body m

end Qos.Format
