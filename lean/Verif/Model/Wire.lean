import Verif.Model.StateMachine
/-!
# Protocol messages on the wire

`/repo/src/qos_core/src/protocol/msg.rs`, `processor.rs`, with the `serde` and Borsh derives of the types a message
contains (`error.rs`, `state.rs`, `qos_nsm/src/types.rs`, `qos_p256/src/lib.rs`, `services/genesis.rs`).

An enum is described by its variants in declaration order; the variant of a value is its constructor index.
-/
namespace Qos

/-! ## Enums -/

/-- One variant in JSON (externally tagged, the `serde` default): its name, other accepted names
(`#[serde(alias)]`), and the payload (`none` for a unit variant).
External crate `serde_derive`, behind protocol/msg.rs:94-266, error.rs:21-203, qos_nsm/src/types.rs:17-311. -/
structure JVariant (α : Type) where
  name : String
  aliases : List String
  enc : α → Option Json
  dec : Option Json → Option α
  ok : α → Prop
  depth : Nat

namespace JVariant

/-- A unit variant: the bare name, or the name with `null`.
External crate `serde_derive`, behind protocol/msg.rs:94-266, error.rs:21-203, qos_nsm/src/types.rs:17-311. -/
def unit {α : Type} (name : String) (a : α) (aliases : List String := []) : JVariant α where
  name := name
  aliases := aliases
  enc _ := none
  dec
    | none => some a
    | some .null => some a
    | some _ => none
  ok _ := True
  depth := 0

/-- A variant with data: newtype, tuple or struct variants, according to `c`.
External crate `serde_derive`, behind protocol/msg.rs:94-266, error.rs:21-203, qos_nsm/src/types.rs:17-311. -/
def data {α β : Type} (name : String) (c : JCodec β) (inj : β → α) (proj : α → Option β) : JVariant α where
  name := name
  aliases := []
  enc a := match proj a with
    | some b => some (c.enc b)
    | none => none
  dec
    | none => none
    | some v => (c.dec v).map inj
  ok a := match proj a with
    | some b => c.ok b
    | none => False
  depth := c.depth

/-- Is this a name of the variant?
External crate `serde_derive`, behind protocol/msg.rs:94-266, error.rs:21-203, qos_nsm/src/types.rs:17-311. -/
def named {α : Type} (v : JVariant α) (s : String) : Bool := (v.name :: v.aliases).contains s

end JVariant

namespace JCodec

/-- A derived enum: the bare name of a unit variant, or an object with one member.
External crate `serde_derive`, behind protocol/msg.rs:94-266, error.rs:21-203, qos_nsm/src/types.rs:17-311. -/
def enum {α : Type} (tag : α → Nat) (vs : List (JVariant α)) : JCodec α where
  enc a := match vs[tag a]? with
    | some v => match v.enc a with
      | some x => .obj [(v.name, x)]
      | none => .str v.name
    | none => .null
  dec
    | .str s => match vs.find? fun v => v.named s with
      | some v => v.dec none
      | none => none
    | .obj [(s, x)] => match vs.find? fun v => v.named s with
      | some v => v.dec (some x)
      | none => none
    | _ => none
  ok a := match vs[tag a]? with
    | some v => v.ok a
    | none => False
  depth := (vs.map JVariant.depth).foldr max 0 + 1

/-- A tuple of two.
External crate `serde_derive`, behind protocol/msg.rs:94-266, error.rs:21-203, qos_nsm/src/types.rs:17-311. -/
def tuple2 {α β : Type} (c : JCodec α) (d : JCodec β) : JCodec (α × β) where
  enc ab := .arr [c.enc ab.1, d.enc ab.2]
  dec
    | .arr [x, y] => match c.dec x, d.dec y with
      | some a, some b => some (a, b)
      | _, _ => none
    | _ => none
  ok ab := c.ok ab.1 ∧ d.ok ab.2
  depth := max c.depth d.depth + 1

end JCodec

/-- One variant in Borsh: what follows the tag byte.
External crate `borsh`, behind protocol/msg.rs:94-266, error.rs:21-203, qos_nsm/src/types.rs:17-311. -/
structure BVariant (α : Type) where
  enc : α → Bytes
  dec : Bytes → Option (α × Bytes)
  ok : α → Prop

namespace BVariant

/-- A unit variant.
External crate `borsh`, behind protocol/msg.rs:94-266, error.rs:21-203, qos_nsm/src/types.rs:17-311. -/
def unit {α : Type} (a : α) : BVariant α where
  enc _ := []
  dec bs := some (a, bs)
  ok _ := True

/-- A variant with data.
External crate `borsh`, behind protocol/msg.rs:94-266, error.rs:21-203, qos_nsm/src/types.rs:17-311. -/
def data {α β : Type} (c : Borsh.Codec β) (inj : β → α) (proj : α → Option β) : BVariant α where
  enc a := match proj a with
    | some b => c.enc b
    | none => []
  dec bs := match c.dec bs with
    | some (b, r) => some (inj b, r)
    | none => none
  ok a := match proj a with
    | some b => c.ok b
    | none => False

end BVariant

namespace Borsh

/-- A derived enum: one tag byte, then the variant.
External crate `borsh`, behind protocol/msg.rs:94-266, error.rs:21-203, qos_nsm/src/types.rs:17-311. -/
def enum {α : Type} (tag : α → Nat) (vs : List (BVariant α)) : Codec α where
  enc a := match vs[tag a]? with
    | some v => UInt8.ofNat (tag a) :: v.enc a
    | none => []
  dec
    | t :: r => match vs[t.toNat]? with
      | some v => v.dec r
      | none => none
    | [] => none
  ok a := match vs[tag a]? with
    | some v => v.ok a
    | none => False

/-- `BTreeSet<u16>`: written as the sequence of its elements in order; reading collects whatever comes
(the `de_strict_order` feature is off). A set is the strictly increasing list of its elements.
qos_nsm/src/types.rs:242-311, `DescribeNSM`. -/
def sortSet (l : List UInt16) : List UInt16 :=
  (l.mergeSort (fun a b => a ≤ b)).dedup

/-- Is the list the element list of a set? qos_nsm/src/types.rs:242-311, `DescribeNSM`. -/
def IsSet (l : List UInt16) : Prop := l.Pairwise (· < ·)

/-- `BTreeSet<u16>` in Borsh. qos_nsm/src/types.rs:242-311, `DescribeNSM`. -/
def setU16 : Codec (List UInt16) where
  enc := (vec u16).enc
  dec bs := match (vec u16).dec bs with
    | some (l, r) => some (sortSet l, r)
    | none => none
  ok l := (vec u16).ok l ∧ IsSet l

end Borsh

/-- `BTreeSet<u16>` through `string_or_numeric` (qos_json/src/lib.rs:171-315). -/
def JCodec.setU16 : JCodec (List UInt16) where
  enc := (vec u16).enc
  dec v := ((vec u16).dec v).map Borsh.sortSet
  ok l := Borsh.IsSet l
  depth := 1

/-! ## Names of unit variants -/

/-- A unit variant in both forms. The derives of protocol/msg.rs:87-95. -/
abbrev both {α : Type} (name : String) (a : α) : JVariant α × BVariant α := (.unit name a, .unit a)

/-- A variant with data in both forms. The derives of protocol/msg.rs:87-95. -/
abbrev bothData {α β : Type} (name : String) (c : JCodec β) (d : Borsh.Codec β) (inj : β → α)
    (proj : α → Option β) : JVariant α × BVariant α := (.data name c inj proj, .data d inj proj)

/-! ## Phases, device types and errors -/

/-- `ProtocolPhase` (state.rs:22-52) with its aliases. -/
def Phase.variants : List (JVariant Phase × BVariant Phase) :=
  [(.unit "UnrecoverableError" .unrecoverableError ["unrecoverableError"], .unit .unrecoverableError),
   (.unit "WaitingForBootInstruction" .waitingForBootInstruction ["waitingForBootInstruction"],
     .unit .waitingForBootInstruction),
   (.unit "GenesisBooted" .genesisBooted ["genesisBooted"], .unit .genesisBooted),
   (.unit "WaitingForQuorumShards" .waitingForQuorumShards ["waitingForQuorumShards"], .unit .waitingForQuorumShards),
   (.unit "QuorumKeyProvisioned" .quorumKeyProvisioned ["quorumKeyProvisioned"], .unit .quorumKeyProvisioned),
   (.unit "WaitingForForwardedKey" .waitingForForwardedKey ["waitingForForwardedKey"], .unit .waitingForForwardedKey)]

/-- `ProtocolPhase` in JSON. state.rs:21-52. -/
def JCodec.phase : JCodec Phase := enum Phase.ctorIdx (Phase.variants.map Prod.fst)
/-- `ProtocolPhase` in Borsh. state.rs:21-52. -/
def Borsh.phase : Borsh.Codec Phase := enum Phase.ctorIdx (Phase.variants.map Prod.snd)

/-- `NsmErrorCode` (qos_nsm/src/types.rs:21-41). -/
def NsmErrorCode.variants : List (JVariant NsmErrorCode × BVariant NsmErrorCode) :=
  [both "Success" .success, both "InvalidArgument" .invalidArgument, both "InvalidIndex" .invalidIndex,
   both "InvalidResponse" .invalidResponse, both "ReadOnlyIndex" .readOnlyIndex,
   both "InvalidOperation" .invalidOperation, both "BufferTooSmall" .bufferTooSmall,
   both "InputTooLarge" .inputTooLarge, both "InternalError" .internalError]

/-- `NsmErrorCode` in JSON. qos_nsm/src/types.rs:17-41. -/
def JCodec.nsmErrorCode : JCodec NsmErrorCode := enum NsmErrorCode.ctorIdx (NsmErrorCode.variants.map Prod.fst)
/-- `NsmErrorCode` in Borsh. qos_nsm/src/types.rs:17-41. -/
def Borsh.nsmErrorCode : Borsh.Codec NsmErrorCode := enum NsmErrorCode.ctorIdx (NsmErrorCode.variants.map Prod.snd)

/-- `NsmDigest` (qos_nsm/src/types.rs:89-96). -/
def NsmDigest.variants : List (JVariant NsmDigest × BVariant NsmDigest) :=
  [both "SHA256" .sha256, both "SHA384" .sha384, both "SHA512" .sha512]

/-- `NsmDigest` in JSON. qos_nsm/src/types.rs:84-96. -/
def JCodec.nsmDigest : JCodec NsmDigest := enum NsmDigest.ctorIdx (NsmDigest.variants.map Prod.fst)
/-- `NsmDigest` in Borsh. qos_nsm/src/types.rs:84-96. -/
def Borsh.nsmDigest : Borsh.Codec NsmDigest := enum NsmDigest.ctorIdx (NsmDigest.variants.map Prod.snd)

/-- `NsmResponse` (qos_nsm/src/types.rs:242-311): variants renamed to camelCase, fields as in Rust. -/
def NsmResponse.variants : List (JVariant NsmResponse × BVariant NsmResponse) :=
  [bothData "describePCR" (.struct false (.both (.req "lock" .bool) (.req "data" .hexVec)))
     (Borsh.pair Borsh.bool Borsh.bytes) (fun x => .describePCR x.1 x.2) (fun | .describePCR l d => some (l, d) | _ => none),
   bothData "extendPCR" (.struct false (.req "data" .hexVec)) Borsh.bytes .extendPCR
     (fun | .extendPCR d => some d | _ => none),
   both "lockPCR" .lockPCR,
   both "lockPCRs" .lockPCRs,
   bothData "describeNSM"
     (.struct false (.both (.req "version_major" .u16) (.both (.req "version_minor" .u16)
       (.both (.req "version_patch" .u16) (.both (.req "module_id" .string) (.both (.req "max_pcrs" .u16)
         (.both (.req "locked_pcrs" .setU16) (.req "digest" .nsmDigest))))))))
     (Borsh.pair Borsh.u16 (Borsh.pair Borsh.u16 (Borsh.pair Borsh.u16 (Borsh.pair Borsh.string (Borsh.pair Borsh.u16 (Borsh.pair Borsh.setU16 Borsh.nsmDigest))))))
     (fun x => .describeNSM x.1 x.2.1 x.2.2.1 x.2.2.2.1 x.2.2.2.2.1 x.2.2.2.2.2.1 x.2.2.2.2.2.2)
     (fun | .describeNSM a b c d e f g => some (a, b, c, d, e, f, g) | _ => none),
   bothData "attestation" (.struct false (.req "document" .hexVec)) Borsh.bytes .attestation
     (fun | .attestation d => some d | _ => none),
   bothData "getRandom" (.struct false (.req "random" .hexVec)) Borsh.bytes .getRandom
     (fun | .getRandom d => some d | _ => none),
   bothData "error" .nsmErrorCode Borsh.nsmErrorCode .error (fun | .error e => some e | _ => none)]

/-- `NsmResponse` in JSON. qos_nsm/src/types.rs:242-311. -/
def JCodec.nsmResponse : JCodec NsmResponse := enum NsmResponse.ctorIdx (NsmResponse.variants.map Prod.fst)
/-- `NsmResponse` in Borsh. qos_nsm/src/types.rs:242-311. -/
def Borsh.nsmResponse : Borsh.Codec NsmResponse := enum NsmResponse.ctorIdx (NsmResponse.variants.map Prod.snd)

/-- `P256Error` (qos_p256/src/lib.rs:44-90). -/
def P256Error.variants : List (JVariant P256Error × BVariant P256Error) :=
  [bothData "QosHex" .string Borsh.string .qosHex (fun | .qosHex e => some e | _ => none),
   bothData "IOError" .string Borsh.string .ioError (fun | .ioError e => some e | _ => none),
   both "FailedToSerializeEnvelope" .failedToSerializeEnvelope,
   both "FailedToDeserializeEnvelope" .failedToDeserializeEnvelope,
   both "AesGcm256DecryptError" .aesGcm256DecryptError,
   both "AesGcm256EncryptError" .aesGcm256EncryptError,
   both "FailedToCreateAes256GcmCipher" .failedToCreateAes256GcmCipher,
   both "FailedToDeserializePublicKey" .failedToDeserializePublicKey,
   both "FailedToCoercePublicKeyToIntendedLength" .failedToCoercePublicKeyToIntendedLength,
   both "FailedToCoerceNonceToIntendedLength" .failedToCoerceNonceToIntendedLength,
   both "FailedToDeserializeSignature" .failedToDeserializeSignature,
   both "FailedSignatureVerification" .failedSignatureVerification,
   both "FailedToReadSecret" .failedToReadSecret,
   both "FailedToReadPublicKey" .failedToReadPublicKey,
   both "EncodedPublicKeyTooLong" .encodedPublicKeyTooLong,
   both "EncodedPublicKeyTooShort" .encodedPublicKeyTooShort,
   both "HkdfExpansionFailed" .hkdfExpansionFailed,
   both "MasterSeedInvalidUtf8" .masterSeedInvalidUtf8,
   both "MasterSeedInvalidLength" .masterSeedInvalidLength,
   both "InvalidMasterSeed" .invalidMasterSeed,
   both "CannotCoerceLenToU8" .cannotCoerceLenToU8]

/-- `P256Error` in JSON. qos_p256/src/lib.rs:43-91. -/
def JCodec.p256Error : JCodec P256Error := enum P256Error.ctorIdx (P256Error.variants.map Prod.fst)
/-- `P256Error` in Borsh. qos_p256/src/lib.rs:43-91. -/
def Borsh.p256Error : Borsh.Codec P256Error := enum P256Error.ctorIdx (P256Error.variants.map Prod.snd)

/-- The struct variants with two texts `expected`, `actual`. error.rs:21-203. -/
def JCodec.expectedActual : JCodec (String × String) :=
  .struct false (.both (.req "expected" .string) (.req "actual" .string))

/-- A variant with two texts. error.rs:21-203. -/
abbrev texts (name : String) (inj : String → String → ProtocolError)
    (proj : ProtocolError → Option (String × String)) : JVariant ProtocolError × BVariant ProtocolError :=
  bothData name .expectedActual (Borsh.pair Borsh.string Borsh.string) (fun x => inj x.1 x.2) proj

/-- `ProtocolError` (error.rs:21-203), no renaming. -/
def ProtocolError.variants : List (JVariant ProtocolError × BVariant ProtocolError) :=
  [both "InvalidShare" .invalidShare,
   both "ReconstructionErrorEmptySecret" .reconstructionErrorEmptySecret,
   both "ReconstructionErrorIncorrectPubKey" .reconstructionErrorIncorrectPubKey,
   both "IOError" .ioError,
   bothData "InvalidManifestApproval" .approval Borsh.approval .invalidManifestApproval
     (fun | .invalidManifestApproval a => some a | _ => none),
   both "NotEnoughApprovals" .notEnoughApprovals,
   bothData "NoMatchingRoute" .phase Borsh.phase .noMatchingRoute (fun | .noMatchingRoute p => some p | _ => none),
   texts "InvalidPivotHash" .invalidPivotHash (fun | .invalidPivotHash a b => some (a, b) | _ => none),
   both "OversizeMsg" .oversizeMsg,
   both "InvalidMsg" .invalidMsg,
   both "EnclaveClient" .enclaveClient,
   both "DecryptionFailed" .decryptionFailed,
   both "InvalidPrivateKey" .invalidPrivateKey,
   both "FailedToParseFromString" .failedToParseFromString,
   both "BadEphemeralKeyPath" .badEphemeralKeyPath,
   both "CannotModifyPostPivotStatic" .cannotModifyPostPivotStatic,
   bothData "FailedToGetEphemeralKey" .p256Error Borsh.p256Error .failedToGetEphemeralKey
     (fun | .failedToGetEphemeralKey e => some e | _ => none),
   both "FailedToPutEphemeralKey" .failedToPutEphemeralKey,
   both "CannotRotateNonExistentEphemeralKey" .cannotRotateNonExistentEphemeralKey,
   bothData "CannotDeleteEphemeralKey" .string Borsh.string .cannotDeleteEphemeralKey
     (fun | .cannotDeleteEphemeralKey e => some e | _ => none),
   bothData "FailedToGetQuorumKey" .p256Error Borsh.p256Error .failedToGetQuorumKey
     (fun | .failedToGetQuorumKey e => some e | _ => none),
   both "FailedToPutQuorumKey" .failedToPutQuorumKey,
   both "FailedToGetManifestEnvelope" .failedToGetManifestEnvelope,
   both "FailedToPutManifestEnvelope" .failedToPutManifestEnvelope,
   both "FailedToPutPivot" .failedToPutPivot,
   both "AppClientRecvTimeout" .appClientRecvTimeout,
   both "AppClientRecvInterrupted" .appClientRecvInterrupted,
   both "AppClientRecvConnectionClosed" .appClientRecvConnectionClosed,
   bothData "AppClientConnectError" .string Borsh.string .appClientConnectError
     (fun | .appClientConnectError e => some e | _ => none),
   bothData "AppClientSendError" .string Borsh.string .appClientSendError
     (fun | .appClientSendError e => some e | _ => none),
   bothData "AppClientError" .string Borsh.string .appClientError (fun | .appClientError e => some e | _ => none),
   both "OversizedPayload" .oversizedPayload,
   both "ProtocolMsgDeserialization" .protocolMsgDeserialization,
   both "BadShareSetApprovals" .badShareSetApprovals,
   both "CouldNotVerifyApproval" .couldNotVerifyApproval,
   both "NotShareSetMember" .notShareSetMember,
   both "NotManifestSetMember" .notManifestSetMember,
   bothData "P256Error" .p256Error Borsh.p256Error .p256Error (fun | .p256Error e => some e | _ => none),
   bothData "InvalidP256DRKey" .p256Error Borsh.p256Error .invalidP256DRKey (fun | .invalidP256DRKey e => some e | _ => none),
   both "IncorrectSecretLen" .incorrectSecretLen,
   bothData "QosAttestError" .string Borsh.string .qosAttestError (fun | .qosAttestError e => some e | _ => none),
   texts "DifferentQuorumKey" .differentQuorumKey (fun | .differentQuorumKey a b => some (a, b) | _ => none),
   texts "DifferentManifestSet" .differentManifestSet (fun | .differentManifestSet a b => some (a, b) | _ => none),
   texts "DifferentNamespaceName" .differentNamespaceName
     (fun | .differentNamespaceName a b => some (a, b) | _ => none),
   bothData "LowNonce" (.struct false (.both (.req "expected" .u32) (.req "actual" .u32))) (Borsh.pair Borsh.u32 Borsh.u32)
     (fun x => .lowNonce x.1 x.2) (fun | .lowNonce a b => some (a, b) | _ => none),
   texts "DifferentPcr3" .differentPcr3 (fun | .differentPcr3 a b => some (a, b) | _ => none),
   both "MissingEphemeralKey" .missingEphemeralKey,
   both "InvalidEphemeralKey" .invalidEphemeralKey,
   both "InvalidEncryptedQuorumKeySignature" .invalidEncryptedQuorumKeySignature,
   both "EncryptedQuorumKeyInvalidLen" .encryptedQuorumKeyInvalidLen,
   both "InvalidQuorumSecret" .invalidQuorumSecret,
   both "WrongQuorumKey" .wrongQuorumKey,
   bothData "InvalidStateTransition" (.tuple2 .phase .phase) (Borsh.pair Borsh.phase Borsh.phase)
     (fun x => .invalidStateTransition x.1 x.2) (fun | .invalidStateTransition a b => some (a, b) | _ => none),
   both "DuplicateApproval" .duplicateApproval,
   texts "DifferentManifest" .differentManifest (fun | .differentManifest a b => some (a, b) | _ => none),
   bothData "QosCrypto" .string Borsh.string .qosCrypto (fun | .qosCrypto e => some e | _ => none),
   both "PoolExpandError" .poolExpandError,
   bothData "InvalidPivotEnv" .string Borsh.string .invalidPivotEnv (fun | .invalidPivotEnv e => some e | _ => none),
   both "MissingLiveEphemeralKey" .missingLiveEphemeralKey,
   both "DuplicateQuorumMember" .duplicateQuorumMember,
   both "LegacyGenesisNotSupported" .legacyGenesisNotSupported]

/-- `ProtocolError` in JSON. error.rs:21-203. -/
def JCodec.protocolError : JCodec ProtocolError := enum ProtocolError.ctorIdx (ProtocolError.variants.map Prod.fst)
/-- `ProtocolError` in Borsh. error.rs:21-203. -/
def Borsh.protocolError : Borsh.Codec ProtocolError :=
  enum ProtocolError.ctorIdx (ProtocolError.variants.map Prod.snd)

/-! ## Genesis types in JSON (genesis.rs:18-160) -/

namespace JCodec
open Services

/-- `GenesisSet`. genesis.rs:26-34. -/
def genesisSet : JCodec GenesisSet :=
  struct false <| .imap (fun x => ⟨x.1, x.2⟩) (fun s => (s.members, s.threshold))
    (.both (.req "members" (vec quorumMember)) (.req "threshold" u32))

/-- `GenesisMemberOutput` (camelCase). genesis.rs:84-96. -/
def memberOutput : JCodec MemberOutput :=
  struct false <| .imap (fun x => ⟨x.1, x.2.1, x.2.2⟩) (fun o => (o.member, o.encryptedShare, o.shareHash))
    (.both (.req "shareSetMember" quorumMember) (.both (.req "encryptedQuorumKeyShare" hexVec)
      (.req "shareHash" (hexArray 64))))

/-- `MemberShard`. genesis.rs:36-51. -/
def memberShard : JCodec MemberShard :=
  struct false <| .imap (fun x => ⟨x.1, x.2⟩) (fun o => (o.member, o.shard))
    (.both (.req "member" quorumMember) (.req "shard" hexVec))

/-- `GenesisOutput`; `RecoveredPermutation` is a newtype. genesis.rs:64-161. -/
def genesisOutput : JCodec GenesisOutput :=
  struct false <| .imap
    (fun x => ⟨x.1, x.2.1, x.2.2.1, x.2.2.2.1, x.2.2.2.2.1, x.2.2.2.2.2.1, x.2.2.2.2.2.2.1, x.2.2.2.2.2.2.2.1,
      x.2.2.2.2.2.2.2.2.1, x.2.2.2.2.2.2.2.2.2⟩)
    (fun o => (o.set, o.drKey, o.quorumKey, o.memberOutputs, o.recoveryPermutations, o.drKeyWrappedQuorumKey,
      o.quorumKeyHash, o.testMessageCiphertext, o.testMessageSignature, o.testMessage))
    (.both (.req "set" genesisSet) (.both (.opt "dr_key" hexVec) (.both (.req "quorum_key" hexVec)
      (.both (.req "member_outputs" (vec memberOutput)) (.both (.req "recovery_permutations" (vec (vec memberShard)))
        (.both (.opt "dr_key_wrapped_quorum_key" hexVec) (.both (.req "quorum_key_hash" (hexArray 64))
          (.both (.req "test_message_ciphertext" hexVec) (.both (.req "test_message_signature" hexVec)
            (.req "test_message" hexVec))))))))))

/-- `VersionedManifestEnvelope` inside a message (`#[serde(untagged)]`, boot/manifest.rs:292-301). -/
def envelope : JCodec Envelope where
  enc := Envelope.encUntagged
  dec := Envelope.decUntagged
  ok := Envelope.Ok
  depth := max envelopeV2.depth (max envelopeV1.depth envelopeV0.depth)

end JCodec

namespace Borsh

/-- `VersionedManifestEnvelope` inside a message: `deserialize_reader` reads to the end of the input
(boot/manifest.rs:356-364), V2 has no form (341-354). -/
def envelope : Codec Envelope where
  enc e := (encodeEnvelope e).getD []
  dec bs := (decodeEnvelope bs).map fun e => (e, [])
  ok
    | .v2 _ => False
    | .v1 e => (envelopeOf manifest).ok e
    | .v0 e => (envelopeOf manifestV0).ok e

/-- `JsonBytes<VersionedManifestEnvelope>` (msg.rs:18-74): `serde_json` bytes with a length. -/
def jsonEnvelope : Codec Envelope where
  enc e := bytes.enc (Json.writeBytes e.encUntagged)
  dec bs := match bytes.dec bs with
    | some (b, r) => match fromJsonSlice JCodec.envelope b with
      | some e => some (e, r)
      | none => none
    | none => none
  ok e := e.Ok ∧ bytes.ok (Json.writeBytes e.encUntagged)

end Borsh

/-! ## Messages (msg.rs:87-262) -/

open Services in
/-- The variants of `ProtocolMsg` in JSON: names in camelCase, fields as in Rust. The last variant is
`#[serde(skip)]` and has no JSON form. msg.rs:94-266. -/
def Msg.jvariants : List (JVariant Msg) :=
  [.data "protocolErrorResponse" .protocolError .protocolErrorResponse
     (fun | .protocolErrorResponse e => some e | _ => none),
   .unit "statusRequest" .statusRequest,
   .data "statusResponse" .phase .statusResponse (fun | .statusResponse p => some p | _ => none),
   .data "bootStandardRequest" (.struct false (.both (.req "manifest_envelope" .envelope) (.req "pivot" .hexVec)))
     (fun x => .bootStandardRequest x.1 x.2) (fun | .bootStandardRequest e p => some (e, p) | _ => none),
   .data "bootStandardResponse" (.struct false (.req "nsm_response" .nsmResponse)) .bootStandardResponse
     (fun | .bootStandardResponse r => some r | _ => none),
   .data "bootGenesisRequest" (.struct false (.both (.req "set" .genesisSet) (.opt "dr_key" .hexVec)))
     (fun x => .bootGenesisRequest x.1 x.2) (fun | .bootGenesisRequest s k => some (s, k) | _ => none),
   .data "bootGenesisResponse" (.struct false (.both (.req "nsm_response" .nsmResponse)
       (.req "genesis_output" .genesisOutput)))
     (fun x => .bootGenesisResponse x.1 x.2) (fun | .bootGenesisResponse r o => some (r, o) | _ => none),
   .data "provisionRequest" (.struct false (.both (.req "share" .hexVec) (.req "approval" .approval)))
     (fun x => .provisionRequest x.1 x.2) (fun | .provisionRequest s a => some (s, a) | _ => none),
   .data "provisionResponse" (.struct false (.req "reconstructed" .bool)) .provisionResponse
     (fun | .provisionResponse b => some b | _ => none),
   .data "proxyRequest" (.struct false (.req "data" .hexVec)) .proxyRequest
     (fun | .proxyRequest d => some d | _ => none),
   .data "proxyResponse" (.struct false (.req "data" .hexVec)) .proxyResponse
     (fun | .proxyResponse d => some d | _ => none),
   .unit "liveAttestationDocRequest" .liveAttestationDocRequest,
   .data "liveAttestationDocResponse" (.struct false (.both (.req "nsm_response" .nsmResponse)
       (.opt "manifest_envelope" .envelope)))
     (fun x => .liveAttestationDocResponse x.1 x.2)
     (fun | .liveAttestationDocResponse r e => some (r, e) | _ => none),
   .data "bootKeyForwardRequest" (.struct false (.both (.req "manifest_envelope" .envelope) (.req "pivot" .hexVec)))
     (fun x => .bootKeyForwardRequest x.1 x.2) (fun | .bootKeyForwardRequest e p => some (e, p) | _ => none),
   .data "bootKeyForwardResponse" (.struct false (.req "nsm_response" .nsmResponse)) .bootKeyForwardResponse
     (fun | .bootKeyForwardResponse r => some r | _ => none),
   .data "exportKeyRequest" (.struct false (.both (.req "manifest_envelope" .envelope)
       (.req "cose_sign1_attestation_doc" .hexVec)))
     (fun x => .exportKeyRequest x.1 x.2) (fun | .exportKeyRequest e d => some (e, d) | _ => none),
   .data "exportKeyResponse" (.struct false (.both (.req "encrypted_quorum_key" .hexVec) (.req "signature" .hexVec)))
     (fun x => .exportKeyResponse x.1 x.2) (fun | .exportKeyResponse k s => some (k, s) | _ => none),
   .data "injectKeyRequest" (.struct false (.both (.req "encrypted_quorum_key" .hexVec) (.req "signature" .hexVec)))
     (fun x => .injectKeyRequest x.1 x.2) (fun | .injectKeyRequest k s => some (k, s) | _ => none),
   .unit "injectKeyResponse" .injectKeyResponse,
   .unit "manifestEnvelopeRequest" .manifestEnvelopeRequest,
   .data "manifestEnvelopeResponse" (.struct false (.opt "manifest_envelope" .envelope)) .manifestEnvelopeResponse
     (fun | .manifestEnvelopeResponse e => some e | _ => none),
   .unit "versionRequest" .versionRequest,
   .data "versionResponse" (.struct false (.both (.req "version" .string) (.req "commit" .string)))
     (fun x => .versionResponse x.1 x.2) (fun | .versionResponse v c => some (v, c) | _ => none)]

/-- `ProtocolMsg` in JSON. msg.rs:94-266. -/
def JCodec.msg : JCodec Msg := enum Msg.ctorIdx Msg.jvariants

open Services in
/-- The variants of `ProtocolMsg` in Borsh. msg.rs:94-266. -/
def Msg.bvariants : List (BVariant Msg) :=
  [.data Borsh.protocolError .protocolErrorResponse (fun | .protocolErrorResponse e => some e | _ => none),
   .unit .statusRequest,
   .data Borsh.phase .statusResponse (fun | .statusResponse p => some p | _ => none),
   .data (Borsh.pair Borsh.envelope Borsh.bytes) (fun x => .bootStandardRequest x.1 x.2)
     (fun | .bootStandardRequest e p => some (e, p) | _ => none),
   .data Borsh.nsmResponse .bootStandardResponse (fun | .bootStandardResponse r => some r | _ => none),
   .data (Borsh.pair genesisSetCodec (Borsh.option Borsh.bytes)) (fun x => .bootGenesisRequest x.1 x.2)
     (fun | .bootGenesisRequest s k => some (s, k) | _ => none),
   .data (Borsh.pair Borsh.nsmResponse genesisOutputCodec) (fun x => .bootGenesisResponse x.1 x.2)
     (fun | .bootGenesisResponse r o => some (r, o) | _ => none),
   .data (Borsh.pair Borsh.bytes Borsh.approval) (fun x => .provisionRequest x.1 x.2)
     (fun | .provisionRequest s a => some (s, a) | _ => none),
   .data Borsh.bool .provisionResponse (fun | .provisionResponse b => some b | _ => none),
   .data Borsh.bytes .proxyRequest (fun | .proxyRequest d => some d | _ => none),
   .data Borsh.bytes .proxyResponse (fun | .proxyResponse d => some d | _ => none),
   .unit .liveAttestationDocRequest,
   .data (Borsh.pair Borsh.nsmResponse (Borsh.option Borsh.envelope)) (fun x => .liveAttestationDocResponse x.1 x.2)
     (fun | .liveAttestationDocResponse r e => some (r, e) | _ => none),
   .data (Borsh.pair Borsh.envelope Borsh.bytes) (fun x => .bootKeyForwardRequest x.1 x.2)
     (fun | .bootKeyForwardRequest e p => some (e, p) | _ => none),
   .data Borsh.nsmResponse .bootKeyForwardResponse (fun | .bootKeyForwardResponse r => some r | _ => none),
   .data (Borsh.pair Borsh.envelope Borsh.bytes) (fun x => .exportKeyRequest x.1 x.2)
     (fun | .exportKeyRequest e d => some (e, d) | _ => none),
   .data (Borsh.pair Borsh.bytes Borsh.bytes) (fun x => .exportKeyResponse x.1 x.2)
     (fun | .exportKeyResponse k s => some (k, s) | _ => none),
   .data (Borsh.pair Borsh.bytes Borsh.bytes) (fun x => .injectKeyRequest x.1 x.2)
     (fun | .injectKeyRequest k s => some (k, s) | _ => none),
   .unit .injectKeyResponse,
   .unit .manifestEnvelopeRequest,
   .data (Borsh.option Borsh.envelope) .manifestEnvelopeResponse (fun | .manifestEnvelopeResponse e => some e | _ => none),
   .unit .versionRequest,
   .data (Borsh.pair Borsh.string Borsh.string) (fun x => .versionResponse x.1 x.2)
     (fun | .versionResponse v c => some (v, c) | _ => none),
   .data (Borsh.pair Borsh.jsonEnvelope Borsh.bytes) (fun x => .bootStandardJsonEnvelopeRequest x.1 x.2)
     (fun | .bootStandardJsonEnvelopeRequest e p => some (e, p) | _ => none)]

/-- `ProtocolMsg` in Borsh. msg.rs:94-266. -/
def Borsh.msg : Borsh.Codec Msg := enum Msg.ctorIdx Msg.bvariants

namespace Wire
open Services StateMachine

/-- `ProtocolMsgEncoding` (msg.rs:78-84). -/
inductive Encoding where
  | json | borsh
  deriving DecidableEq

/-- `is_genesis` (msg.rs:271-276). -/
def isGenesis : Msg → Bool
  | .bootGenesisRequest _ _ => true
  | .bootGenesisResponse _ _ => true
  | _ => false

/-- `ProtocolMsg::from_wire` (msg.rs:291-305). -/
def fromWire (bs : Bytes) : Except ProtocolError (Msg × Encoding) :=
  match fromJsonSlice JCodec.msg bs with
  | some m => .ok (m, .json)
  | none => match Borsh.tryFromSlice Borsh.msg bs with
    | none => .error .protocolMsgDeserialization
    | some m => if isGenesis m then .error .legacyGenesisNotSupported else .ok (m, .borsh)

/-- `qos_json::to_vec` of a message (qos_json/src/lib.rs:22-25): the `#[serde(skip)]` variant is an error. -/
def toJson : Msg → Option Bytes
  | .bootStandardJsonEnvelopeRequest _ _ => none
  | m => Json.canonBytes (JCodec.msg.enc m)

open Classical in
/-- `borsh::to_vec` of a message: an error exactly when the message has no Borsh form (a V2 envelope, or a length
that does not fit `u32`). External crate `borsh`, called at msg.rs:329-344. -/
noncomputable def toBorsh (m : Msg) : Option Bytes := if Borsh.msg.ok m then some (Borsh.msg.enc m) else none

/-- `map_err(|_| e)`. msg.rs:291-344. -/
def orErr {α : Type} (x : Option α) (e : ProtocolError) : Except ProtocolError α :=
  match x with
  | some a => .ok a
  | none => .error e

/-- `ProtocolMsg::to_wire` (msg.rs:329-344). -/
noncomputable def toWire (m : Msg) : Encoding → Except ProtocolError Bytes
  | .json => orErr (toJson m) .invalidMsg
  | .borsh => if isGenesis m then .error .legacyGenesisNotSupported else orErr (toBorsh m) .invalidMsg

/-- `MAX_ENCODED_MSG_LEN` (protocol/mod.rs:21-21). -/
def maxEncodedMsgLen : Nat := 128 * (1024 * 1024)

/-- An error answer: `to_json_wire().expect(…)` (processor.rs:28-31, 36-39, 46-49). `none` is a panic. -/
def errorAnswer (e : ProtocolError) : Option Bytes := toJson (.protocolErrorResponse e)

/-- `response.to_wire(encoding).unwrap_or_else(…)` (processor.rs:45-50). -/
noncomputable def answer (resp : Msg) (enc : Encoding) : Option Bytes :=
  match toWire resp enc with
  | .ok b => some b
  | .error _ => errorAnswer .invalidMsg

/-- `ProtocolProcessor::process` (processor.rs:24-50), the write lock being held. `none` is a panic. -/
noncomputable def process (E : Env) (bs : Bytes) (s : St) : Option Bytes × St :=
  if bs.length > maxEncodedMsgLen then (errorAnswer .oversizedPayload, s)
  else match fromWire bs with
    | .error e => (errorAnswer e, s)
    | .ok (m, enc) =>
      let r := handle E m s
      (answer r.1 enc, r.2)

end Wire
end Qos
