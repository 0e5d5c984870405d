import Verif.Conformance.Boot
/-!
# Replay of the tests of the keys and of the write-once files

The tests of qos_p256 (src/lib.rs:484-819, src/encrypt.rs:468-760, src/sign.rs:124-197) and of qos_core/src/handles.rs:332-500,
run on the model with the standard algorithms. Random keys are replaced by fixed ones. Evaluated by Lean's interpreter;
the build stops if one differs. Checks of the model against the program's own tests, not properties.
-/
namespace Qos.Conformance
open P256 (Pair Public)

/-- The two key pairs of the tests. -/
def alice : Pair := testPair 51
/-- The other one. -/
def bob : Pair := testPair 52

/-- The message they sign. -/
def signedText : Bytes := ascii "a message to authenticate"
/-- The message they encrypt. -/
def keyPlainText : Bytes := ascii "rust test message"

/-- What a call returned. -/
def erred {ε α : Type} : Except ε α → Option ε
  | .ok _ => none
  | .error e => some e

/-! ## lib.rs:484-819 and sign.rs:124-197 -/

/-! `public_key_component_bytes_match_combined_encoding`, `public_key_bytes_roundtrip`, `public_key_to_file_roundtrip`. -/
#eval check ((alice.publicKey realPrims).enc ++ (alice.publicKey realPrims).sign == (alice.publicKey realPrims).toBytes &&
  (alice.publicKey realPrims).toBytes.length == 130 &&
  (Public.fromBytes realPrims (alice.publicKey realPrims).toBytes).toOption == some (alice.publicKey realPrims) &&
  ((Hex.decode (Hex.encode (alice.publicKey realPrims).toBytes)).toOption.bind fun b =>
    (Public.fromBytes realPrims b).toOption) == some (alice.publicKey realPrims))
/-! `sign_and_verification_works`, `verification_rejects_wrong_signature` (both files). -/
#eval check (erred ((alice.publicKey realPrims).verify realPrims signedText (alice.sign realPrims signedText)) == none &&
  erred ((bob.publicKey realPrims).verify realPrims signedText (alice.sign realPrims signedText)) == some .failedSignatureVerification)
/-! `basic_encrypt_decrypt_works`, `wrong_receiver_cannot_decrypt`. -/
#eval check ((alice.decrypt realPrims (sealFor 51 7 keyPlainText)).toOption == some keyPlainText &&
  erred (bob.decrypt realPrims (sealFor 51 7 keyPlainText)) == some .aesGcm256DecryptError)
/-! `master_seed_bytes_roundtrip`, `master_seed_to_file_round_trip`, `aes_gcm_256_secret_accessor_…`. -/
#eval check ((Pair.fromMasterSeed realPrims alice.seed).toOption == some alice &&
  (Pair.fromHexContents realPrims alice.toMasterSeedHex).toOption == some alice &&
  alice.aesSecret == realPrims.hkdf (ascii "qos_aes_gcm_encrypt") alice.seed)
/-! `from_hex_file_returns_opaque_error_for_invalid_master_seed`. -/
#eval check (erred (Pair.fromHexContents realPrims (ascii "not a valid seed")) == some .invalidMasterSeed)

/-! ## encrypt.rs:468-658 -/

/-- The envelope of the tests, changed. -/
def changed (f : P256.Sealed → P256.Sealed) : Bytes :=
  match Borsh.tryFromSlice P256.sealedCodec (sealFor 51 7 keyPlainText) with
  | some s => P256.sealedCodec.enc (f s)
  | none => []

/-! `tampered_encrypted_message_fails`, `tampered_nonce_errors`, `tampered_ephemeral_sender_key_errors`,
`tampered_envelope_errors`; unchanged, it opens. -/
#eval check ((alice.decrypt realPrims (changed id)).toOption == some keyPlainText &&
  erred (alice.decrypt realPrims (changed fun s => { s with encryptedMessage := s.encryptedMessage ++ [0] })) == some .aesGcm256DecryptError &&
  erred (alice.decrypt realPrims (changed fun s => { s with nonce := s.nonce.set 0 0 })) == some .aesGcm256DecryptError &&
  erred (alice.decrypt realPrims (changed fun s => { s with senderPublic := s.senderPublic.set 0 0 })) == some .failedToDeserializePublicKey &&
  erred (alice.decrypt realPrims ((sealFor 51 7 keyPlainText).take 12 ++ [0xff] ++ (sealFor 51 7 keyPlainText).drop 12)) ==
    some .failedToDeserializeEnvelope)

/-! ## encrypt.rs:659-760 -/

/-- The symmetric envelope of the tests. -/
def symmetric : Bytes := ((P256.symSeal realPrims alice.aesSecret (List.replicate 12 7) keyPlainText).toOption).getD []

/-- It, changed. -/
def changedSym (f : Bytes × Bytes → Bytes × Bytes) : Bytes :=
  match Borsh.tryFromSlice P256.symCodec symmetric with
  | some s => P256.symCodec.enc (f s)
  | none => []

/-- The first byte, increased. -/
def bump : Bytes → Bytes
  | b :: bs => (b + 1) :: bs
  | [] => []

/-! `encrypt_decrypt_round_trip`, `tampered_nonce_errors`, `tampered_encrypted_payload_errors`, `different_key_cannot_decrypt`. -/
#eval check ((P256.symOpen realPrims alice.aesSecret (changedSym id)).toOption == some keyPlainText &&
  erred (P256.symOpen realPrims alice.aesSecret (changedSym fun s => (bump s.1, s.2))) == some .aesGcm256DecryptError &&
  erred (P256.symOpen realPrims alice.aesSecret (changedSym fun s => (s.1, bump s.2))) == some .aesGcm256DecryptError &&
  erred (P256.symOpen realPrims bob.aesSecret symmetric) == some .aesGcm256DecryptError)

/-! ## handles.rs:332-500 -/

/-- A write once, then again: what the two return, and the state after. -/
def twice (m : M Unit) : Option (Option ProtocolError × Option ProtocolError × St) :=
  match m (St.initial fun _ => none) with
  | (.ok _, s) => match m s with
    | (.ok _, t) => some (none, none, t)
    | (.error e, t) => some (none, some e, t)
  | (.error e, t) => some (some e, none, t)

/-- The second write is refused, the first one is there. -/
def onlyOnce (m : M Unit) (after : St → Bool) : Bool :=
  match twice m with
  | some (none, some e, s) => e == .cannotModifyPostPivotStatic && after s
  | _ => false

/-! `put_ephemeral_key_is_read_only_write`, `put_quorum_key_is_read_only_write`, `put_pivot_is_read_only_write`,
`put_manifest_is_read_only_write`. -/
#eval check (onlyOnce (Handles.putEphemeralKey plainEnv alice) fun s => (Handles.getEphemeralKey plainEnv s).1.toOption == some alice)
#eval check (onlyOnce (Handles.putQuorumKey plainEnv alice) fun s =>
  (fileOf s "quorum").isSome && (Handles.getQuorumKey plainEnv s).1.toOption == some alice)
#eval check (onlyOnce (Handles.putPivot plainEnv bootPivot) fun s => fileOf s "pivot" == some bootPivot)
#eval check (onlyOnce (Handles.putManifestEnvelope plainEnv (.v1 ⟨bootManifest, [], []⟩)) fun s =>
  (Handles.getManifestEnvelope plainEnv s).1.toOption == some (.v1 ⟨bootManifest, [], []⟩))

end Qos.Conformance
