import Verif.Conformance.Real
import Verif.Conformance.Fixtures
import Verif.Model.Client
/-!
# Replay of the recorded genesis ceremony

`src/integration/mock/boot-e2e` holds what a run of the real program left behind: the genesis output, each member's
seed, public key and encrypted share, and the quorum key wrapped to the disaster recovery key. The model, given the
standard cryptographic functions, reads all of it: the shares open, have the recorded hashes, any two give the seed of
the quorum key, the seed has the recorded hash and public key, signs the test message with the recorded signature and
opens the recorded ciphertext. A check of the model against the real program, not a property.
-/
namespace Qos.Conformance
open P256 (Pair)
open Services (genesisOutputCodec GenesisOutput)

/-- The genesis output, as the model reads it. -/
def ceremony : Option GenesisOutput := Borsh.tryFromSlice genesisOutputCodec genesisOutput

/-- Hexadecimal text, as bytes. -/
def unhex (b : Bytes) : Option Bytes := (Hex.decode b).toOption

/-- The file is exactly one `GenesisOutput`, and the model writes it back byte for byte. -/
theorem output_rewritten : ceremony.map genesisOutputCodec.enc = some genesisOutput := by decide +kernel

/-- Three members, two needed, no recovery permutations, the test message of genesis.rs:24. -/
theorem output_set : (ceremony.map fun o => (o.set.threshold, o.set.members.map (·.aliasName), o.memberOutputs.map (·.member) == o.set.members,
    o.recoveryPermutations.length, o.testMessage)) = some (2, ["user1", "user2", "user3"], true, 0, ascii "qos-test-message") := by
  decide +kernel

/-- The quorum key is the one of the namespace's key file. -/
theorem output_quorum_key : ceremony.map (·.quorumKey) = unhex quorumPub := by decide +kernel

/-- The wrapped quorum key is the one in its file, and the disaster recovery key the one in its file. -/
theorem output_dr : (ceremony.bind (·.drKeyWrappedQuorumKey)) = some wrappedQuorumKey ∧ (ceremony.bind (·.drKey)) = unhex drPub := by
  decide +kernel

/-- The seed of the quorum key. -/
def quorumSeed : Bytes := be 32 0x79922ba19779d7a54380ac1c7d3e1f28a0290207d187b7ed49762e431e4e85fc
/-- The members' shares. -/
def share1 : Bytes := be 33 0x01478202ca80a059745cc7aea502c0331d87885583c2adf386a8587395b84f141a
def share2 : Bytes := be 33 0x0205b27977b9d0d01c7d0ea87583d94742ee70ac14f7d33f3b902a94f4494cbc2b
def share3 : Bytes := be 33 0x033ba2501cae095ecd6249aaccfc276b77c9d1fb90e4f97b507104c922ef4d2dcd

/-- The pair `user1`: seed and derived secrets. -/
def user1Pair : Pair := ⟨be 32 0xbe117d2f4b71edf57bc3401a4f39e401883d825b4f9e3e1354cb416f9c153136, be 32 0x27bbe068c766556d22714e56c8ab882190f00cc123f05046f9718214c1e3f05d,
  be 32 0x670858b918447938ec22595c3afaf52c0e65104bcaf1e95501cb7280a3f44a61, be 32 0x2c9d9b5acd4bfcfd785107bb9009ca93edcecf799e8f96a81c8634d09cb9ef1e⟩

/-- Key derivation from the seed file (qos_p256/src/lib.rs:108-118, 243-263, 303-317). -/
theorem user1_pair : Pair.fromHexContents realPrims user1Secret = .ok user1Pair := by decide +kernel

/-- The public key is the one in the key file. -/
theorem user1_public : unhex (user1Pub.take 260) = some (user1Pair.publicKey realPrims).toBytes := by decide +kernel

/-- The member's pair opens the share in the share file, which is the one of the genesis output, with the recorded hash. -/
theorem user1_share : user1Pair.decrypt realPrims user1Share = .ok share1 ∧
    (ceremony.bind fun o => o.memberOutputs[0]?).map (fun m => (m.encryptedShare, m.shareHash)) = some (user1Share, sha512 share1) := by
  decide +kernel

/-- The pair `user2`: seed and derived secrets. -/
def user2Pair : Pair := ⟨be 32 0x2bc9de6ee442119b049b6211adf799fbdde611c4aac7df7be1095c1c821cf5f4, be 32 0xaeea5e6e5b79135ecb69b663ee381ae00d10706e54399699b77d9193aac41422,
  be 32 0x67bde31cc8b7ef2af947b572ca22bed054d8a01a715ff2ba68d3bc8e0f4e5c77, be 32 0x77fa889a3e932c7fe07c94f508c3089f2a9e793e89ea4f4b457c1c6048ac9ff2⟩

/-- Key derivation from the seed file (qos_p256/src/lib.rs:108-118, 243-263, 303-317). -/
theorem user2_pair : Pair.fromHexContents realPrims user2Secret = .ok user2Pair := by decide +kernel

/-- The public key is the one in the key file. -/
theorem user2_public : unhex (user2Pub.take 260) = some (user2Pair.publicKey realPrims).toBytes := by decide +kernel

/-- The member's pair opens the share in the share file, which is the one of the genesis output, with the recorded hash. -/
theorem user2_share : user2Pair.decrypt realPrims user2Share = .ok share2 ∧
    (ceremony.bind fun o => o.memberOutputs[1]?).map (fun m => (m.encryptedShare, m.shareHash)) = some (user2Share, sha512 share2) := by
  decide +kernel

/-- The pair `user3`: seed and derived secrets. -/
def user3Pair : Pair := ⟨be 32 0x01a6e3a3b427fae9c9a7771c1055d209312504a5fcc56ebfa1d1502c9efa86a1, be 32 0x4d030f497695dd69a73171663af552c6eb03d0f6b0b98fdd76de4191c026408b,
  be 32 0xbde18150b20bfa9f8e3dcf5c477e922f2cfe00d8867e8d29be1f871e975b72f9, be 32 0x76ad8476a33a20ce1d9ba3a171b9e7567cf860afc028a8dd65f9107676e6218e⟩

/-- Key derivation from the seed file (qos_p256/src/lib.rs:108-118, 243-263, 303-317). -/
theorem user3_pair : Pair.fromHexContents realPrims user3Secret = .ok user3Pair := by decide +kernel

/-- The public key is the one in the key file. -/
theorem user3_public : unhex (user3Pub.take 260) = some (user3Pair.publicKey realPrims).toBytes := by decide +kernel

/-- The member's pair opens the share in the share file, which is the one of the genesis output, with the recorded hash. -/
theorem user3_share : user3Pair.decrypt realPrims user3Share = .ok share3 ∧
    (ceremony.bind fun o => o.memberOutputs[2]?).map (fun m => (m.encryptedShare, m.shareHash)) = some (user3Share, sha512 share3) := by
  decide +kernel

/-- The pair `dr`: seed and derived secrets. -/
def drPair : Pair := ⟨be 32 0x279de2f653ad81f7f7508a70a2700d9a8a13b0503150df0d7a37c6ef241bb4fb, be 32 0xa9854c62ef5079346fd478078e4e6e70989a4d69ee46b6de6d12ad81ac1b95c2,
  be 32 0xde2f856cf4e0e9466013b6e763b61c8a05d901a9f4068f91036452da98a3b234, be 32 0xfbf9935ccd388a951947be2f8a7e201324c753e3ec4e28542ab751c90885583e⟩

/-- Key derivation from the seed file (qos_p256/src/lib.rs:108-118, 243-263, 303-317). -/
theorem dr_pair : Pair.fromHexContents realPrims drSecret = .ok drPair := by decide +kernel

/-- The public key is the one in the key file. -/
theorem dr_public : unhex (drPub.take 260) = some (drPair.publicKey realPrims).toBytes := by decide +kernel

/-- The disaster recovery pair opens the wrapped quorum key: the seed. -/
theorem dr_opens : drPair.decrypt realPrims wrappedQuorumKey = .ok quorumSeed := by decide +kernel

/-- Any two shares give the seed (qos_crypto/src/shamir.rs). -/
theorem shares_give_seed : Shamir.sharesReconstruct [share1, share2] = .ok quorumSeed ∧ Shamir.sharesReconstruct [share1, share3] = .ok quorumSeed ∧
    Shamir.sharesReconstruct [share3, share2] = .ok quorumSeed ∧ Shamir.sharesReconstruct [share3, share1, share2] = .ok quorumSeed := by
  decide +kernel

/-- The pair `quorum`: seed and derived secrets. -/
def quorumPair : Pair := ⟨be 32 0x79922ba19779d7a54380ac1c7d3e1f28a0290207d187b7ed49762e431e4e85fc, be 32 0x27b46b6ad5531b0936e4b79942159a170707ac252110f6cd6853e16d40773bdc,
  be 32 0x90a42560673b74b4203ba3d789566581b3e838a81aab5488723693ae7312c258, be 32 0xde9ab5c1e19fcc4d0a70118c0cba68d704a55742f6b45f8e24651feecc2b1f4e⟩

/-- Key derivation (qos_p256/src/lib.rs:108-118, 243-263). -/
theorem quorum_pair : Pair.fromMasterSeed realPrims quorumSeed = .ok quorumPair := by decide +kernel

/-- The public key is the one in the key file. -/
theorem quorum_public : unhex (quorumPub.take 260) = some (quorumPair.publicKey realPrims).toBytes := by decide +kernel

/-- The recorded hash is that of the seed's hexadecimal text (genesis.rs:213-219). -/
theorem seed_hash : ceremony.map (·.quorumKeyHash) = some (sha512 (Hex.encode quorumSeed)) := by decide +kernel

/-- The recorded signature is the one the quorum key makes of the test message (deterministic ECDSA), and verifies. -/
theorem test_signature : ceremony.map (·.testMessageSignature) = some (quorumPair.sign realPrims (ascii "qos-test-message")) ∧
    ((ceremony.map fun o => (quorumPair.publicKey realPrims).verify realPrims o.testMessage o.testMessageSignature) = some (.ok ())) := by
  decide +kernel

/-- The recorded ciphertext opens to the test message. -/
theorem test_ciphertext : (ceremony.map fun o => quorumPair.decrypt realPrims o.testMessageCiphertext) = some (.ok (ascii "qos-test-message")) := by
  decide +kernel

/-- The pair `primary`: seed and derived secrets. -/
def primaryPair : Pair := ⟨be 32 0xc0e30ffefdad72ee214173f34af0faa57d58a1b733239e8100e903695bdd9a0c, be 32 0x5ebe1cddfa74b4b66b3d55fb1a74e17cbd3d5d868746c4a7a94e390399d712ec,
  be 32 0x517840291fe72c99e8d6578b87cabeb71060efa3e8c1ab1a1c63f3599441f677, be 32 0xa9016f968d90a9ab7b65b2e31af23c34a0d6be3088f188ec3914fb9196041fc6⟩

/-- Key derivation from the seed file (qos_p256/src/lib.rs:108-118, 243-263, 303-317). -/
theorem primary_pair : Pair.fromHexContents realPrims primarySecret = .ok primaryPair := by decide +kernel

/-- The public key is the one in the key file. -/
theorem primary_public : unhex (primaryPub.take 260) = some (primaryPair.publicKey realPrims).toBytes := by decide +kernel

/-- The golden approval of qos_client/tests/golden_artifacts.rs: the signature `EXPECTED_APPROVAL_JSON` holds is the one of
the 32 bytes of the manifest hash `MANIFEST_BORSH_SHA256_HEX`. -/
theorem golden_signature : primaryPair.sign realPrims goldenManifestDigest =
    be 64 0xecbfbd26aa2be141d991a574bd78aea7fc940f7bf6096db3aa2de0c07d9d9f0c9eef0a061fd64ca5e10bf8f2dce831c26fa6eb42838d7aca89bbabca35e47374 ∧
    (primaryPair.publicKey realPrims).verify realPrims goldenManifestDigest (primaryPair.sign realPrims goldenManifestDigest) = .ok () := by
  decide +kernel

end Qos.Conformance
