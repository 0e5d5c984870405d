import Verif.Model.Hex
import Verif.Model.Text
import Verif.Model.Borsh
/-!
# Keys, encryption and signatures

Models `/repo/src/qos_p256/src/{lib,encrypt,sign}.rs` on top of abstract primitives (`Prims`): hash
functions, HKDF, HMAC, the P-256 group operations, AES-GCM and ECDSA come from external crates and are
parameters of the model. What the repository itself does with them (lengths, derivation paths, pre-images,
associated data, envelope encoding, order of checks) is modelled.
-/
namespace Qos

/-- The external primitives (crates `sha2`, `hkdf`, `hmac`, `p256`, `aes-gcm`).
Called at qos_crypto/src/lib.rs:27-47, qos_p256/src/lib.rs:148-335, encrypt.rs, sign.rs. -/
structure Prims where
  /-- SHA-256 (`qos_crypto::sha_256`, qos_crypto/src/lib.rs:25-30) -/
  sha256 : Bytes → Bytes
  /-- SHA-384 (`sha_384`, qos_crypto/src/lib.rs:35-39; nitro/mod.rs:144-146, 166-169) -/
  sha384 : Bytes → Bytes
  /-- SHA-512 (`sha_512`, qos_crypto/src/lib.rs:41-46) -/
  sha512 : Bytes → Bytes
  /-- HKDF-SHA512, empty info, 32 bytes of output: salt, then input key material -/
  hkdf : Bytes → Bytes → Bytes
  /-- HMAC-SHA512: key, then message -/
  hmac : Bytes → Bytes → Bytes
  /-- are these bytes a valid P-256 secret scalar? (`SecretKey::from_slice`) -/
  scalarOk : Bytes → Bool
  /-- uncompressed SEC1 bytes of the public point of a secret scalar -/
  point : Bytes → Bytes
  /-- do these 65 bytes decode as a point? (`PublicKey::from_sec1_bytes`) -/
  pointOk : Bytes → Bool
  /-- ECDH: secret scalar, then remote point -/
  dh : Bytes → Bytes → Bytes
  /-- AES-256-GCM: key, nonce, associated data, plaintext -/
  aesEnc : Bytes → Bytes → Bytes → Bytes → Option Bytes
  /-- AES-256-GCM: key, nonce, associated data, ciphertext -/
  aesDec : Bytes → Bytes → Bytes → Bytes → Option Bytes
  /-- ECDSA over P-256: secret scalar, message -/
  ecdsaSign : Bytes → Bytes → Bytes
  /-- do these bytes decode as a signature? -/
  sigOk : Bytes → Bool
  /-- ECDSA: point, message, signature -/
  ecdsaVerify : Bytes → Bytes → Bytes → Bool

/-- What is assumed of honest primitives: sizes and functional correctness. No hardness assumption.
No code: the assumptions about the external crates behind encrypt.rs and sign.rs. -/
structure Prims.Laws (p : Prims) : Prop where
  sha256_length : ∀ m, (p.sha256 m).length = 32
  sha384_length : ∀ m, (p.sha384 m).length = 48
  sha512_length : ∀ m, (p.sha512 m).length = 64
  point_length : ∀ s, p.scalarOk s → (p.point s).length = 65
  point_ok : ∀ s, p.scalarOk s → p.pointOk (p.point s)
  dh_comm : ∀ a b, p.scalarOk a → p.scalarOk b → p.dh a (p.point b) = p.dh b (p.point a)
  aes_dec_enc : ∀ k n ad m c, p.aesEnc k n ad m = some c → p.aesDec k n ad c = some m
  hmac_length : ∀ k m, (p.hmac k m).length = 64
  /-- AES-256-GCM adds a 16-byte tag, and only refuses messages or associated data of about 2^36 bytes or more -/
  aes_enc_ok : ∀ k n ad m, k.length = 32 → n.length = 12 → ad.length < 2 ^ 31 → m.length < 2 ^ 31 →
    ∃ c, p.aesEnc k n ad m = some c ∧ c.length = m.length + 16
  sign_ok : ∀ s m, p.scalarOk s → p.sigOk (p.ecdsaSign s m)
  /-- `Signature::try_from(&[u8])` takes the fixed-width form -/
  sig_length : ∀ s, p.sigOk s → s.length = 64
  verify_sign : ∀ s m, p.scalarOk s → p.ecdsaVerify (p.point s) m (p.ecdsaSign s m)

/-- `P256Error` (qos_p256/src/lib.rs:44-90), in declaration order. -/
inductive P256Error where
  | qosHex (e : String) | ioError (e : String) | failedToSerializeEnvelope | failedToDeserializeEnvelope
  | aesGcm256DecryptError | aesGcm256EncryptError | failedToCreateAes256GcmCipher
  | failedToDeserializePublicKey | failedToCoercePublicKeyToIntendedLength
  | failedToCoerceNonceToIntendedLength | failedToDeserializeSignature
  | failedSignatureVerification | failedToReadSecret | failedToReadPublicKey
  | encodedPublicKeyTooLong | encodedPublicKeyTooShort | hkdfExpansionFailed
  | masterSeedInvalidUtf8 | masterSeedInvalidLength | invalidMasterSeed | cannotCoerceLenToU8
  deriving DecidableEq

namespace P256

/-! `PUB_KEY_LEN_UNCOMPRESSED` (lib.rs:17) is the literal 65, `MASTER_SEED_LEN` (lib.rs:28) the literal 32. -/

/-- `P256Public` (lib.rs:348-352). Each component is a valid point, represented by its uncompressed SEC1
bytes (`to_bytes` of what `from_bytes` accepted is the same 65 bytes: a 65-byte SEC1 string is always the
uncompressed form). -/
structure Public where
  enc : Bytes
  sign : Bytes
  deriving DecidableEq

/-- `P256Public::to_bytes` (lib.rs:384-391). -/
def Public.toBytes (k : Public) : Bytes := k.enc ++ k.sign

/-- `P256EncryptPublic::from_bytes` / `P256SignPublic::from_bytes` (encrypt.rs:251-264, sign.rs:106-119). -/
def componentFromBytes (p : Prims) (b : Bytes) : Except P256Error Bytes :=
  if b.length > 65 then .error .encodedPublicKeyTooLong
  else if b.length < 65 then .error .encodedPublicKeyTooShort
  else if p.pointOk b then .ok b else .error .failedToReadPublicKey

/-- `P256Public::from_bytes` (lib.rs:412-429). -/
def Public.fromBytes (p : Prims) (b : Bytes) : Except P256Error Public :=
  if b.length > 130 then .error .encodedPublicKeyTooLong
  else if b.length < 130 then .error .encodedPublicKeyTooShort
  else match componentFromBytes p (b.take 65) with
    | .error _ => .error .failedToReadPublicKey
    | .ok e => match componentFromBytes p (b.drop 65) with
      | .error _ => .error .failedToReadPublicKey
      | .ok s => .ok ⟨e, s⟩

/-- `P256Public::verify` through `P256SignPublic::verify` (lib.rs:376-382, sign.rs:82-93). -/
def Public.verify (p : Prims) (k : Public) (msg sig : Bytes) : Except P256Error Unit :=
  if p.sigOk sig then
    if p.ecdsaVerify k.sign msg sig then .ok () else .error .failedSignatureVerification
  else .error .failedToDeserializeSignature

/-- `P256Pair` (lib.rs:148-155): the master seed and the secrets derived from it. -/
structure Pair where
  seed : Bytes
  encSecret : Bytes
  signSecret : Bytes
  aesSecret : Bytes
  deriving DecidableEq

/-- Derivation paths (lib.rs:20-24). -/
def encryptPath : Bytes := ascii "qos_p256_encrypt"
/-- `P256_SIGN_DERIVE_PATH`, lib.rs:22. -/
def signPath : Bytes := ascii "qos_p256_sign"
/-- `AES_GCM_256_PATH`, lib.rs:24. -/
def aesPath : Bytes := ascii "qos_aes_gcm_encrypt"

/-- `P256Pair::from_master_seed` (lib.rs:243-263); `derive_secret` (lib.rs:108-118) is HKDF with the path
as salt and cannot fail for a 32-byte output. `P256Pair::generate` (lib.rs:163-184) is the same function
of a random seed. -/
def Pair.fromMasterSeed (p : Prims) (seed : Bytes) : Except P256Error Pair :=
  if p.scalarOk (p.hkdf encryptPath seed) then
    if p.scalarOk (p.hkdf signPath seed) then
      .ok { seed, encSecret := p.hkdf encryptPath seed, signSecret := p.hkdf signPath seed,
            aesSecret := p.hkdf aesPath seed }
    else .error .failedToReadSecret
  else .error .failedToReadSecret

/-- `P256Pair::public_key` (lib.rs:230-236). -/
def Pair.publicKey (p : Prims) (k : Pair) : Public := ⟨p.point k.encSecret, p.point k.signSecret⟩

/-- `P256Pair::sign` (lib.rs:225-227, sign.rs:35-39). -/
def Pair.sign (p : Prims) (k : Pair) (msg : Bytes) : Bytes := p.ecdsaSign k.signSecret msg

/-- `P256Pair::to_master_seed_hex` (lib.rs:275-277). -/
def Pair.toMasterSeedHex (k : Pair) : Bytes := Hex.encode k.seed

/-! ## Asymmetric encryption (encrypt.rs) -/

/-- `Envelope` (encrypt.rs:27-34). -/
structure Sealed where
  nonce : Bytes
  senderPublic : Bytes
  encryptedMessage : Bytes
  deriving DecidableEq

/-- Borsh codec of `Envelope` (encrypt.rs:26: field order of the struct). -/
def sealedCodec : Borsh.Codec Sealed :=
  Borsh.imap (fun (a, b, c) => ⟨a, b, c⟩) (fun s => (s.nonce, s.senderPublic, s.encryptedMessage))
    (Borsh.pair (Borsh.fixed 12) (Borsh.pair (Borsh.fixed 65) Borsh.bytes))

/-- Pre-image of the shared key (encrypt.rs:312-319). -/
def kdfPreImage (sender receiver shared : Bytes) : Bytes := sender ++ receiver ++ shared

/-- `create_cipher` (encrypt.rs:283-319) for a shared secret: the AES key. -/
def cipherKey (p : Prims) (shared sender receiver : Bytes) : Bytes :=
  (p.hmac (kdfPreImage sender receiver shared) (ascii "qos_encryption_hmac_message")).take 32

/-- `create_additional_associated_data` (encrypt.rs:328-356). -/
def aad (sender receiver : Bytes) : Except P256Error Bytes :=
  if sender.length < 256 then
    if receiver.length < 256 then
      .ok (sender ++ [UInt8.ofNat sender.length] ++ receiver ++ [UInt8.ofNat receiver.length])
    else .error .cannotCoerceLenToU8
  else .error .cannotCoerceLenToU8

/-- Randomness of one encryption: the ephemeral sender scalar and the nonce (encrypt.rs:137, 161-164). -/
structure SealRandom where
  scalar : Bytes
  nonce : Bytes

/-- `SecretKey::random` yields a valid scalar, `bytes_os_rng::<12>` twelve bytes. encrypt.rs:137, 161-164. -/
def SealRandom.Ok (p : Prims) (r : SealRandom) : Prop := p.scalarOk r.scalar ∧ r.nonce.length = 12

/-- `P256EncryptPublic::encrypt` (encrypt.rs:138-186). -/
def sealTo (p : Prims) (receiver : Bytes) (r : SealRandom) (msg : Bytes) : Except P256Error Bytes :=
  let sender := p.point r.scalar
  match aad sender receiver with
  | .error e => .error e
  | .ok ad =>
    match p.aesEnc (cipherKey p (p.dh r.scalar receiver) sender receiver) r.nonce ad msg with
    | none => .error .aesGcm256EncryptError
    | some ct =>
      if ct.length < 2 ^ 32 then .ok (sealedCodec.enc ⟨r.nonce, sender, ct⟩)
      else .error .failedToSerializeEnvelope

/-- `P256EncryptPair::decrypt` (encrypt.rs:57-97). -/
def openSealed (p : Prims) (secret : Bytes) (buf : Bytes) : Except P256Error Bytes :=
  match Borsh.tryFromSlice sealedCodec buf with
  | none => .error .failedToDeserializeEnvelope
  | some s =>
    if p.pointOk s.senderPublic then
      let receiver := p.point secret
      match aad s.senderPublic receiver with
      | .error e => .error e
      | .ok ad =>
        match p.aesDec (cipherKey p (p.dh secret s.senderPublic) s.senderPublic receiver) s.nonce ad
            s.encryptedMessage with
        | none => .error .aesGcm256DecryptError
        | some m => .ok m
    else .error .failedToDeserializePublicKey

/-- `decrypt_from_shared_secret` (encrypt.rs:198-230). -/
def openSealedShared (p : Prims) (receiver : Bytes) (buf shared : Bytes) : Except P256Error Bytes :=
  match Borsh.tryFromSlice sealedCodec buf with
  | none => .error .failedToDeserializeEnvelope
  | some s =>
    match aad s.senderPublic receiver with
    | .error e => .error e
    | .ok ad =>
      match p.aesDec (cipherKey p shared s.senderPublic receiver) s.nonce ad s.encryptedMessage with
      | none => .error .aesGcm256DecryptError
      | some m => .ok m

/-- `P256Public::encrypt` (lib.rs:360-362). -/
def Public.encrypt (p : Prims) (k : Public) (r : SealRandom) (msg : Bytes) : Except P256Error Bytes :=
  sealTo p k.enc r msg

/-- `P256Pair::decrypt` (lib.rs:213-218). -/
def Pair.decrypt (p : Prims) (k : Pair) (buf : Bytes) : Except P256Error Bytes := openSealed p k.encSecret buf

/-! ## Symmetric encryption (encrypt.rs:368-482) -/

/-- Borsh codec of `SymmetricEnvelope` (encrypt.rs:360-366): nonce, ciphertext. -/
def symCodec : Borsh.Codec (Bytes × Bytes) := Borsh.pair (Borsh.fixed 12) Borsh.bytes

/-- `AES_GCM_256_HMAC_SHA512_TAG` (encrypt.rs:21). -/
def symTag : Bytes := ascii "qos_aes_gcm_256_hmac_sha512"

/-- `AesGcm256Secret::encrypt` (encrypt.rs:421-437) with the given random nonce. -/
def symSeal (p : Prims) (key nonce msg : Bytes) : Except P256Error Bytes :=
  match p.aesEnc key nonce symTag msg with
  | none => .error .aesGcm256EncryptError
  | some ct =>
    if ct.length < 2 ^ 32 then .ok (symCodec.enc (nonce, ct)) else .error .failedToSerializeEnvelope

/-- `AesGcm256Secret::decrypt` (encrypt.rs:451-471). -/
def symOpen (p : Prims) (key buf : Bytes) : Except P256Error Bytes :=
  match Borsh.tryFromSlice symCodec buf with
  | none => .error .failedToDeserializeEnvelope
  | some (nonce, ct) =>
    match p.aesDec key nonce symTag ct with
    | none => .error .aesGcm256DecryptError
    | some m => .ok m

/-! ## Seeds in files -/

/-- `char::is_whitespace` (Unicode `White_Space`), used by `str::trim`. Called at lib.rs:303-317. -/
def isWhitespace (c : Char) : Bool :=
  let n := c.toNat
  (9 ≤ n && n ≤ 13) || n == 0x20 || n == 0x85 || n == 0xA0 || n == 0x1680 ||
  (0x2000 ≤ n && n ≤ 0x200A) || n == 0x2028 || n == 0x2029 || n == 0x202F || n == 0x205F || n == 0x3000

/-- `str::trim`. Called at lib.rs:303-317. -/
def trim (s : String) : String :=
  String.ofList (((s.toList.dropWhile isWhitespace).reverse.dropWhile isWhitespace).reverse)

/-- `P256Pair::from_hex_file` (lib.rs:303-317) on the bytes read from the file. -/
def Pair.fromHexContents (p : Prims) (contents : Bytes) : Except P256Error Pair :=
  match utf8Decode contents with
  | none => .error .invalidMasterSeed
  | some s => match Hex.decodeToBuf (utf8 (trim s)) 32 with
    | .error _ => .error .invalidMasterSeed
    | .ok seed => Pair.fromMasterSeed p seed

end P256
end Qos
