import Verif.Model.Client
import Verif.Model.Shamir
/-!
# The operator's smaller commands

`/repo/src/qos_client/src/cli/services.rs`: key files, signing and encrypting with key files, splitting and
reconstructing secrets, converting manifests, and `dangerous-dev-boot`. Randomness is a parameter; standard output is
modelled only for `display --json`. Error values of files that cannot be read are not told apart.
-/
namespace Qos.Client
open P256 (Pair Public SealRandom)

variable {S : Type}

/-- `fs::read(path)?`: `From<io::Error>` gives `Deserialize` (services.rs:186-190, 1857, 1888, 1912, 1930). -/
def readFile (d : Disk) (path : String) : Except Stop Bytes := orStop (d.file path) (.error .deserialize)

/-- `P256Pair::from_hex_file(path)?` (services.rs:1889, 1929; qos_p256/src/lib.rs:303-317). -/
def pairFromFile (p : Prims) (d : Disk) (path : String) : Except Stop Pair := do
  let c ← orStop (d.file path) (.error (.p256 .invalidMasterSeed))
  mapStop (Pair.fromHexContents p c) fun e => .error (.p256 e)

/-- `P256Public::from_hex_file(path)?` (services.rs:1858, 1911). -/
def pubFromFile (p : Prims) (d : Disk) (path : String) : Except Stop Public :=
  orStop (publicFromFile p d path) (.error (.p256 .failedToReadPublicKey))

/-- `generate_file_key` (services.rs:345-366); `seed` is the random master seed of `P256Pair::generate`. -/
def generateFileKey (C : Setting S) (seed : Bytes) (secretPath pubPath : String) : Run S Unit := do
  let pair ← Run.lift (mapStop (Pair.fromMasterSeed C.prims seed) fun _ => .panic)
  write C secretPath pair.toMasterSeedHex
  write C pubPath (Hex.encode (pair.publicKey C.prims).toBytes)

/-- The signature file of `p256_verify`: trimmed hexadecimal text (services.rs:1859-1864). -/
def readSignature (d : Disk) (path : String) : Except Stop Bytes := do
  let c ← readFile d path
  let s ← orStop (utf8Decode c) (.error .deserialize)
  orStop (hexText (P256.trim s)) (.error .couldNotDecodeHex)

/-- `p256_verify` (services.rs:1852-1873). -/
def p256Verify (C : Setting S) (payloadPath signaturePath pubPath : String) : Run S Unit := Run.lift <| do
  let payload ← readFile C.disk payloadPath
  let key ← pubFromFile C.prims C.disk pubPath
  let sig ← readSignature C.disk signaturePath
  mapStop (Public.verify C.prims key payload sig) fun e => .error (.p256 e)

/-- `p256_sign` (services.rs:1875-1894). -/
def p256Sign (C : Setting S) (payloadPath signaturePath seedPath : String) : Run S Unit := do
  let payload ← Run.lift (readFile C.disk payloadPath)
  let pair ← Run.lift (pairFromFile C.prims C.disk seedPath)
  write C signaturePath (Hex.encode (pair.sign C.prims payload))

/-- `p256_asymmetric_encrypt` (services.rs:1896-1909). -/
def p256Encrypt (C : Setting S) (plaintextPath ciphertextPath pubPath : String) : Run S Unit := do
  let key ← Run.lift (pubFromFile C.prims C.disk pubPath)
  let plaintext ← Run.lift (readFile C.disk plaintextPath)
  let ct ← Run.lift (mapStop (key.encrypt C.prims C.rand plaintext) fun e => .error (.p256 e))
  write C ciphertextPath ct

/-- What `p256_asymmetric_decrypt` writes (services.rs:1921-1925). -/
def shown (hex : Bool) (plaintext : Bytes) : Bytes := if hex then Hex.encode plaintext else plaintext

/-- `p256_asymmetric_decrypt` (services.rs:1911-1930). -/
def p256Decrypt (C : Setting S) (plaintextPath ciphertextPath seedPath : String) (outputHex : Bool) : Run S Unit := do
  let pair ← Run.lift (pairFromFile C.prims C.disk seedPath)
  let ct ← Run.lift (readFile C.disk ciphertextPath)
  let plaintext ← Run.lift (mapStop (pair.decrypt C.prims ct) fun e => .error (.p256 e))
  write C plaintextPath (shown outputHex plaintext)

/-- `get_ephemeral_key_hex` (services.rs:1932-1949): the document is decoded, not verified. -/
def getEphemeralKeyHex (C : Setting S) (docPath keyPath : String) : Run S Unit := do
  let c ← Run.lift (orStop (C.disk.file docPath) .panic)
  let doc ← Run.lift (extractDoc C.pki C.awsRoot C.now c true none)
  let key ← Run.lift (ephemeralKey C.prims doc)
  write C keyPath (Hex.encode key.toBytes)

/-- What `display` and `json-to-borsh` are asked to read (cli/mod.rs `DisplayType`, services.rs:1951-2020). -/
inductive DisplayType where
  | manifest
  | manifestEnvelope
  | genesisOutput
  deriving DecidableEq

/-- The JSON tree of a manifest (untagged: the inner value). `#[serde(untagged)]`, boot/manifest.rs:70-81. -/
def manifestJson : VersionedManifest → Json
  | .v2 m => JCodec.manifestV2.enc m
  | .v1 m => JCodec.manifest.enc m
  | .v0 m => JCodec.manifestV0.enc m

/-- The JSON text printed by `display --json` (services.rs:1951-1982); `none` for genesis outputs, which are only shown
in `Debug` form. -/
def displayJson (C : Setting S) (kind : DisplayType) (path : String) : Except Stop (Option Bytes) :=
  match kind with
  | .manifest => do
    let m ← readManifest C.disk path
    return some (Json.writeBytes (manifestJson m))
  | .manifestEnvelope => do
    let e ← readEnvelope C.disk path
    return some (Json.writeBytes e.encUntagged)
  | .genesisOutput => do
    let c ← orStop (C.disk.file path) (.error .readShare)
    let _ ← orStop (Borsh.tryFromSlice Services.genesisOutputCodec c) (.error .deserialize)
    return none

/-- `read_manifest_v1_compat` (services.rs:2453-2462). -/
def readManifestV1 (d : Disk) (path : String) : Except Stop Manifest := do
  match ← readManifest d path with
  | .v2 _ => .error (.error .manifestV2NotConvertibleToBorsh)
  | .v1 m => .ok m
  | .v0 m => .ok m.upgrade

/-- `read_manifest_envelope_v1_compat` (services.rs:2487-2501). -/
def readEnvelopeV1 (d : Disk) (path : String) : Except Stop (EnvelopeOf Manifest) := do
  match ← readEnvelope d path with
  | .v2 _ => .error (.error .manifestV2NotConvertibleToBorsh)
  | .v1 e => .ok e
  | .v0 e => .ok ⟨e.manifest.upgrade, e.manifestSetApprovals, e.shareSetApprovals⟩

/-- `fs::write(...).map_err(FailedToWrite)` (services.rs:1993-1998, 2004-2009): an error value, not a panic. -/
def writeOrError (C : Setting S) (path : String) (contents : Bytes) : Run S Unit := fun s =>
  if C.disk.writable path then ⟨.ok (), s, [.wrote path contents]⟩ else ⟨.error (.error .failedToWrite), s, []⟩

/-- `json_to_borsh` (services.rs:1984-2020). -/
def jsonToBorsh (C : Setting S) (kind : DisplayType) (path out : String) : Run S Unit :=
  match kind with
  | .manifest => do
    let m ← Run.lift (readManifestV1 C.disk path)
    writeOrError C out (Borsh.manifest.enc m)
  | .manifestEnvelope => do
    let e ← Run.lift (readEnvelopeV1 C.disk path)
    writeOrError C out ((Borsh.envelopeOf Borsh.manifest).enc e)
  | .genesisOutput => Run.lift (.error (.error .readShare))

/-! ## Splitting a secret -/

/-- The name of a share file (services.rs:2190). -/
def shareName (i : Nat) : String := String.ofList (natText (i + 1)) ++ ".share"

/-- The loop of `shamir_split` (services.rs:2189-2193). -/
def writeShares (C : Setting S) (dir : String) : Nat → List Bytes → Run S Unit
  | _, [] => pure ()
  | i, share :: shares => do
    write C (pathJoin dir (shareName i)) share
    writeShares C dir (i + 1) shares

/-- `shamir_split` (services.rs:2175-2196); `coeffs` is the randomness of the polynomials. -/
def shamirSplit (C : Setting S) (coeffs : Nat → Nat → UInt8) (secretPath : String) (total threshold : Nat)
    (dir : String) : Run S Unit := do
  let secret ← Run.lift (orStop (C.disk.file secretPath) (.error (.failedToRead secretPath)))
  let shares ← Run.lift (mapStop (Shamir.sharesGenerate secret total threshold coeffs) fun _ => .panic)
  writeShares C dir 0 shares

/-- The share files read by `shamir_reconstruct` (services.rs:2202-2211). -/
def readShares (d : Disk) (paths : List String) : Except Stop (List Bytes) :=
  paths.mapM fun p => orStop (d.file p) (.error (.failedToRead p))

/-- `shamir_reconstruct` (services.rs:2198-2222). -/
def shamirReconstruct (C : Setting S) (paths : List String) (out : String) : Run S Unit := do
  let shares ← Run.lift (readShares C.disk paths)
  let secret ← Run.lift (mapStop (Shamir.sharesReconstruct shares) fun _ => .panic)
  write C out secret

/-! ## Booting without a ceremony -/

/-- Randomness of `dangerous_dev_boot`: the quorum key's seed, the polynomials and two encryptions
(services.rs:2031, 2039-2043, 2147-2149, 2163-2165). -/
structure DevRandom where
  seed : Bytes
  coeffs : Nat → Nat → UInt8
  first : SealRandom
  second : SealRandom

/-- Arguments of `dangerous-dev-boot` (services.rs:2022-2029). -/
structure DevArgs where
  pivotPath : String
  restart : RestartPolicy
  args : List String
  bridges : List BridgeConfig
  ephPath : Option String

/-- The only member (services.rs:2033-2036). -/
def devMember (p : Prims) (pair : Pair) : QuorumMember := ⟨"DANGEROUS_DEV_BOOT_MEMBER", (pair.publicKey p).toBytes⟩

/-- The hard-coded manifest (services.rs:2060-2098). -/
def devManifest (p : Prims) (awsRoot : Bytes) (pair : Pair) (a : DevArgs) (pivot : Bytes) : Manifest where
  «namespace» := ⟨"DANGEROUS_DEV_BOOT_MEMBER_NAMESPACE", 0xFFFFFFFF, (pair.publicKey p).toBytes⟩
  enclave := ⟨List.replicate 48 0, List.replicate 48 0, List.replicate 48 0, List.replicate 48 0, awsRoot, "mock-qos-commit-ref"⟩
  pivot := ⟨p.sha256 pivot, a.restart, a.bridges, false, a.args⟩
  manifestSet := ⟨1, [devMember p pair]⟩
  shareSet := ⟨2, [devMember p pair]⟩
  patchSet := ⟨0, []⟩

/-- The envelope, signed by the quorum key itself (services.rs:2100-2109). -/
def devEnvelope (p : Prims) (awsRoot : Bytes) (pair : Pair) (a : DevArgs) (pivot : Bytes) : Envelope :=
  .v1 ⟨devManifest p awsRoot pair a pivot,
    [⟨pair.sign p ((VersionedManifest.v1 (devManifest p awsRoot pair a pivot)).hash p), devMember p pair⟩], []⟩

/-- Both shares; anything but two is an assertion failure (services.rs:2038-2050). -/
def twoShares : List Bytes → Except Stop (Bytes × Bytes)
  | [a, b] => .ok (a, b)
  | _ => .error .panic

/-- The generated key with its two shares (services.rs:2030-2050). -/
def devKey (p : Prims) (r : DevRandom) : Except Stop (Pair × Bytes × Bytes) := do
  let pair ← mapStop (Pair.fromMasterSeed p r.seed) fun _ => .panic
  let shares ← mapStop (Shamir.sharesGenerate pair.seed 2 2 r.coeffs) fun _ => .panic
  let two ← twoShares shares
  return (pair, two)

/-- The assertion on the answer to a share (services.rs:2152-2159, 2168-2172). -/
def expectAnswer (reconstructed : Bool) : Option Msg → Except Stop Unit
  | some (.provisionResponse r) => guardStop (r = reconstructed) .panic
  | _ => .error .panic

/-- One share posted (services.rs:2145-2159, 2161-2172). -/
noncomputable def devShare (C : Setting S) (target : Public) (r : SealRandom) (share : Bytes) (approval : Approval)
    (reconstructed : Bool) : Run S Unit := do
  let x ← Run.lift (mapStop (target.encrypt C.prims r share) fun _ => .panic)
  let answer ← post C (.provisionRequest x approval)
  Run.lift (expectAnswer reconstructed answer)

/-- `dangerous_dev_boot` (services.rs:2023-2173). -/
noncomputable def dangerousDevBoot (C : Setting S) (r : DevRandom) (a : DevArgs) : Run S Unit := do
  let key ← Run.lift (devKey C.prims r)
  let pivot ← Run.lift (orStop (C.disk.file a.pivotPath) .panic)
  let e := devEnvelope C.prims C.awsRoot key.1 a pivot
  let cose ← bootWithFallback C e pivot
  let doc ← Run.lift (extractDoc C.pki C.awsRoot C.now cose true none)
  let target ← Run.lift (targetKey C doc a.ephPath)
  let approval : Approval := ⟨key.1.sign C.prims (e.manifest.hash C.prims), devMember C.prims key.1⟩
  devShare C target r.first key.2.1 approval false
  devShare C target r.second key.2.2 approval true

end Qos.Client
