import Verif.Model.ClientFiles
import Verif.Model.Wire
/-!
# The operator's commands

`/repo/src/qos_client/src/cli/services.rs` and `/repo/src/qos_client/src/lib.rs`. Keys are key files; for
YubiKeys see Model/Yubikey.lean. Standard output is not modelled apart from the prompts.
-/
namespace Qos.Client
open P256 (Pair Public SealRandom)
open Services (GenesisSet GenesisOutput MemberOutput)

/-- What surrounds a command. `net` is the host's HTTP endpoint with everything behind it: the answer is the body
of a success response, `none` an error status or a transport error.
The process state behind services.rs:225-2400: disk, keys and randomness, clock, HTTP. -/
structure Setting (S : Type) where
  prims : Prims
  pki : Attest.Pki
  awsRoot : Bytes
  now : Nat
  rand : SealRandom
  disk : Disk
  net : S → Bytes → S × Option Bytes

/-- Outcome of a command: how it ended, the state it left the other side in, what it did.
How the commands of services.rs:441-2250 run and end. -/
structure Out (S α : Type) where
  result : Except Stop α
  state : S
  events : List Event

/-- A command. How the commands of services.rs:441-2250 run and end. -/
def Run (S α : Type) : Type := S → Out S α

namespace Run
variable {S α β : Type}

/-- Nothing happens. How the commands of services.rs:441-2250 run and end. -/
protected def pure (a : α) : Run S α := fun s => ⟨.ok a, s, []⟩

/-- In sequence, stopping at the first failure. How the commands of services.rs:441-2250 run and end. -/
protected def bind (x : Run S α) (f : α → Run S β) : Run S β := fun s =>
  match x s with
  | ⟨.ok a, s', es⟩ => ⟨(f a s').result, (f a s').state, es ++ (f a s').events⟩
  | ⟨.error e, s', es⟩ => ⟨.error e, s', es⟩

instance : Monad (Run S) where
  pure := Run.pure
  bind := Run.bind

/-- A step without effects. How the commands of services.rs:441-2250 run and end. -/
def lift (x : Except Stop α) : Run S α := fun s => ⟨x, s, []⟩

end Run

variable {S : Type}

/-- `write_with_msg` (services.rs:2653-2659) and `write_secret_with_msg` (services.rs:2661-2681): panics when the file
cannot be written. -/
def write (C : Setting S) (path : String) (contents : Bytes) : Run S Unit := fun s =>
  if C.disk.writable path then ⟨.ok (), s, [.wrote path contents]⟩ else ⟨.error .panic, s, []⟩

/-- The questions, then `std::process::exit(1)` unless every answer was yes; skipped with `unsafe_auto_confirm`.
services.rs:1016-1031, 1657-1676. -/
def confirm (auto : Bool) (qs : List Question) (input : List String) : Run S Unit := fun s =>
  if auto then ⟨.ok (), s, []⟩
  else
    let r := interview qs input
    if r.1 then ⟨.ok (), s, r.2⟩ else ⟨.error .exit1, s, r.2⟩

/-! ## Talking to the host -/

/-- The answer as a message (lib.rs:83-98): `none` for an HTTP error or an answer that is no message; an answer is cut
off after `u32::MAX` bytes. -/
def readAnswer : Option Bytes → Option Msg
  | none => none
  | some a => match Wire.fromWire (a.take (2 ^ 32 - 1)) with
    | .ok (m, _) => some m
    | .error _ => none

/-- The part of `request::post_wire` after the bytes are built (lib.rs:73-98). -/
def exchange (C : Setting S) (body : Bytes) : Run S (Option Msg) := fun s =>
  ⟨.ok (readAnswer (C.net s body).2), (C.net s body).1, [.sent body]⟩

/-- `request::post_wire` (lib.rs:65-101). -/
noncomputable def postWire (C : Setting S) (m : Msg) (enc : Wire.Encoding) : Run S (Option Msg) :=
  match Wire.toWire m enc with
  | .ok b => exchange C b
  | .error _ => pure none

/-- Is the answer the one that makes `post` try again (lib.rs:26-30)? -/
def unreadable : Option Msg → Bool
  | some (.protocolErrorResponse .protocolMsgDeserialization) => true
  | _ => false

/-- `request::post` (lib.rs:26-33). -/
noncomputable def post (C : Setting S) (m : Msg) : Run S (Option Msg) := do
  let r ← postWire C m .json
  if unreadable r then postWire C m .borsh else pure r

/-- `manifest_envelope_protocol_encodings` (services.rs:1394-1403). -/
def encodingsFor : Envelope → List Wire.Encoding
  | .v2 _ => [.json]
  | .v1 _ => [.borsh, .json]
  | .v0 _ => [.borsh, .json]

/-- The answer put through the parser of the caller. lib.rs:26-104. -/
def parsed {α : Type} (parse : Msg → Option α) (r : Option Msg) : Option α := r.bind parse

/-- `post_request_with_encoding_fallback` (services.rs:1358-1381). -/
noncomputable def postFallback {α : Type} (C : Setting S) (m : Msg) (parse : Msg → Option α) :
    List Wire.Encoding → Run S (Option α)
  | [] => pure none
  | enc :: rest => do
    let r ← postWire C m enc
    match parsed parse r with
    | some a => pure (some a)
    | none => postFallback C m parse rest

/-! ## Genesis -/

/-- Command line arguments of `boot-genesis` (services.rs:492-500). -/
structure BootGenesisArgs where
  namespaceDir : String
  shareSetDir : String
  releaseDir : String
  pcr3Path : String
  unsafeSkip : Bool
  drKeyPath : Option String

/-- The DR key bytes (services.rs:514-521). -/
def readDrKey (C : Setting S) : Option String → Except Stop (Option Bytes)
  | none => .ok none
  | some path => match publicFromFile C.prims C.disk path with
    | some k => .ok (some k.toBytes)
    | none => .error (.error .failedToReadDrKey)

/-- The expected answer of `boot-genesis` (services.rs:529-536). -/
def genesisAnswer : Option Msg → Option (Bytes × GenesisOutput)
  | some (.bootGenesisResponse (.attestation doc) out) => some (doc, out)
  | _ => none

/-- Document check shared by `boot_genesis` and `after_genesis` (services.rs:559-572, 745-758). -/
def checkGenesisDoc (C : Setting S) (unsafeSkip : Bool) (doc : AttestationDoc) (out : GenesisOutput) (q : QosPcrs)
    (pcr3Path : String) : Except Stop Unit :=
  if unsafeSkip then .ok ()
  else do
    let pcr3 ← extractPcr3 C.prims C.disk pcr3Path
    mapStop (Attest.verifyUserInput doc (C.prims.sha256 (Services.genesisOutputCodec.enc out)) q.pcr0 q.pcr1 q.pcr2 pcr3)
      fun e => .error (.qosAttest e)

/-- The checks of `boot_genesis` on the answer (services.rs:537-572); the result is the quorum key. -/
def checkBootGenesis (C : Setting S) (a : BootGenesisArgs) (set : GenesisSet) (drKey : Option Bytes) (cose : Bytes)
    (out : GenesisOutput) : Except Stop Public := do
  guardStop (out.set = set ∧ out.drKey = drKey) (.error .genesisOutputDoesNotMatchRequest)
  let quorumKey ← mapStop (Public.fromBytes C.prims out.quorumKey) fun _ => .panic
  let doc ← extractDoc C.pki C.awsRoot C.now cose a.unsafeSkip none
  let q ← extractQosPcrs C.disk a.releaseDir
  guardStop (set.members.length = out.memberOutputs.length) .panic
  guardStop (out.memberOutputs.all fun m => set.members.contains m.member) .panic
  checkGenesisDoc C a.unsafeSkip doc out q a.pcr3Path
  return quorumKey

/-- The text of `genesis_dr_artifacts` (services.rs:574-581). -/
def drArtifacts (out : GenesisOutput) : Bytes :=
  ascii "quorum_key_hash " ++ Hex.encode out.quorumKeyHash ++ ascii "\n" ++
  ascii "test_message_ciphertext " ++ Hex.encode out.testMessageCiphertext ++ ascii "\n" ++
  ascii "test_message_signature " ++ Hex.encode out.testMessageSignature ++ ascii "\n" ++
  ascii "test_message " ++ Hex.encode out.testMessage

/-- The optional last file (services.rs:615-625). -/
def writeOptional (C : Setting S) (path : String) : Option Bytes → Run S Unit
  | none => pure ()
  | some b => write C path b

/-- `boot_genesis` (services.rs:502-628). -/
noncomputable def bootGenesis (C : Setting S) (a : BootGenesisArgs) : Run S Unit := do
  let qset ← Run.lift (getSet C.prims C.disk a.shareSetDir)
  let set : GenesisSet := ⟨qset.members, qset.threshold⟩
  let drKey ← Run.lift (readDrKey C a.drKeyPath)
  let r ← postWire C (.bootGenesisRequest set drKey) .json
  let answer ← Run.lift (orStop (genesisAnswer r) .panic)
  let quorumKey ← Run.lift (checkBootGenesis C a set drKey answer.1 answer.2)
  write C (pathJoin a.namespaceDir "genesis_dr_artifacts") (drArtifacts answer.2)
  write C (pathJoin a.namespaceDir "genesis_attestation_doc") answer.1
  write C (pathJoin a.namespaceDir "genesis_output") (Services.genesisOutputCodec.enc answer.2)
  write C (pathJoin a.namespaceDir "quorum_key.pub") (Hex.encode quorumKey.toBytes)
  writeOptional C (pathJoin a.namespaceDir "dr_wrapped_quorum_key") answer.2.drKeyWrappedQuorumKey

/-- Reading `genesis_output` (services.rs:634-643, 735-743). -/
def readGenesisOutput (d : Disk) (namespaceDir : String) : Except Stop GenesisOutput := do
  let c ← orStop (d.file (pathJoin namespaceDir "genesis_output")) .panic
  orStop (Borsh.tryFromSlice Services.genesisOutputCodec c) .panic

/-- The master seed file, as text and as a key (services.rs:645-660). -/
def readSeed (C : Setting S) (path : String) : Except Stop (Bytes × Pair) := do
  let c ← orStop (C.disk.file path) .panic
  let _ ← orStop (utf8Decode c) .panic
  let pair ← mapStop (Pair.fromHexContents C.prims c) fun _ => .panic
  return (c, pair)

/-- The checks of `verify_genesis` (services.rs:662-691). -/
def verifySeed (C : Setting S) (out : GenesisOutput) (seedHex : Bytes) (pair : Pair) : Except Stop Unit := do
  guardStop (pair.toMasterSeedHex = seedHex) (.error .errorReadingSeed)
  guardStop (C.prims.sha512 seedHex = out.quorumKeyHash) (.error .secretDoesNotMatch)
  mapStop (Public.verify C.prims (pair.publicKey C.prims) out.testMessage out.testMessageSignature)
    fun _ => .error .invalidSignature
  guardStop (pair.sign C.prims out.testMessage = out.testMessageSignature) (.error .couldNotReproduceSignature)
  let plaintext ← mapStop (pair.decrypt C.prims out.testMessageCiphertext) fun e => .error (.p256 e)
  guardStop (plaintext = out.testMessage) (.error .badDecryption)

/-- `verify_genesis` (services.rs:630-696). -/
def verifyGenesis (C : Setting S) (namespaceDir seedPath : String) : Run S Unit := Run.lift <| do
  let out ← readGenesisOutput C.disk namespaceDir
  let seed ← readSeed C seedPath
  verifySeed C out seed.1 seed.2

/-- Arguments of `after-genesis` (services.rs:698-707). -/
structure AfterGenesisArgs where
  sharePath : String
  memberAlias : String
  namespaceDir : String
  releaseDir : String
  pcr3Path : String
  unsafeSkip : Bool
  timeOverride : Option Nat

/-- `find` of the member's own output (services.rs:760-769). -/
def ownOutput (out : GenesisOutput) (key : Bytes) (name : String) : Option MemberOutput :=
  out.memberOutputs.find? fun m => m.member.pubKey = key ∧ m.member.aliasName = name

/-- The checks of `after_genesis` (services.rs:721-785); the result is the encrypted share. -/
def checkAfterGenesis (C : Setting S) (pair : Pair) (a : AfterGenesisArgs) : Except Stop Bytes := do
  let q ← extractQosPcrs C.disk a.releaseDir
  let cose ← orStop (C.disk.file (pathJoin a.namespaceDir "genesis_attestation_doc")) .panic
  let doc ← extractDoc C.pki C.awsRoot C.now cose a.unsafeSkip a.timeOverride
  let out ← readGenesisOutput C.disk a.namespaceDir
  checkGenesisDoc C a.unsafeSkip doc out q a.pcr3Path
  let own ← orStop (ownOutput out (pair.publicKey C.prims).toBytes a.memberAlias) .panic
  let share ← mapStop (pair.decrypt C.prims own.encryptedShare) fun e => .error (.p256 e)
  guardStop (C.prims.sha512 share = own.shareHash) .panic
  return own.encryptedShare

/-- `after_genesis` (services.rs:709-798). -/
def afterGenesis (C : Setting S) (pair : Pair) (a : AfterGenesisArgs) : Run S Unit := do
  let share ← Run.lift (checkAfterGenesis C pair a)
  write C a.sharePath share

/-! ## Manifests -/

/-- Arguments of `generate-manifest` (services.rs:800-816). -/
structure GenerateManifestArgs where
  nonce : UInt32
  namespaceName : String
  restartPolicy : RestartPolicy
  pivotHashPath : String
  releaseDir : String
  pcr3Path : String
  shareSetDir : String
  manifestSetDir : String
  patchSetDir : Option String
  quorumKeyPath : String
  manifestPath : String
  pivotArgs : List String
  bridgeConfig : List BridgeConfig
  dnsResolvers : Option (List IpAddr)
  debugMode : Bool

/-- `pivot_hash.try_into().expect("pivot hash was not 256 bits")` (services.rs:867, 921). -/
def hash256 (h : Bytes) : Except Stop Bytes := do
  guardStop (h.length = 32) .panic
  return h

/-- Inputs of a manifest read from files (services.rs:843-862, 907-914). -/
structure ManifestInputs where
  enclave : NitroConfig
  pivotHash : Bytes
  manifestSet : QuorumSet
  shareSet : QuorumSet
  patchSet : Option PatchSet
  quorumKey : Public

/-- The first setters, common to both versions (services.rs:864-873, 918-927). -/
def commonCalls (a : GenerateManifestArgs) (v : ManifestVersion) (i : ManifestInputs) (hash : Bytes) : List Builder.Call :=
  [.withVersion v, .namespaceOf ⟨a.namespaceName, a.nonce, i.quorumKey.toBytes⟩, .pivotHash hash,
   .restartPolicy a.restartPolicy, .pivotArgs a.pivotArgs, .bridgeConfig a.bridgeConfig, .debugMode a.debugMode,
   .manifestSet i.manifestSet, .shareSet i.shareSet]

/-- The files read by `generate_manifest` (services.rs:843-862). -/
def readInputsV1 (C : Setting S) (a : GenerateManifestArgs) : Except Stop ManifestInputs := do
  guardStop a.dnsResolvers.isNone (.error .manifestV1DoesNotSupportDnsConfig)
  let enclave ← extractNitroConfig C.prims C.awsRoot C.disk a.releaseDir a.pcr3Path
  let pivotHash ← extractPivotHash C.disk a.pivotHashPath
  let manifestSet ← getSet C.prims C.disk a.manifestSetDir
  let shareSet ← getSet C.prims C.disk a.shareSetDir
  let dir ← orStop a.patchSetDir (.error .manifestV1RequiresPatchSet)
  let patchSet ← getPatchSet C.prims C.disk dir
  let quorumKey ← orStop (publicFromFile C.prims C.disk a.quorumKeyPath) (.error .failedToReadQuorumPublicKey)
  return ⟨enclave, pivotHash, manifestSet, shareSet, some patchSet, quorumKey⟩

/-- The files read by `generate_manifest_v2` (services.rs:903-914). -/
def readInputsV2 (C : Setting S) (a : GenerateManifestArgs) : Except Stop ManifestInputs := do
  guardStop a.patchSetDir.isNone (.error .manifestV2DoesNotSupportPatchSet)
  let enclave ← extractNitroConfig C.prims C.awsRoot C.disk a.releaseDir a.pcr3Path
  let pivotHash ← extractPivotHash C.disk a.pivotHashPath
  let manifestSet ← getSet C.prims C.disk a.manifestSetDir
  let shareSet ← getSet C.prims C.disk a.shareSetDir
  let quorumKey ← orStop (publicFromFile C.prims C.disk a.quorumKeyPath) (.error .failedToReadQuorumPublicKey)
  return ⟨enclave, pivotHash, manifestSet, shareSet, none, quorumKey⟩

/-- The patch set setter (services.rs:874). -/
def patchCalls : Option PatchSet → List Builder.Call
  | some p => [.patchSet p]
  | none => []

/-- The optional DNS setter (services.rs:929-932). -/
def dnsCalls : Option (List IpAddr) → List Builder.Call
  | some r => [.dns ⟨r⟩]
  | none => []

/-- The manifest of `generate_manifest` (services.rs:818-876). -/
def manifestV1 (C : Setting S) (a : GenerateManifestArgs) : Except Stop VersionedManifest := do
  let i ← readInputsV1 C a
  let hash ← hash256 i.pivotHash
  mapStop (Builder.configure (commonCalls a .v1 i hash ++ patchCalls i.patchSet ++ [.enclave i.enclave])).build
    fun e => .error (.manifestBuilder e)

/-- The manifest of `generate_manifest_v2` (services.rs:885-933). -/
def manifestV2 (C : Setting S) (a : GenerateManifestArgs) : Except Stop VersionedManifest := do
  let i ← readInputsV2 C a
  let hash ← hash256 i.pivotHash
  mapStop (Builder.configure (commonCalls a .v2 i hash ++ [.enclave i.enclave] ++ dnsCalls a.dnsResolvers)).build
    fun e => .error (.manifestBuilder e)

/-- `generate_manifest` (services.rs:818-883). -/
def generateManifest (C : Setting S) (a : GenerateManifestArgs) : Run S Unit := do
  let m ← Run.lift (manifestV1 C a)
  let b ← Run.lift (orStop m.toStorageVec .panic)
  write C a.manifestPath b

/-- `generate_manifest_v2` (services.rs:885-946); `qos_json::to_vec` of the untagged enum is the canonical JSON of the
V2 manifest, which is what `toStorageVec` gives. -/
def generateManifestV2 (C : Setting S) (a : GenerateManifestArgs) : Run S Unit := do
  let m ← Run.lift (manifestV2 C a)
  let b ← Run.lift (orStop m.toStorageVec .panic)
  write C a.manifestPath b

/-- Arguments of `approve-manifest` (services.rs:965-978). -/
structure ApproveArgs where
  manifestPath : String
  approvalsDir : String
  releaseDir : String
  pcr3Path : String
  pivotHashPath : String
  quorumKeyPath : String
  manifestSetDir : String
  shareSetDir : String
  patchSetDir : Option String
  memberAlias : String
  autoConfirm : Bool

/-- The patch set to compare with (services.rs:1001-1008). -/
def localPatchSet (C : Setting S) (m : VersionedManifest) (dir : Option String) : Except Stop (Option PatchSet) :=
  match m, dir with
  | .v2 _, some _ => .error (.error .manifestV2DoesNotSupportPatchSet)
  | .v2 _, none => .ok none
  | _, some d => do
    let s ← getPatchSet C.prims C.disk d
    return some s
  | _, none => .error (.error .manifestV1RequiresPatchSet)

/-- The patch set test of `approve_manifest_programmatic_verifications` (services.rs:1082-1101). -/
def patchSetMatches (m : VersionedManifest) (p : Option PatchSet) : Bool :=
  match m with
  | .v2 _ => true
  | .v1 m => some m.patchSet = p
  | .v0 m => some m.patchSet = p

/-- `approve_manifest_programmatic_verifications` (services.rs:1061-1122). -/
def approveVerifications (m : VersionedManifest) (manifestSet shareSet : QuorumSet) (patchSet : Option PatchSet)
    (enclave : NitroConfig) (pivotHash : Bytes) (quorumKey : Public) : Bool :=
  m.manifestSet = manifestSet && m.shareSet = shareSet && patchSetMatches m patchSet && m.enclave = enclave &&
  m.pivotHash = pivotHash && m.namespaceOf.quorumKey = quorumKey.toBytes

/-- The DNS question is only asked for V2 manifests (services.rs:1205-1223). -/
def dnsQuestions : VersionedManifest → List Question
  | .v2 m => [.dns m.dns]
  | _ => []

/-- The questions of `approve_manifest_human_verifications` (services.rs:1124-1228), in order. -/
def approveQuestions (m : VersionedManifest) : List Question :=
  [.schemaVersion m.versionLabel, .namespaceName m.namespaceOf.name, .namespaceNonce m.namespaceOf.nonce,
   .restartPolicy m.restart, .pivotArgs m.args, .debugMode m.debugMode, .bridges m.bridgeConfig] ++ dnsQuestions m

/-- The checks of `approve_manifest` (services.rs:998-1020). -/
def approveChecks (C : Setting S) (a : ApproveArgs) : Except Stop VersionedManifest := do
  let m ← readManifest C.disk a.manifestPath
  let quorumKey ← orStop (publicFromFile C.prims C.disk a.quorumKeyPath) (.error .failedToReadQuorumPublicKey)
  let patchSet ← localPatchSet C m a.patchSetDir
  let manifestSet ← getSet C.prims C.disk a.manifestSetDir
  let shareSet ← getSet C.prims C.disk a.shareSetDir
  let enclave ← extractNitroConfig C.prims C.awsRoot C.disk a.releaseDir a.pcr3Path
  let pivotHash ← extractPivotHash C.disk a.pivotHashPath
  guardStop (approveVerifications m manifestSet shareSet patchSet enclave pivotHash quorumKey) .exit1
  return m

/-- The approval of a hash by a key file (services.rs:1034-1040, 1684-1690). -/
def signApproval (p : Prims) (pair : Pair) (name : String) (hash : Bytes) : Approval :=
  ⟨pair.sign p hash, ⟨name, (pair.publicKey p).toBytes⟩⟩

/-- `serde_json::to_vec(&approval)`. services.rs:1052, 1687. -/
def approvalBytes (a : Approval) : Bytes := Json.writeBytes (JCodec.approval.enc a)

/-- `str::replace('/', "-")`. services.rs:1046. -/
def dashed (s : String) : String := String.ofList (s.toList.map fun c => if c = '/' then '-' else c)

/-- The file name of an approval (services.rs:1042-1048). -/
def approvalName (name : String) (m : VersionedManifest) : String :=
  name ++ "-" ++ dashed m.namespaceOf.name ++ "-" ++ String.ofList (natText m.namespaceOf.nonce.toNat) ++ ".approval"

/-- `approve_manifest` (services.rs:980-1059). -/
def approveManifest (C : Setting S) (pair : Pair) (a : ApproveArgs) (input : List String) : Run S Unit := do
  let m ← Run.lift (approveChecks C a)
  confirm a.autoConfirm (approveQuestions m) input
  write C (pathJoin a.approvalsDir (approvalName a.memberAlias m))
    (approvalBytes (signApproval C.prims pair a.memberAlias (m.hash C.prims)))

/-- One file of `find_approvals` (services.rs:2410-2437). -/
def readApproval (C : Setting S) (m : VersionedManifest) (path : String) : Except Stop Approval := do
  let c ← orStop (C.disk.file path) .panic
  let a ← orStop (fromJsonSlice JCodec.approval c) .panic
  guardStop (m.manifestSet.members.contains a.member) .panic
  let k ← mapStop (Public.fromBytes C.prims a.member.pubKey) fun _ => .panic
  mapStop (Public.verify C.prims k (m.hash C.prims) a.signature) fun _ => .panic
  return a

/-- Names ending in `approval` (services.rs:2406-2409). -/
def isApprovalFile (name : String) : Bool := (splitStr '.' name).getLast? = some "approval"

/-- `find_approvals` (services.rs:2397-2444). -/
def findApprovals (C : Setting S) (dir : String) (m : VersionedManifest) : Except Stop (List Approval) := do
  let names ← findFileNames C.disk dir
  let as ← (names.filter isApprovalFile).mapM fun n => readApproval C m (pathJoin dir n)
  guardStop (m.manifestSet.threshold.toNat ≤ as.length) .panic
  return as

/-- The envelope around a manifest (services.rs:1239-1261). -/
def envelopeOf (as : List Approval) : VersionedManifest → Envelope
  | .v2 m => .v2 ⟨m, as, []⟩
  | .v1 m => .v1 ⟨m, as, []⟩
  | .v0 m => .v0 ⟨m, as, []⟩

/-- The envelope of `generate_manifest_envelope` (services.rs:1235-1266). -/
def envelopeChecks (C : Setting S) (approvalsDir manifestPath : String) : Except Stop Envelope := do
  let m ← readManifest C.disk manifestPath
  let as ← findApprovals C approvalsDir m
  mapStop ((envelopeOf as m).checkApprovals C.prims) fun _ => .exit1
  return envelopeOf as m

/-- `generate_manifest_envelope` (services.rs:1230-1282). -/
def generateManifestEnvelope (C : Setting S) (approvalsDir manifestPath : String) (output : Option String) :
    Run S Unit := do
  let e ← Run.lift (envelopeChecks C approvalsDir manifestPath)
  let b ← Run.lift (orStop e.toStorageVec .panic)
  write C (output.getD (pathJoin approvalsDir "manifest_envelope")) b

/-! ## Booting -/

/-- Accepted answer of a boot (services.rs:1449-1455, 1469-1475). -/
def bootAnswer : Option Msg → Option Bytes
  | some (.bootStandardResponse (.attestation doc)) => some doc
  | _ => none

/-- `boot_standard_attestation_doc_with_fallback` (services.rs:1439-1475). -/
noncomputable def bootWithFallback (C : Setting S) (e : Envelope) (pivot : Bytes) : Run S Bytes := do
  let r ← postWire C (.bootStandardJsonEnvelopeRequest e pivot) .borsh
  match bootAnswer r with
  | some doc => pure doc
  | none => do
    let r ← postWire C (.bootStandardRequest e pivot) .borsh
    Run.lift (orStop (bootAnswer r) (.error .unexpectedProtocolMsgResponse))

/-- What a document is compared with (services.rs:1519-1525, 1626-1632). -/
def attestInput (p : Prims) (m : VersionedManifest) : Attest.Input :=
  ⟨m.hash p, m.enclave.pcr0, m.enclave.pcr1, m.enclave.pcr2, m.enclave.pcr3⟩

/-- The ephemeral key in a document (services.rs:1528-1532, 1644-1648). -/
def ephemeralKey (p : Prims) (doc : AttestationDoc) : Except Stop Public := do
  let b ← orStop doc.publicKey .panic
  mapStop (Public.fromBytes p b) fun _ => .panic

/-- Arguments of `boot-standard` (services.rs:1431-1437). -/
structure BootArgs where
  pivotPath : String
  envelopePath : String
  pcr3Path : String
  unsafeSkip : Bool

/-- Checks on the document returned by a boot (services.rs:1504-1533). -/
def checkBootDoc (C : Setting S) (a : BootArgs) (m : VersionedManifest) (cose : Bytes) : Except Stop Unit := do
  let doc ← extractDoc C.pki C.awsRoot C.now cose a.unsafeSkip none
  if a.unsafeSkip then .ok ()
  else do
    let role ← findPcr3 C.disk a.pcr3Path
    checkPcr3 C.prims role m.enclave.pcr3
    mapStop (Attest.verifyManifest C.prims .setup doc (attestInput C.prims m)) fun e => .error (.qosAttest e)
    let _ ← ephemeralKey C.prims doc

/-- `boot_standard` (services.rs:1477-1535). -/
noncomputable def bootStandard (C : Setting S) (a : BootArgs) : Run S Unit := do
  let pivot ← Run.lift (orStop (C.disk.file a.pivotPath) (.error .failedToReadPivot))
  let e ← Run.lift (readEnvelope C.disk a.envelopePath)
  let cose ← bootWithFallback C e pivot
  Run.lift (checkBootDoc C a e.manifest cose)

/-- The answer of `get-attestation-doc` (services.rs:1542-1558). -/
def liveAnswer : Option Msg → Option (Bytes × Envelope)
  | some (.liveAttestationDocResponse (.attestation doc) (some e)) => some (doc, e)
  | _ => none

/-- `get_attestation_doc` (services.rs:1537-1570); the envelope is written as plain JSON. -/
noncomputable def getAttestationDoc (C : Setting S) (docPath envelopePath : String) : Run S Unit := do
  let r ← post C .liveAttestationDocRequest
  let a ← Run.lift (orStop (liveAnswer r) .panic)
  write C docPath a.1
  write C envelopePath (Json.writeBytes a.2.encUntagged)

/-! ## Provisioning -/

/-- Arguments of `proxy-re-encrypt-share` (services.rs:1573-1586). -/
structure ProxyArgs where
  sharePath : String
  docPath : String
  approvalPath : String
  wrappedPath : String
  pcr3Path : String
  envelopePath : String
  manifestSetDir : String
  memberAlias : String
  unsafeSkip : Bool
  unsafeEphPath : Option String
  autoConfirm : Bool

/-- The key to encrypt to (services.rs:1636-1649). -/
def targetKey (C : Setting S) (doc : AttestationDoc) : Option String → Except Stop Public
  | some path => do
    let c ← orStop (C.disk.file path) .panic
    let pair ← mapStop (Pair.fromHexContents C.prims c) fun _ => .panic
    return pair.publicKey C.prims
  | none => ephemeralKey C.prims doc

/-- `Result::is_ok`. services.rs:2434. -/
def isOk {ε α : Type} : Except ε α → Bool
  | .ok _ => true
  | .error _ => false

/-- `proxy_re_encrypt_share_programmatic_verifications` (services.rs:1708-1735). -/
def proxyVerifications (p : Prims) (e : Envelope) (manifestSet : QuorumSet) (member : QuorumMember) : Bool :=
  isOk (e.checkApprovals p) && e.manifest.manifestSet = manifestSet &&
  e.manifest.shareSet.members.contains member

/-- Aliases in bytewise order (`Vec::sort` of the lines, services.rs:1783-1790). -/
def sortedAliases (as : List Approval) : List String :=
  (as.map (·.member.aliasName)).insertionSort fun a b => bytesLe (utf8 a) (utf8 b) = true

/-- The questions of `proxy_re_encrypt_share_human_verifications` (services.rs:1737-1801), in order. -/
def proxyQuestions (e : Envelope) (role : String) : List Question :=
  [.namespaceName e.manifest.namespaceOf.name, .namespaceNonce e.manifest.namespaceOf.nonce, .iamRole role,
   .approvers (sortedAliases e.manifestSetApprovals)]

/-- What `proxy_re_encrypt_share` has read and checked before it asks. services.rs:1592-1660. -/
structure ProxyChecked where
  envelope : Envelope
  encryptedShare : Bytes
  role : String
  target : Public

/-- The attestation checks (services.rs:1614-1634). -/
def proxyAttestation (C : Setting S) (a : ProxyArgs) (e : Envelope) (doc : AttestationDoc) (role : String) :
    Except Stop Unit :=
  if a.unsafeSkip then .ok ()
  else do
    checkPcr3 C.prims role e.manifest.enclave.pcr3
    mapStop (Attest.verifyManifest C.prims .setup doc (attestInput C.prims e.manifest)) fun e => .error (.qosAttest e)

/-- The checks of `proxy_re_encrypt_share` (services.rs:1604-1660). -/
def proxyChecks (C : Setting S) (pair : Pair) (a : ProxyArgs) : Except Stop ProxyChecked := do
  let e ← readEnvelope C.disk a.envelopePath
  let doc ← readDoc C.pki C.awsRoot C.now C.disk a.docPath a.unsafeSkip
  let share ← orStop (C.disk.file a.sharePath) (.error .readShare)
  let role ← findPcr3 C.disk a.pcr3Path
  proxyAttestation C a e doc role
  let target ← targetKey C doc a.unsafeEphPath
  let manifestSet ← getSet C.prims C.disk a.manifestSetDir
  guardStop (proxyVerifications C.prims e manifestSet ⟨a.memberAlias, (pair.publicKey C.prims).toBytes⟩) .exit1
  return ⟨e, share, role, target⟩

/-- Decrypting with the personal key and encrypting to the enclave (services.rs:1677-1682). -/
def reEncrypt (C : Setting S) (pair : Pair) (target : Public) (encryptedShare : Bytes) : Except Stop Bytes := do
  let share ← mapStop (pair.decrypt C.prims encryptedShare) fun _ => .panic
  mapStop (target.encrypt C.prims C.rand share) fun _ => .panic

/-- `proxy_re_encrypt_share` (services.rs:1592-1706). -/
def proxyReEncryptShare (C : Setting S) (pair : Pair) (a : ProxyArgs) (input : List String) : Run S Unit := do
  let c ← Run.lift (proxyChecks C pair a)
  confirm a.autoConfirm (proxyQuestions c.envelope c.role) input
  let wrapped ← Run.lift (reEncrypt C pair c.target c.encryptedShare)
  write C a.approvalPath
    (approvalBytes (signApproval C.prims pair a.memberAlias (c.envelope.manifest.hash C.prims)))
  write C a.wrappedPath wrapped

/-- `read_attestation_approval` (services.rs:2503-2511). -/
def readShareApproval (d : Disk) (path : String) : Except Stop Approval := do
  let c ← orStop (d.file path) (.error .failedToReadAttestationApproval)
  orStop (fromJsonSlice JCodec.approval c) (.error .fileDidNotHaveValidAttestationApproval)

/-- The expected answer of `post-share` (services.rs:1814-1817). -/
def provisionAnswer : Option Msg → Option Bool
  | some (.provisionResponse r) => some r
  | _ => none

/-- `post_share` (services.rs:1803-1826); the result is what is printed. -/
noncomputable def postShare (C : Setting S) (wrappedPath approvalPath : String) : Run S Bool := do
  let share ← Run.lift (orStop (C.disk.file wrappedPath) (.error .failedToReadEphWrappedShare))
  let approval ← Run.lift (readShareApproval C.disk approvalPath)
  let r ← post C (.provisionRequest share approval)
  Run.lift (orStop (provisionAnswer r) .panic)

/-! ## Key forwarding -/

/-- Accepted answer of `boot-key-fwd` (services.rs:1303-1309). -/
def bootKeyAnswer : Msg → Option Bytes
  | .bootKeyForwardResponse (.attestation doc) => some doc
  | _ => none

/-- `boot_key_fwd` (services.rs:1284-1318). -/
noncomputable def bootKeyFwd (C : Setting S) (envelopePath pivotPath docPath : String) : Run S Unit := do
  let pivot ← Run.lift (orStop (C.disk.file pivotPath) (.error .failedToReadPivot))
  let e ← Run.lift (readEnvelope C.disk envelopePath)
  let r ← postFallback C (.bootKeyForwardRequest e pivot) bootKeyAnswer (encodingsFor e)
  let doc ← Run.lift (orStop r (.error .unexpectedProtocolMsgResponse))
  write C docPath doc

/-- `EncryptedQuorumKey` (key.rs:16-24) as JSON. -/
def encryptedKeyCodec : JCodec (Bytes × Bytes) :=
  JCodec.struct false (Fields.both (Fields.req "encrypted_quorum_key" JCodec.hexVec) (Fields.req "signature" JCodec.hexVec))

/-- Accepted answer of `export-key` (services.rs:1339-1347). -/
def exportAnswer : Msg → Option (Bytes × Bytes)
  | .exportKeyResponse k s => some (k, s)
  | _ => none

/-- `export_key` (services.rs:1320-1356). -/
noncomputable def exportKey (C : Setting S) (envelopePath docPath outPath : String) : Run S Unit := do
  let e ← Run.lift (readEnvelope C.disk envelopePath)
  let doc ← Run.lift (orStop (C.disk.file docPath) (.error .failedToReadAttestationDoc))
  let r ← postFallback C (.exportKeyRequest e doc) exportAnswer (encodingsFor e)
  let k ← Run.lift (orStop r (.error .unexpectedProtocolMsgResponse))
  write C outPath (Json.writeBytes (encryptedKeyCodec.enc k))

/-- Accepted answer of `inject-key` (services.rs:1421-1426). -/
def injectAnswer : Option Msg → Option Unit
  | some .injectKeyResponse => some ()
  | _ => none

/-- `inject_key` (services.rs:1405-1429). An HTTP error panics, another answer is an error. -/
noncomputable def injectKey (C : Setting S) (path : String) : Run S Unit := do
  let c ← Run.lift (orStop (C.disk.file path) (.error .failedToReadEncryptedQuorumKey))
  let k ← Run.lift (orStop (fromJsonSlice encryptedKeyCodec c) (.error .invalidEncryptedQuorumKey))
  let r ← post C (.injectKeyRequest k.1 k.2)
  let r ← Run.lift (orStop r .panic)
  Run.lift (orStop (injectAnswer (some r)) (.error .unexpectedProtocolMsgResponse))

end Qos.Client
