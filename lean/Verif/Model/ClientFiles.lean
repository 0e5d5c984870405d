import Verif.Model.Approvals
import Verif.Model.Attest
import Verif.Model.Builder
import Mathlib.Data.List.Sort
/-!
# The operator's files and prompts

`/repo/src/qos_client/src/cli/services.rs`: how the command line client reads key sets, PCR files, pivot hashes and
manifests from the operator's disk, and how it asks the operator for confirmation.

Simplifications: file names are Unicode text (the code converts other names lossily); an entry of a directory that
is itself a directory has no contents; error values carry no operating system detail.
-/
namespace Qos.Client

/-- `YubiKeyError` (yubikey.rs:40-81), without what the card's library says. -/
inductive YubiKeyError where
  | failedToGenerateKey | failedToAuthWithMgm | failedToVerifyPin | failedToGenerateSelfSignedCert | willNotOverwriteSlot
  | cannotFindSigningKey | cannotFindKeyAgree | foundNonP256Key | couldNotDeserializePublic | signingFailed
  | failedToVerifyYubiKeySignature | keyAgreementFailed | connection | envelopeDeserialize | failedToLoadKey | invalidSecret
  | failedToChangePin | derError | emptyPublicKeyInfo
  deriving DecidableEq

/-- Error values of the client (services.rs:67-178), in the order the model grew. -/
inductive ClientError where
  | p256 (e : P256Error)
  | readShare
  | failedToReadQuorumPublicKey
  | failedToReadManifestFile
  | failedToReadAttestationDoc
  | failedToReadAttestationApproval
  | fileDidNotHaveValidAttestationApproval
  | failedToReadEphWrappedShare
  | failedToRead (path : String)
  | couldNotDecodeHex
  | deserialize
  | failedToReadDrKey
  | qosAttest (e : AttestError)
  | failedToReadPivot
  | unexpectedProtocolMsgResponse
  | failedToReadEncryptedQuorumKey
  | invalidEncryptedQuorumKey
  | invalidSignature
  | couldNotReproduceSignature
  | badDecryption
  | errorReadingSeed
  | secretDoesNotMatch
  | genesisOutputDoesNotMatchRequest
  | manifestV2NotConvertibleToBorsh
  | manifestV2DoesNotSupportPatchSet
  | manifestV1RequiresPatchSet
  | manifestV1DoesNotSupportDnsConfig
  | manifestBuilder (e : Builder.BuilderError)
  | pcr3PreimageDoesNotMatchManifest
  | failedToWrite
  | openSingleYubiKey
  | generateSign (e : YubiKeyError)
  | generateEncrypt (e : YubiKeyError)
  | yubiKey (e : YubiKeyError)
  | pinEntryError
  | wrongPublicKey

/-- How a command ends early: an error value, a panic, or `std::process::exit(1)`.
The `Result`, `expect`/`unwrap`/`panic!` and `std::process::exit(1)` of services.rs:345-2740. -/
inductive Stop where
  | error (e : ClientError)
  | panic
  | exit1

/-- What the client sees of the operator's machine: file contents, directory listings (in the order the operating
system gives them) and which files can be written.
`std::fs` as used at services.rs:2263, 2294, 2516, 2560, 2611-2680. -/
structure Disk where
  file : String → Option Bytes
  dir : String → Option (List String)
  writable : String → Bool

/-- `ok_or`, and `unwrap` with a panic. The error handling of services.rs:2222-2645. -/
def orStop {α : Type} (x : Option α) (s : Stop) : Except Stop α :=
  match x with
  | some a => .ok a
  | none => .error s

/-- `map_err`, and `unwrap` with a panic, on results. The error handling of services.rs:2222-2645. -/
def mapStop {ε α : Type} (x : Except ε α) (f : ε → Stop) : Except Stop α :=
  match x with
  | .ok a => .ok a
  | .error e => .error (f e)

/-- `if !b { stop }`. The error handling of services.rs:2222-2645. -/
def guardStop (b : Bool) (s : Stop) : Except Stop Unit := if b then .ok () else .error s

/-! ## Text files -/

/-- The raw lines given by `BufRead::lines`: split at `\n`, one `\r` before a `\n` removed, no last empty line.
services.rs:2263-2264, 2516-2517, 2560-2561, 2601-2602. -/
def rawLines : Bytes → List Bytes
  | [] => []
  | b :: bs =>
    if b = 10 then [] :: rawLines bs
    else if b = 13 ∧ bs.head? = some 10 then rawLines bs
    else match rawLines bs with
      | [] => [[b]]
      | l :: ls => (b :: l) :: ls

/-- `BufRead::lines` collected: every line must be UTF-8. services.rs:2263-2264, 2516-2517, 2560-2561, 2601-2602. -/
def textLines (bs : Bytes) : Option (List String) := (rawLines bs).mapM utf8Decode

/-- The parts of `str::split` at a character. services.rs:2524, 2648. -/
def splitAtChar (c : Char) : List Char → List (List Char)
  | [] => [[]]
  | x :: xs =>
    if x = c then [] :: splitAtChar c xs
    else match splitAtChar c xs with
      | [] => [[x]]
      | l :: ls => (x :: l) :: ls

/-- `str::split` at a character. services.rs:2524, 2648. -/
def splitStr (c : Char) (s : String) : List String := (splitAtChar c s.toList).map String.ofList

/-- `Path::join` on Unix. services.rs:2548, 583-619, 1043. -/
def pathJoin (dir name : String) : String :=
  if name.toList.head? = some '/' then name
  else if dir.toList = [] ∨ dir.toList.getLast? = some '/' then dir ++ name
  else dir ++ "/" ++ name

/-- `qos_hex::decode` on text. services.rs:2543, 2606. -/
def hexText (s : String) : Option Bytes :=
  match Hex.decode (utf8 s) with
  | .ok b => some b
  | .error _ => none

/-- `P256Public::from_hex_file` on the bytes of the file (qos_p256/src/lib.rs:461-474, qos_hex/src/lib.rs:173-177). -/
def publicFromContents (p : Prims) (contents : Bytes) : Except P256Error P256.Public :=
  match utf8Decode contents with
  | none => .error (.qosHex "InvalidUtf8")
  | some s => match Hex.decode (utf8 (P256.trim s)) with
    | .error _ => .error (.qosHex "")
    | .ok b => P256.Public.fromBytes p b

/-- `P256Public::from_hex_file`. Called at services.rs:2294, 2322, 2350, 2375. -/
def publicFromFile (p : Prims) (d : Disk) (path : String) : Option P256.Public :=
  match d.file path with
  | none => none
  | some c => match publicFromContents p c with
    | .ok k => some k
    | .error _ => none

/-! ## Key set directories -/

/-- `find_file_paths` (services.rs:2222-2242): the names, `._` files left out. -/
def findFileNames (d : Disk) (dir : String) : Except Stop (List String) :=
  match d.dir dir with
  | none => .error .panic
  | some names => .ok (names.filter fun n => !(['.', '_'].isPrefixOf n.toList))

/-- The threshold file's number (services.rs:2259-2271): first line, trimmed, as `u32`. -/
def readThreshold (d : Disk) (path : String) : Except Stop UInt32 := do
  let c ← orStop (d.file path) .panic
  let l ← orStop (rawLines c).head? .panic
  let s ← orStop (utf8Decode l) .panic
  let n ← orStop (parseUnsigned (2 ^ 32) (P256.trim s).toList) .panic
  return UInt32.ofNat n

/-- `find_threshold` (services.rs:2244-2283). -/
def findThreshold (d : Disk) (dir : String) : Except Stop UInt32 := do
  let names ← findFileNames d dir
  let found ← (names.filter fun n => splitStr '.' n = ["quorum_threshold"]).mapM
    fun n => readThreshold d (pathJoin dir n)
  match found with
  | [t] => return t
  | _ => throw .panic

/-- One member of a set (services.rs:2288-2306, 2316-2334, 2369-2388): none unless the name ends in `pub`. -/
def readMember (p : Prims) (d : Disk) (dir name : String) : Except Stop QuorumMember := do
  let k ← orStop (publicFromFile p d (pathJoin dir name)) .panic
  return ⟨(splitStr '.' name).headD "", k.toBytes⟩

/-- The names of a directory that are key files: last dotted part `pub` (services.rs:2290-2293). -/
def isKeyFile (name : String) : Bool := (splitStr '.' name).getLast? = some "pub"

/-- Members in the order of the listing. services.rs:2285-2311. -/
def readMembers (p : Prims) (d : Disk) (dir : String) : Except Stop (List QuorumMember) := do
  let names ← findFileNames d dir
  (names.filter isKeyFile).mapM fun n => readMember p d dir n

/-- Bytewise lexicographic order (`Ord` of `Vec<u8>`, and of `str`).
The sorts of services.rs:2308, 2336, 2361, 2392. -/
def bytesLe : Bytes → Bytes → Bool
  | [], _ => true
  | _ :: _, [] => false
  | a :: as, b :: bs => if a < b then true else if b < a then false else bytesLe as bs

/-- Derived `Ord` of `QuorumMember` (boot.rs:279-290): alias, then key. -/
def memberLe (a b : QuorumMember) : Prop :=
  if utf8 a.aliasName = utf8 b.aliasName then bytesLe a.pubKey b.pubKey = true
  else bytesLe (utf8 a.aliasName) (utf8 b.aliasName) = true

instance : DecidableRel memberLe := fun a b => by unfold memberLe; infer_instance

/-- `get_share_set`, `get_manifest_set`, `get_genesis_set` (services.rs:2285-2339, 2366-2395). -/
def getSet (p : Prims) (d : Disk) (dir : String) : Except Stop QuorumSet := do
  let ms ← readMembers p d dir
  let t ← findThreshold d dir
  return ⟨t, ms.insertionSort memberLe⟩

/-- `get_patch_set` (services.rs:2341-2364). -/
def getPatchSet (p : Prims) (d : Disk) (dir : String) : Except Stop PatchSet := do
  let ms ← readMembers p d dir
  let t ← findThreshold d dir
  return ⟨t, (ms.map (·.pubKey)).insertionSort fun a b => bytesLe a b = true⟩

/-! ## Build artefacts -/

/-- One line of `lines_to_entries` (services.rs:2521-2528): exactly two words. -/
def lineEntry (line : String) : Except Stop (String × String) :=
  match splitStr ' ' line with
  | [value, label] => .ok (value, label)
  | _ => .error .panic

/-- `lines_to_entries` (services.rs:2513-2528). -/
def linesToEntries (d : Disk) (path : String) : Except Stop (List (String × String)) := do
  let c ← orStop (d.file path) .panic
  let ls ← orStop (textLines c) .panic
  ls.mapM lineEntry

/-- `get_entry` (services.rs:2536-2545). -/
def getEntry (entries : List (String × String)) (i : Nat) (label : String) : Except Stop Bytes := do
  let e ← orStop entries[i]? .panic
  guardStop (e.2 = label) .panic
  orStop (hexText e.1) .panic

/-- `QosPcrs` (services.rs:2530-2534). -/
structure QosPcrs where
  pcr0 : Bytes
  pcr1 : Bytes
  pcr2 : Bytes

/-- `extract_qos_pcrs` (services.rs:2547-2556). -/
def extractQosPcrs (d : Disk) (releaseDir : String) : Except Stop QosPcrs := do
  let entries ← linesToEntries d (pathJoin releaseDir "aws-x86_64.pcrs")
  let pcr0 ← getEntry entries 0 "PCR0"
  let pcr1 ← getEntry entries 1 "PCR1"
  let pcr2 ← getEntry entries 2 "PCR2"
  return ⟨pcr0, pcr1, pcr2⟩

/-- `find_pcr3` (services.rs:2558-2566): the first line, every line being UTF-8. -/
def findPcr3 (d : Disk) (path : String) : Except Stop String := do
  let c ← orStop (d.file path) .panic
  let ls ← orStop (textLines c) .panic
  orStop ls.head? .panic

/-- `pcr3_from_preimage` (services.rs:2568-2577). -/
def pcr3FromPreimage (p : Prims) (role : String) : Bytes := p.sha384 (List.replicate 48 0 ++ utf8 role)

/-- `extract_pcr3` (services.rs:2579-2581). -/
def extractPcr3 (p : Prims) (d : Disk) (path : String) : Except Stop Bytes := do
  let role ← findPcr3 d path
  return pcr3FromPreimage p role

/-- `check_pcr3_preimage_against_manifest` (services.rs:2583-2596). -/
def checkPcr3 (p : Prims) (role : String) (manifestPcr3 : Bytes) : Except Stop Unit :=
  guardStop (pcr3FromPreimage p role = manifestPcr3) (.error .pcr3PreimageDoesNotMatchManifest)

/-- `extract_pivot_hash` (services.rs:2598-2607). -/
def extractPivotHash (d : Disk) (path : String) : Except Stop Bytes := do
  let c ← orStop (d.file path) .panic
  let ls ← orStop (textLines c) .panic
  let l ← orStop ls.head? .panic
  orStop (hexText l) .panic

/-- `extract_nitro_config` (services.rs:948-963); `awsRoot` stands for `cert_from_pem(AWS_ROOT_CERT_PEM).unwrap()`. -/
def extractNitroConfig (p : Prims) (awsRoot : Bytes) (d : Disk) (releaseDir pcr3Path : String) :
    Except Stop NitroConfig := do
  let pcr3 ← extractPcr3 p d pcr3Path
  let q ← extractQosPcrs d releaseDir
  return { pcr0 := q.pcr0, pcr1 := q.pcr1, pcr2 := q.pcr2, pcr3 := pcr3, awsRootCertificate := awsRoot, qosCommit := "" }

/-- `read_manifest_compat` (services.rs:2446-2451). -/
def readManifest (d : Disk) (path : String) : Except Stop VersionedManifest := do
  let c ← orStop (d.file path) (.error .failedToReadManifestFile)
  orStop (VersionedManifest.tryFromSliceCompat c) (.error .deserialize)

/-- `read_manifest_envelope_compat` (services.rs:2478-2485). -/
def readEnvelope (d : Disk) (path : String) : Except Stop Envelope := do
  let c ← orStop (d.file path) (.error .failedToReadManifestFile)
  orStop (Envelope.tryFromSliceCompat c) (.error .deserialize)

/-- `extract_attestation_doc` (services.rs:2615-2642). `validate_attestation_doc` runs inside `fromDer`;
the unsafe variant only decodes. -/
def extractDoc (pki : Attest.Pki) (awsRoot : Bytes) (now : Nat) (der : Bytes) (unsafeSkip : Bool)
    (timeOverride : Option Nat) : Except Stop AttestationDoc :=
  if unsafeSkip then mapStop (pki.decode der) fun _ => .panic
  else mapStop (Attest.fromDer pki der awsRoot (timeOverride.getD now)) fun _ => .panic

/-- `read_attestation_doc` (services.rs:2464-2476). -/
def readDoc (pki : Attest.Pki) (awsRoot : Bytes) (now : Nat) (d : Disk) (path : String) (unsafeSkip : Bool) :
    Except Stop AttestationDoc := do
  let c ← orStop (d.file path) (.error .failedToReadAttestationDoc)
  extractDoc pki awsRoot now c unsafeSkip none

/-! ## Asking the operator -/

/-- What a prompt shows. The prompt texts (services.rs:1132-1225, 1749-1798) are these values printed; the list of
approvers is one alias per line, sorted. -/
inductive Question where
  | schemaVersion (v : String)
  | namespaceName (n : String)
  | namespaceNonce (n : UInt32)
  | restartPolicy (r : RestartPolicy)
  | pivotArgs (a : List String)
  | debugMode (b : Bool)
  | bridges (b : List BridgeConfig)
  | dns (d : Option DnsConfig)
  | iamRole (r : String)
  | approvers (aliases : List String)
  deriving DecidableEq

/-- Observable effects of a command, in order: a question with the lines read in answer, a request sent, a file
written. services.rs:2645-2740 and qos_client/src/lib.rs:26-104. -/
inductive Event where
  | asked (q : Question) (answers : List String)
  | sent (body : Bytes)
  | wrote (path : String) (contents : Bytes)
  deriving DecidableEq

/-- One `read_line` of `Prompter::prompt` (services.rs:2691-2696); end of input reads as an empty line. -/
def readLine : List String → String × List String
  | [] => ("", [])
  | l :: ls => (l, ls)

/-- The loop of `prompt_is_yes` (services.rs:2698-2719): the verdict, the lines read, the lines left. -/
def promptLoop : Nat → List String → Bool × List String × List String
  | 0, input => (false, [], input)
  | n + 1, input =>
    let r := readLine input
    if ["yes", "Yes", "YES", "Y", "y"].contains (P256.trim r.1) then (true, [r.1], r.2)
    else if ["no", "No", "NO", "N", "n"].contains (P256.trim r.1) then (false, [r.1], r.2)
    else
      let t := promptLoop n r.2
      (t.1, r.1 :: t.2.1, t.2.2)

/-- `prompt_is_yes` (services.rs:2698-2719). -/
def promptIsYes (input : List String) : Bool × List String × List String := promptLoop 3 input

/-- A run of prompts that stops at the first one not answered yes. services.rs:1124-1228, 1737-1801. -/
def interview : List Question → List String → Bool × List Event
  | [], _ => (true, [])
  | q :: qs, input =>
    let r := promptIsYes input
    if r.1 then
      let t := interview qs r.2.2
      (t.1, .asked q r.2.1 :: t.2)
    else (false, [.asked q r.2.1])

end Qos.Client
