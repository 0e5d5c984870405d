import Verif.Conformance.Services
import Verif.Conformance.Fixtures
import Verif.Model.Prompts
import Verif.Model.ClientTools
/-!
# Replay of the tests of the client's services

The tests of qos_client/src/cli/services.rs:2723-3990, run on the model: verifications of a manifest before it is approved and of an
envelope before a share is handed over, the prompts word for word, the role's register, conversion to Borsh. Evaluated by Lean's
interpreter; the build stops if one differs. Checks of the model against the program's own tests, not properties.
-/
namespace Qos.Conformance
open P256 (Pair Public)
open Client

/-- The members of `setup` (services.rs:2758-2843). -/
def clientMembers : List QuorumMember := [⟨"0", testPub 31⟩, ⟨"1", testPub 32⟩, ⟨"2", testPub 33⟩]

/-- The manifest set and the share set of `setup`. -/
def clientSet : QuorumSet := ⟨2, clientMembers⟩

/-- The patch set of `setup`. -/
def clientPatchSet : PatchSet := ⟨2, clientMembers.map (·.pubKey)⟩

/-- The enclave of `setup`. -/
def clientEnclave : NitroConfig where
  pcr0 := List.replicate 42 1
  pcr1 := List.replicate 42 2
  pcr2 := List.replicate 42 3
  pcr3 := List.replicate 42 4
  awsRootCertificate := awsRoot
  qosCommit := "good-qos-commit"

/-- The pivot hash of `setup`. -/
def clientPivotHash : Bytes := List.replicate 32 5

/-- The quorum key of `setup`. -/
def clientQuorumKey : Public := (testPair 34).publicKey realPrims

/-- The manifest of `setup`. -/
def clientManifest : Manifest where
  «namespace» := ⟨"test-namespace", 2, clientQuorumKey.toBytes⟩
  pivot := ⟨clientPivotHash, .never, [], false, ["--option1", "argument"]⟩
  manifestSet := clientSet
  shareSet := clientSet
  enclave := clientEnclave
  patchSet := clientPatchSet

/-- Its V2 counterpart (services.rs:2858-2884). -/
def clientManifestV2 (dns : Option DnsConfig) : ManifestV2 where
  version := .v2
  «namespace» := clientManifest.«namespace»
  pivot := ⟨clientPivotHash, .never, [], false, ["--option1", "argument"], []⟩
  manifestSet := clientSet
  shareSet := clientSet
  enclave := clientEnclave
  dns := dns

/-- The envelope of `setup`, with two approvals. -/
def clientEnvelope : EnvelopeOf Manifest where
  manifest := clientManifest
  manifestSetApprovals := [31, 32].mapIdx fun i n =>
    ⟨(testPair n).sign realPrims ((VersionedManifest.v1 clientManifest).hash realPrims), ⟨toString i, testPub n⟩⟩
  shareSetApprovals := []

/-! ## services.rs:2910-2946 -/

#eval check (encodingsFor (.v1 clientEnvelope) = [.borsh, .json] ∧
  encodingsFor (.v2 ⟨clientManifestV2 none, [], []⟩) = [.json])

/-! ## Before a manifest is approved (services.rs:2948-3236) -/

/-- `approve_manifest_programmatic_verifications` on the manifest of `setup`. -/
def clientVerifies (ms ss : QuorumSet) (ps : Option PatchSet) (e : NitroConfig) (h : Bytes) (k : Public) : Bool :=
  approveVerifications (.v1 clientManifest) ms ss ps e h k

/-- A set with the first alias changed. -/
def renamedSet : QuorumSet := ⟨2, ⟨"vape2live", testPub 31⟩ :: clientMembers.drop 1⟩

#eval check (clientVerifies clientSet clientSet (some clientPatchSet) clientEnclave clientPivotHash clientQuorumKey)
#eval check (!clientVerifies renamedSet clientSet (some clientPatchSet) clientEnclave clientPivotHash clientQuorumKey)
#eval check (!clientVerifies clientSet renamedSet (some clientPatchSet) clientEnclave clientPivotHash clientQuorumKey)
#eval check (!clientVerifies clientSet clientSet (some ⟨2, testPub 35 :: clientPatchSet.members.drop 1⟩) clientEnclave clientPivotHash clientQuorumKey)
#eval check (!clientVerifies clientSet clientSet (some clientPatchSet) { clientEnclave with pcr0 := List.replicate 42 128 } clientPivotHash clientQuorumKey)
#eval check (!clientVerifies clientSet clientSet (some clientPatchSet) { clientEnclave with pcr1 := List.replicate 42 128 } clientPivotHash clientQuorumKey)
#eval check (!clientVerifies clientSet clientSet (some clientPatchSet) { clientEnclave with pcr2 := List.replicate 42 128 } clientPivotHash clientQuorumKey)
#eval check (!clientVerifies clientSet clientSet (some clientPatchSet) { clientEnclave with pcr3 := List.replicate 42 128 } clientPivotHash clientQuorumKey)
#eval check (!clientVerifies clientSet clientSet (some clientPatchSet) { clientEnclave with qosCommit := "bad qos commit" } clientPivotHash clientQuorumKey)
#eval check (!clientVerifies clientSet clientSet (some clientPatchSet) clientEnclave (List.replicate 32 6) clientQuorumKey)
#eval check (!clientVerifies clientSet clientSet (some clientPatchSet) clientEnclave clientPivotHash ((testPair 36).publicKey realPrims))

/-! ## The prompts of `approve-manifest` (services.rs:3238-3462) -/

/-- The lines a run of prompts writes, as the tests split them. -/
def linesShown (es : List Client.Event) : List String :=
  ((screen (fun _ => false) es).flatMap fun t => (String.ofList t).splitOn "\n")

/-- The verdict and the lines. -/
def approveAsks (m : VersionedManifest) (input : List String) : Bool × List String :=
  let r := interview (approveQuestions m) input
  (r.1, linesShown r.2)

/-- The line of an index, and the verdict. -/
def shows (r : Bool × List String) (verdict : Bool) (ls : List (Nat × String)) : Bool :=
  r.1 == verdict && ls.all fun p => r.2[p.1]? == some p.2

#eval check (approveAsks (.v1 clientManifest) (List.replicate 7 "yes\n")).1
#eval check (shows (approveAsks (.v1 clientManifest) ["yes\n", "No\n"]) false
  [(1, "Is this the correct namespace name: test-namespace? (y/n)")])
#eval check (shows (approveAsks (.v1 clientManifest) ["yes\n", "yes\n", "ye"]) false
  [(2, "Is this the correct namespace nonce: 2? (y/n)")])
#eval check (shows (approveAsks (.v1 clientManifest) ["yes\n", "yes\n", "yes\n", "no"]) false
  [(3, "Is this the correct pivot restart policy: RestartPolicy::Never? (y/n)")])
#eval check (shows (approveAsks (.v1 clientManifest) ["yes\n", "yes\n", "yes\n", "yes\n", "no"]) false
  [(4, "Are these the correct pivot args:"), (5, "[\"--option1\", \"argument\"]?"), (6, "(y/n)")])
#eval check (shows (approveAsks (.v1 clientManifest) ["no\n"]) false
  [(0, "Is this the correct manifest schema version: v1? (y/n)")])
#eval check (shows (approveAsks (.v1 clientManifest) ["yes\n", "yes\n", "yes\n", "yes\n", "yes\n", "no"]) false
  [(7, "Is this the correct pivot debug mode: false? (y/n)")])
#eval check (shows (approveAsks (.v1 clientManifest) ["yes\n", "yes\n", "yes\n", "yes\n", "yes\n", "yes\n", "no"]) false
  [(8, "Is this the correct pivot bridge configuration:"), (9, "[]?"), (10, "(y/n)")])

/-- The V2 manifest's last question. -/
def dnsAsked (dns : Option DnsConfig) (line : String) : Bool :=
  shows (approveAsks (.v2 (clientManifestV2 dns)) (List.replicate 7 "yes\n" ++ ["no"])) false
    [(0, "Is this the correct manifest schema version: v2? (y/n)"), (11, line)]

#eval check (dnsAsked none "Is this the correct DNS configuration: absent? (y/n)")
#eval check (dnsAsked (some ⟨[]⟩) "Is this the correct DNS configuration: configured with no resolvers? (y/n)")
#eval check (dnsAsked (some ⟨(Ip.parse "1.1.1.1").toList⟩) "Are these the correct DNS resolvers:")

/-! ## Before a share is handed over (services.rs:3464-3558) -/

/-- `proxy_re_encrypt_share_programmatic_verifications` for the first member. -/
def proxyVerifies (e : EnvelopeOf Manifest) (set : QuorumSet) : Bool :=
  proxyVerifications realPrims (.v1 e) set ⟨"0", testPub 31⟩

/-- The envelope with its first approval changed. -/
def firstApproval (f : Approval → Approval) : EnvelopeOf Manifest :=
  { clientEnvelope with manifestSetApprovals := clientEnvelope.manifestSetApprovals.mapIdx fun i a => if i = 0 then f a else a }

#eval check (proxyVerifies clientEnvelope clientSet)
#eval check (!proxyVerifies (firstApproval fun a => { a with signature := List.replicate 32 0 }) clientSet)
#eval check (!proxyVerifies (firstApproval fun a => { a with member := ⟨"not-a-member", a.member.pubKey⟩ }) clientSet)
#eval check (!proxyVerifies { clientEnvelope with manifestSetApprovals := clientEnvelope.manifestSetApprovals.dropLast } clientSet)
#eval check (!proxyVerifies clientEnvelope ⟨2, clientMembers ++ [⟨"got what plants need", testPub 37⟩]⟩)

/-! ## The prompts of `proxy-re-encrypt-share` (services.rs:3560-3742) -/

/-- The verdict and the lines. -/
def proxyAsks (input : List String) : Bool × List String :=
  let r := interview (proxyQuestions (.v1 clientEnvelope) "pr3") input
  (r.1, linesShown r.2)

/-- The reminder. -/
def reminderLine : String := "Please answer with either \"yes\" (y) or \"no\" (n)"

#eval check (proxyAsks (List.replicate 4 "yes\n")).1
#eval check (proxyAsks ["y\n", "yes\n", "yea\n", "tes\n", "Yes\n", "YES\n"] =
  (true, ["Is this the correct namespace name: test-namespace? (y/n)",
    "Is this the correct namespace nonce: 2? (y/n)",
    "Does this AWS IAM role belong to the intended organization: pr3? (y/n)",
    reminderLine,
    reminderLine,
    "The following manifest set members approved:",
    "\talias: 0",
    "\talias: 1",
    "Is this ok? (y/n)"]))
#eval check (proxyAsks ["no\n"] = (false, ["Is this the correct namespace name: test-namespace? (y/n)"]))
#eval check (proxyAsks ["yes\n", "no\n"] = (false, ["Is this the correct namespace name: test-namespace? (y/n)",
  "Is this the correct namespace nonce: 2? (y/n)"]))
#eval check ((proxyAsks ["yes\n", "yes\n", "NO\n"]).1 = false ∧ (proxyAsks ["yes\n", "yes\n", "NO\n"]).2.getLast? =
  some "Does this AWS IAM role belong to the intended organization: pr3? (y/n)")
#eval check (shows (proxyAsks ["yes\n", "yes\n", "yes\n", "no"]) false [(3, "The following manifest set members approved:"),
  (4, "\talias: 0"), (5, "\talias: 1"), (6, "Is this ok? (y/n)")] && (proxyAsks ["yes\n", "yes\n", "yes\n", "no"]).2.length == 7)
#eval check (proxyAsks ["maybe\n", "dunno\n", "unsure\n"] =
  (false, ["Is this the correct namespace name: test-namespace? (y/n)", reminderLine, reminderLine]))

/-! ## The role's register (services.rs:3744-3778) -/

/-- The role of the test. -/
def roleArn : String := "arn:aws:iam::123456789012:role/Webserver"

#eval check (Hex.encode (pcr3FromPreimage realPrims roleArn) =
  ascii "78fce75db17cd4e0a3fb8dad3ad128ca5e77edbb2b2c7f75329dccd99aa5f6ef4fc1f1a452e315b9e98f9e312e6921e6")
#eval check (match checkPcr3 realPrims roleArn (pcr3FromPreimage realPrims roleArn) with | .ok () => true | _ => false)
#eval check (match checkPcr3 realPrims roleArn (List.replicate 48 4) with
  | .error (.error .pcr3PreimageDoesNotMatchManifest) => true | _ => false)

/-! ## Conversion to Borsh (services.rs:3780-3964) -/

/-- A disk with one file. -/
def oneFile (contents : Bytes) : Setting Unit where
  prims := realPrims
  pki := ⟨fun _ => .error .invalidCOSESign1Structure, fun _ _ _ _ => .error .webPki, fun _ _ => .ok ()⟩
  awsRoot := awsRoot
  now := 0
  rand := ⟨[], []⟩
  disk := ⟨fun p => if p = "in" then some contents else none, fun _ => none, fun _ => true⟩
  net s _ := (s, none)

/-- What the conversion wrote. -/
def written (kind : DisplayType) (contents : Bytes) : Option Bytes :=
  match (jsonToBorsh (oneFile contents) kind "in" "out" ()).events with
  | [.wrote "out" b] => some b
  | _ => none

/-- Whether the conversion refuses a V2 file. -/
def refusesV2 (kind : DisplayType) (contents : Bytes) : Bool :=
  match (jsonToBorsh (oneFile contents) kind "in" "out" ()).result with
  | .error (.error .manifestV2NotConvertibleToBorsh) => true
  | _ => false

#eval check ((written .manifest (Json.writeBytes (manifestJson (.v1 clientManifest)))).bind (Borsh.tryFromSlice Borsh.manifest) =
  some clientManifest)
#eval check ((written .manifestEnvelope (Json.writeBytes (Envelope.encUntagged (.v1 clientEnvelope)))).bind
  (Borsh.tryFromSlice (Borsh.envelopeOf Borsh.manifest)) = some clientEnvelope)
#eval check (match (jsonToBorsh (oneFile (ascii "{}")) .genesisOutput "in" "out" ()).result with | .error _ => true | .ok _ => false)
#eval check (refusesV2 .manifest (Json.writeBytes (manifestJson (.v2 (clientManifestV2 none)))))
#eval check (refusesV2 .manifestEnvelope (Json.writeBytes (Envelope.encUntagged
  (.v2 ⟨clientManifestV2 none, clientEnvelope.manifestSetApprovals, []⟩))))

/-! ## Directories (services.rs:3966-3989) -/

#eval check (match findFileNames ⟨fun _ => none, fun _ => some ["alice.pub", "._alice.pub"], fun _ => true⟩ "dir" with
  | .ok names => names = ["alice.pub"] | .error _ => false)

end Qos.Conformance
