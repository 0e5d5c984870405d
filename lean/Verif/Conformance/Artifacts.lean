import Verif.Conformance.Real
import Verif.Conformance.Fixtures
import Verif.Model.ClientCli
/-!
# Replay of qos_client/tests/golden_artifacts.rs

The command lines of the test, run on the model of `qos_client` with the standard cryptographic functions, write the
golden bytes of the test. A check of the model against the real program, not a property.
-/
namespace Qos.Conformance
open ClientCli (program Outside)

/-- Files of the fixture (golden_artifacts.rs:238-319), rooted at `/t`, and what the commands have written so far. -/
def fixture (written : List (String × Bytes)) : List (String × Bytes) :=
  written ++ [("/t/pivot.bin", ascii "mono compat pivot bytes"), ("/t/dist/aws-x86_64.pcrs", releasePcrs),
    ("/t/pcr3_preimage", pcr3Preimage), ("/t/quorum_key.pub", primaryPub), ("/t/secret", primarySecret),
    ("/t/manifest-set/quorum_threshold", ascii "1\n"), ("/t/manifest-set/dev.pub", primaryPub),
    ("/t/share-set/quorum_threshold", ascii "1\n"), ("/t/share-set/dev.pub", primaryPub),
    ("/t/patch-set/quorum_threshold", ascii "1\n"), ("/t/patch-set/dev.pub", primaryPub)]

/-- The machine of the test; no attestation document is read by these commands. -/
def machine (written : List (String × Bytes)) (approvals : List String) : Client.Setting Unit where
  prims := realPrims
  pki := ⟨fun _ => .error .webPki, fun _ _ _ _ => .error .webPki, fun _ _ => .error .webPki⟩
  awsRoot := awsRoot
  now := 0
  rand := ⟨[], []⟩
  disk := { file := fun p => (fixture written).lookup p,
            dir := fun d => if d = "/t/approvals" then some approvals else some ["dev.pub", "quorum_threshold"],
            writable := fun _ => true }
  net := fun s _ => (s, none)

/-- No network, no input. -/
def alone : Outside Unit := ⟨fun _ s _ => (s, none), fun _ s => (s, none), [], [], fun _ _ => 0, ⟨[], fun _ _ => 0, ⟨[], []⟩, ⟨[], []⟩⟩⟩

/-- The files a command wrote, if it ended well. -/
noncomputable def wrote (written : List (String × Bytes)) (approvals args : List String) : Option (List Client.Event) :=
  match program (machine written approvals) alone ("qos_client" :: args) () with
  | ⟨.ok _, _, es⟩ => some es
  | _ => none

/-- golden_artifacts.rs:323-329, 446-449. -/
theorem golden_pivot_hash :
    wrote [] [] ["pivot-hash", "--output-path", "/t/pivot.hash", "--pivot-path", "/t/pivot.bin"] =
      some [.wrote "/t/pivot.hash" (Hex.encode goldenPivotHash)] := by decide +kernel

/-! The other commands handle texts of thousands of characters, which the kernel is slow at: they are run by Lean's
interpreter, and the build stops if one does not do what the test asserts. -/

/-- The handlers of the commands below (`ClientCli.execute`, which as a whole is not executable because the wire form of
messages is partial). -/
def runCall (C : Client.Setting Unit) : ClientCli.Call → Client.Out Unit Unit
  | .pivotHash p o => ClientCli.pivotHash C p o ()
  | .generateManifest v2 a => (if v2 then Client.generateManifestV2 C a else Client.generateManifest C a) ()
  | .approveManifest s a => match ClientCli.openSigner C s with
    | .ok pair => Client.approveManifest C pair a [] ()
    | .error e => ⟨.error e, (), []⟩
  | .generateManifestEnvelope d p o => Client.generateManifestEnvelope C d p o ()
  | .jsonToBorsh t p o => Client.jsonToBorsh C t p o ()
  | _ => ⟨.error .exit1, (), []⟩

/-- A command line: what it wrote, or how it ended. -/
def runLine (written : List (String × Bytes)) (approvals args : List String) : Except Client.Stop (List (String × Bytes)) :=
  match ClientCli.client ("qos_client" :: args) with
  | .runs c => match runCall (machine written approvals) c with
    | ⟨.ok _, _, es⟩ => .ok (es.filterMap fun e => match e with
      | .wrote p b => some (p, b)
      | _ => none)
    | ⟨.error e, _, _⟩ => .error e
  | _ => .error .exit1

/-- Did it end well, having written just this? -/
def writes (r : Except Client.Stop (List (String × Bytes))) (w : List (String × Bytes)) : Bool :=
  match r with
  | .ok l => l == w
  | .error _ => false

/-- Did it fail? -/
def fails (r : Except Client.Stop (List (String × Bytes))) : Bool :=
  match r with
  | .ok _ => false
  | .error _ => true

/-- Did it fail with this error? -/
def failsWith (r : Except Client.Stop (List (String × Bytes))) (p : Client.ClientError → Bool) : Bool :=
  match r with
  | .error (.error e) => p e
  | _ => false

/-- The arguments of golden_artifacts.rs:331-366, `more` for what differs between the tests. -/
def generateArgs (more : List String) : List String :=
  ["generate-manifest", "--nonce", "31", "--namespace", "production/signer", "--restart-policy", "always",
   "--manifest-path", "/t/manifest", "--pivot-hash-path", "/t/pivot.hash", "--qos-release-dir", "/t/dist",
   "--pcr3-preimage-path", "/t/pcr3_preimage", "--manifest-set-dir", "/t/manifest-set", "--share-set-dir", "/t/share-set",
   "--quorum-key-path", "/t/quorum_key.pub"] ++ more

/-- The arguments of the golden and of the V2 tests. -/
def pivotArgs : List String :=
  ["--pivot-args", "[--config,/etc/config.json]", "--debug-mode", "true",
   "--bridge-config", "[{\"type\":\"server\",\"port\":3000,\"host\":\"0.0.0.0\"}]"]

/-- The arguments of golden_artifacts.rs:368-393. -/
def approveArgs (more : List String) : List String :=
  ["approve-manifest", "--alias", "dev", "--manifest-approvals-dir", "/t/approvals", "--manifest-path", "/t/manifest",
   "--manifest-set-dir", "/t/manifest-set", "--share-set-dir", "/t/share-set", "--pcr3-preimage-path", "/t/pcr3_preimage",
   "--pivot-hash-path", "/t/pivot.hash", "--qos-release-dir", "/t/dist", "--quorum-key-path", "/t/quorum_key.pub",
   "--secret-path", "/t/secret", "--unsafe-auto-confirm"] ++ more

/-- The arguments of golden_artifacts.rs:395-401. -/
def envelopeArgs : List String :=
  ["generate-manifest-envelope", "--manifest-approvals-dir", "/t/approvals", "--manifest-path", "/t/manifest"]

/-- The arguments of golden_artifacts.rs:457-490. -/
def borshArgs (type path : String) : List String :=
  ["json-to-borsh", "--display-type", type, "--file-path", path, "--output-path", "/t/out.borsh"]

/-- Size and digest of the one file written. -/
def borshOf (r : Except Client.Stop (List (String × Bytes))) : Option (Nat × Bytes) :=
  match r with
  | .ok [("/t/out.borsh", b)] => some (b.length, sha256 b)
  | _ => none

/-- After `pivot-hash`. -/
def disk1 : List (String × Bytes) := [("/t/pivot.hash", Hex.encode goldenPivotHash)]
/-- After `generate-manifest`. -/
def disk2 : List (String × Bytes) := disk1 ++ [("/t/manifest", goldenManifest)]
/-- After `approve-manifest`. -/
def disk3 : List (String × Bytes) := disk2 ++ [("/t/approvals/dev-production-signer-31.approval", goldenApproval)]
/-- After `generate-manifest-envelope`, with the V0 manifest of golden_artifacts.rs:475-476. -/
def disk4 : List (String × Bytes) :=
  disk3 ++ [("/t/approvals/manifest_envelope", goldenEnvelope), ("/t/manifest_v0.json", goldenManifestV0)]

/-! `golden_manifest_approval_and_envelope_raw_bytes` (golden_artifacts.rs:441-507) -/
#eval check (writes (runLine disk1 [] (generateArgs (pivotArgs ++ ["--patch-set-dir", "/t/patch-set"]))) [("/t/manifest", goldenManifest)])
#eval check (writes (runLine disk2 [] (approveArgs ["--patch-set-dir", "/t/patch-set"]))
  [("/t/approvals/dev-production-signer-31.approval", goldenApproval)])
#eval check (writes (runLine disk3 ["dev-production-signer-31.approval"] envelopeArgs) [("/t/approvals/manifest_envelope", goldenEnvelope)])
#eval check (borshOf (runLine disk4 [] (borshArgs "manifest" "/t/manifest")) == some (1436, goldenManifestDigest))
#eval check (borshOf (runLine disk4 [] (borshArgs "manifest-envelope" "/t/approvals/manifest_envelope")) == some (1653, goldenEnvelopeDigest))
#eval check (borshOf (runLine disk4 [] (borshArgs "manifest" "/t/manifest_v0.json")) == some (1422, goldenManifestV0Digest))

/-- What the V2 commands write, in sequence. -/
def v2Disk (more : List String) : List (String × Bytes) :=
  match runLine disk1 [] (generateArgs (pivotArgs ++ ["--use-manifest-version", "2"] ++ more)) with
  | .ok w => match runLine (disk1 ++ w) [] (approveArgs []) with
    | .ok w2 => match runLine (disk1 ++ w ++ w2) ["dev-production-signer-31.approval"] envelopeArgs with
      | .ok w3 => disk1 ++ w ++ w2 ++ w3
      | .error _ => []
    | .error _ => []
  | .error _ => []

/-- The disk of the first V2 test. -/
def v2First : List (String × Bytes) := v2Disk ["--dns-resolvers", "[1.1.1.1,2606:4700:4700::1111]"]

/-- The manifest of the first V2 test, decoded. -/
def v2Manifest : Option ManifestV2 := (v2First.lookup "/t/manifest").bind (fromJsonSlice JCodec.manifestV2)

/-- The manifest hash: SHA-256 of the canonical JSON text. -/
def v2Hash : Option Bytes := v2Manifest.bind fun m => (Json.canonBytes (JCodec.manifestV2.enc m)).map sha256

/-- Does this approval verify over the manifest hash? -/
def v2Signed (a : Approval) : Bool :=
  match P256.Public.fromBytes realPrims a.member.pubKey, v2Hash with
  | .ok k, some h => (k.verify realPrims h a.signature).toBool
  | _, _ => false

/-! `v2_commands_generate_approve_and_envelope_use_json_hash` (golden_artifacts.rs:509-641) -/
#eval check (match (v2First.lookup "/t/manifest").bind Json.parse with
  | some v => (v.get "version").any (Json.beq (.str "v2")) && (v.get "patchSet").isNone &&
    (v.get "dns").any (Json.beq (.obj [("resolvers", .arr [.str "1.1.1.1", .str "2606:4700:4700::1111"])]))
  | none => false)
#eval check (match (v2First.lookup "/t/approvals/dev-production-signer-31.approval").bind (fromJsonSlice JCodec.approval) with
  | some a => v2Signed a
  | none => false)
#eval check (match (v2First.lookup "/t/approvals/manifest_envelope").bind (fromJsonSlice JCodec.envelopeV2) with
  | some e => e.manifestSetApprovals.length == 1 && e.manifestSetApprovals.all v2Signed && decide (some e.manifest = v2Manifest)
  | none => false)

/-! `v2_commands_json_to_borsh_rejected` (golden_artifacts.rs:643-725) -/
#eval check (((v2Disk []).lookup "/t/approvals/manifest_envelope").isSome &&
  fails (runLine (v2Disk []) [] (borshArgs "manifest" "/t/manifest")) &&
  fails (runLine (v2Disk []) [] (borshArgs "manifest-envelope" "/t/approvals/manifest_envelope")))

/-! `v1_generate_manifest_without_patch_set_fails_cleanly` (golden_artifacts.rs:727-772) and
`v1_generate_manifest_with_dns_resolvers_fails_cleanly` (golden_artifacts.rs:774-821) -/
#eval check (failsWith (runLine disk1 [] (generateArgs ["--pivot-args", "[]"])) fun e => match e with
  | .manifestV1RequiresPatchSet => true
  | _ => false)
#eval check (failsWith (runLine disk1 [] (generateArgs ["--pivot-args", "[]", "--dns-resolvers", "[1.1.1.1]"])) fun e => match e with
  | .manifestV1DoesNotSupportDnsConfig => true
  | _ => false)

end Qos.Conformance
