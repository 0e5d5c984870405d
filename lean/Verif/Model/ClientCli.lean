import Verif.Model.HostCli
import Verif.Model.Host
import Verif.Model.ClientTools
/-!
# The operator's command line

`/repo/src/qos_client/src/cli/mod.rs`: the commands, their options, and what is run with them. Simplifications: printed text
is what `Shown` keeps of it; `execute` is without the `smartcard` feature, where everything about
YubiKeys panics (with it: Model/Yubikey.lean).
-/
namespace Qos.ClientCli
open Parser (Token TokenMap single flag)
open HostCli (Started)
open Client (Setting Run Stop DisplayType)
open P256 (Pair)

/-! ## Commands -/

/-- `Command` (mod.rs:112-232). -/
inductive Command where
  | hostHealth | enclaveStatus | enclaveVersion | generateFileKey | generateManifestEnvelope | bootGenesis | afterGenesis
  | verifyGenesis | generateManifest | approveManifest | bootStandard | getAttestationDoc | getEphemeralKeyHex
  | proxyReEncryptShare | postShare | dangerousDevBoot | provisionYubikey | advancedProvisionYubikey | pivotHash | shamirSplit
  | shamirReconstruct | yubikeySign | yubikeyPublic | yubikeyPivReset | yubikeyChangePin | display | jsonToBorsh | bootKeyFwd
  | exportKey | injectKey | p256Verify | p256Sign | p256AsymmetricEncrypt | p256AsymmetricDecrypt
  deriving DecidableEq

/-- The arms of `From<&str> for Command` (mod.rs:234-276). -/
def commandNames : List (String × Command) :=
  [("host-health", .hostHealth), ("enclave-status", .enclaveStatus), ("enclave-version", .enclaveVersion),
   ("generate-file-key", .generateFileKey), ("generate-manifest-envelope", .generateManifestEnvelope),
   ("boot-genesis", .bootGenesis), ("after-genesis", .afterGenesis), ("verify-genesis", .verifyGenesis),
   ("generate-manifest", .generateManifest), ("approve-manifest", .approveManifest), ("boot-standard", .bootStandard),
   ("get-attestation-doc", .getAttestationDoc), ("get-ephemeral-key-hex", .getEphemeralKeyHex),
   ("proxy-re-encrypt-share", .proxyReEncryptShare), ("post-share", .postShare), ("dangerous-dev-boot", .dangerousDevBoot),
   ("provision-yubikey", .provisionYubikey), ("advanced-provision-yubikey", .advancedProvisionYubikey),
   ("pivot-hash", .pivotHash), ("shamir-split", .shamirSplit), ("shamir-reconstruct", .shamirReconstruct),
   ("yubikey-sign", .yubikeySign), ("yubikey-public", .yubikeyPublic), ("yubikey-piv-reset", .yubikeyPivReset),
   ("yubikey-change-pin", .yubikeyChangePin), ("display", .display), ("json-to-borsh", .jsonToBorsh),
   ("boot-key-fwd", .bootKeyFwd), ("export-key", .exportKey), ("inject-key", .injectKey), ("p256-verify", .p256Verify),
   ("p256-sign", .p256Sign), ("p256-asymmetric-encrypt", .p256AsymmetricEncrypt),
   ("p256-asymmetric-decrypt", .p256AsymmetricDecrypt)]

/-- `From<&str> for Command` (mod.rs:234-276); `none` is a panic. -/
def command (s : String) : Option Command := (commandNames.find? fun x => x.1 = s).map Prod.snd

/-- A required value: most token builders of mod.rs:285-634, such as `namespace_token` (mod.rs:285-289). -/
def req (name : String) : Token := { name := name, takesValue := true, required := true }

/-- An optional value, such as `manifest_envelope_path_token` (mod.rs:446-450). -/
def opt (name : String) : Token := { name := name, takesValue := true }

/-- A flag, such as `unsafe_auto_confirm_token` (mod.rs:397-404). -/
def onOff (name : String) : Token := { name := name }

/-- `pivot_args_token` (mod.rs:300-307), `debug_mode_token` (mod.rs:593-598). -/
def withDefault (name value : String) : Token := { name := name, takesValue := true, default := some value }

/-- `yubikey_token` (mod.rs:411-416). -/
def yubikeyToken : Token := { name := "yubikey", forbids := ["secret-path"] }

/-- `secret_path_token` (mod.rs:417-425). -/
def secretPathToken : Token := { name := "secret-path", takesValue := true, forbids := ["yubikey"] }

/-- `share_token` (mod.rs:474-482). -/
def shareToken : Token := { name := "share", takesValue := true, required := true, allowMultiple := true }

/-- `base` (mod.rs:615-634). -/
def base : List Token := [req "host-ip", req "host-port", opt "endpoint-base-path"]

/-- `GetParserForCommand for Command` (mod.rs:880-923) with the parsers of mod.rs:636-877. -/
def tokens : Command → List Token
  | .hostHealth | .enclaveStatus | .enclaveVersion => base
  | .generateFileKey => [req "master-seed-path", req "pub-path"]
  | .bootGenesis => base ++ [req "namespace-dir", req "share-set-dir", req "pcr3-preimage-path", onOff "unsafe-skip-attestation",
      req "qos-release-dir", opt "dr-key-path"]
  | .afterGenesis => [yubikeyToken, secretPathToken, req "share-path", req "alias", req "namespace-dir", req "qos-release-dir",
      req "pcr3-preimage-path", onOff "unsafe-skip-attestation", opt "current-pin-path", opt "validation-time-override"]
  | .verifyGenesis => [req "namespace-dir", req "master-seed-path"]
  | .generateManifest => [req "nonce", req "namespace", req "pivot-hash-path", req "restart-policy", req "qos-release-dir",
      req "pcr3-preimage-path", req "manifest-path", req "manifest-set-dir", req "share-set-dir", opt "patch-set-dir",
      req "quorum-key-path", withDefault "pivot-args" "[]", opt "bridge-config", opt "dns-resolvers",
      withDefault "debug-mode" "false", opt "use-manifest-version"]
  | .approveManifest => [yubikeyToken, secretPathToken, req "manifest-path", req "manifest-approvals-dir", req "qos-release-dir",
      req "pcr3-preimage-path", req "pivot-hash-path", req "alias", req "quorum-key-path", req "manifest-set-dir",
      req "share-set-dir", opt "patch-set-dir", onOff "unsafe-auto-confirm"]
  | .bootStandard => base ++ [req "pivot-path", opt "manifest-envelope-path", req "pcr3-preimage-path",
      onOff "unsafe-skip-attestation"]
  | .getAttestationDoc => base ++ [req "attestation-doc-path", opt "manifest-envelope-path"]
  | .proxyReEncryptShare => [yubikeyToken, secretPathToken, req "share-path", req "approval-path", req "eph-wrapped-share-path",
      req "attestation-doc-path", req "pcr3-preimage-path", req "manifest-set-dir", opt "manifest-envelope-path", req "alias",
      onOff "unsafe-skip-attestation", opt "unsafe-eph-path-override", onOff "unsafe-auto-confirm"]
  | .getEphemeralKeyHex => [req "attestation-doc-path", req "ephemeral-key-path"]
  | .postShare => base ++ [req "approval-path", req "eph-wrapped-share-path"]
  | .dangerousDevBoot => base ++ [req "pivot-path", req "restart-policy", withDefault "pivot-args" "[]",
      opt "unsafe-eph-path-override"]
  | .generateManifestEnvelope => [req "manifest-approvals-dir", req "manifest-path", opt "manifest-envelope-path"]
  | .provisionYubikey => [req "pub-path", yubikeyToken]
  | .advancedProvisionYubikey => [req "master-seed-path", opt "current-pin-path"]
  | .pivotHash => [req "output-path", req "pivot-path"]
  | .shamirSplit => [secretPathToken, req "total-shares", req "threshold", req "output-dir"]
  | .shamirReconstruct => [shareToken, req "output-path"]
  | .yubikeySign => [req "payload"]
  | .yubikeyPublic | .yubikeyPivReset => []
  | .yubikeyChangePin => [opt "current-pin-path", req "new-pin-path"]
  | .display => [req "file-path", req "display-type", onOff "json"]
  | .jsonToBorsh => [req "file-path", req "display-type", req "output-path"]
  | .bootKeyFwd => base ++ [opt "manifest-envelope-path", req "pivot-path", req "attestation-doc-path"]
  | .exportKey => base ++ [opt "manifest-envelope-path", req "attestation-doc-path", req "encrypted-quorum-key-path"]
  | .injectKey => base ++ [req "encrypted-quorum-key-path"]
  | .p256Verify => [req "payload-path", req "signature-path", req "pub-path"]
  | .p256Sign => [req "payload-path", req "signature-path", req "master-seed-path"]
  | .p256AsymmetricEncrypt => [req "plaintext-path", req "ciphertext-path", req "pub-path"]
  | .p256AsymmetricDecrypt => [req "plaintext-path", req "ciphertext-path", req "master-seed-path", onOff "output-hex"]

/-! ## Options -/

/-- The base path in `path` (mod.rs:935-939). -/
def baseOf (m : TokenMap) : String := (single m "endpoint-base-path").getD "qos"

/-- `path` (mod.rs:931-940). -/
def urlOf (m : TokenMap) (uri : String) : Option String :=
  (single m "host-ip").bind fun ip => (single m "host-port").bind fun port =>
    some ("http://" ++ ip ++ ":" ++ port ++ "/" ++ baseOf m ++ "/" ++ uri)

/-- `flag(..).unwrap_or(false)` (mod.rs:1293-1315). -/
def isSet (m : TokenMap) (name : String) : Bool := (flag m name).getD false

/-- `TryFrom<String> for RestartPolicy` (boot.rs:121-131). -/
def restartPolicy (s : String) : Option RestartPolicy :=
  if String.ofList (s.toList.map Char.toLower) = "never" then some .never
  else if String.ofList (s.toList.map Char.toLower) = "always" then some .always
  else none

/-- The text between `[` and `]` (mod.rs:1038-1049, 1081-1092); `none` is a panic. -/
def bracketed : List Char → Option (List Char)
  | '[' :: rest => if rest.getLast? = some ']' then some rest.dropLast else none
  | _ => none

/-- The comma separated parts (mod.rs:1051-1055, 1094-1106). -/
def commaParts (inner : List Char) : List String := if inner = [] then [] else Client.splitStr ',' (String.ofList inner)

/-- `pivot_args` (mod.rs:1036-1056); `none` is a panic. -/
def pivotArgs (s : String) : Option (List String) := (bracketed s.toList).map commaParts

/-- `BridgeConfig::port` (boot.rs:179-187). -/
def portOf : BridgeConfig → UInt16
  | .server p _ => p
  | .client p _ => p

/-- The assertion on the ports (mod.rs:1063-1071): no port twice. -/
def portsDiffer (l : List BridgeConfig) : Bool := decide (l.map portOf).Nodup

/-- `bridge_config` of a text (mod.rs:1060-1073); `none` is a panic. -/
def parseBridges (s : String) : Option (List BridgeConfig) :=
  ((Json.parse (utf8 s)).bind (JCodec.vec JCodec.bridgeConfig).dec).bind fun l => if portsDiffer l then some l else none

/-- `bridge_config` (mod.rs:1058-1077). -/
def bridges (m : TokenMap) : Option (List BridgeConfig) :=
  match single m "bridge-config" with
  | some s => parseBridges s
  | none => some []

/-- `dns_resolvers` of a text (mod.rs:1081-1106); `none` is a panic. -/
def parseResolvers (s : String) : Option (List IpAddr) :=
  (pivotArgs s).bind fun parts => parts.mapM Ip.parse

/-- `dns_resolvers` (mod.rs:1079-1108). -/
def resolvers (m : TokenMap) : Option (Option (List IpAddr)) :=
  match single m "dns-resolvers" with
  | some s => (parseResolvers s).map some
  | none => some none

/-- `validation_time_override` (mod.rs:1266-1270). -/
def timeOverride (m : TokenMap) : Option (Option Nat) :=
  match single m "validation-time-override" with
  | some s => (parseUnsigned (2 ^ 64) s.toList).map some
  | none => some none

/-- `From<&str> for DisplayType` (mod.rs:90-99); `none` is a panic. -/
def displayType (s : String) : Option DisplayType :=
  if s = "manifest" then some .manifest
  else if s = "manifest-envelope" then some .manifestEnvelope
  else if s = "genesis-output" then some .genesisOutput
  else none

/-- What `PairOrYubi::from_inputs` gets (mod.rs:1839-1851, services.rs:241-281). -/
inductive Signer where
  | file (path : String)
  | yubikey (pinPath : Option String)
  deriving DecidableEq

/-- `get_pair_or_yubi` (mod.rs:1839-1851), before anything is opened; `none` is a panic. `current-pin-path` is only declared
by `after-genesis`. -/
def signer (m : TokenMap) : Option Signer :=
  match isSet m "yubikey", single m "secret-path" with
  | true, none => some (.yubikey (single m "current-pin-path"))
  | false, some path => some (.file path)
  | _, _ => none

/-! ## What is run -/

/-- A command with the arguments of its service. The handlers of mod.rs:1449-1931. -/
inductive Call where
  | hostHealth (url : String)
  | enclaveStatus (url : String)
  | enclaveVersion (url : String)
  | generateFileKey (seedPath pubPath : String)
  | generateManifestEnvelope (approvalsDir manifestPath : String) (output : Option String)
  | bootGenesis (url : String) (a : Client.BootGenesisArgs)
  | afterGenesis (s : Signer) (a : Client.AfterGenesisArgs)
  | verifyGenesis (namespaceDir seedPath : String)
  | generateManifest (v2 : Bool) (a : Client.GenerateManifestArgs)
  | approveManifest (s : Signer) (a : Client.ApproveArgs)
  | bootStandard (url : String) (a : Client.BootArgs)
  | getAttestationDoc (url docPath envelopePath : String)
  | getEphemeralKeyHex (docPath keyPath : String)
  | proxyReEncryptShare (s : Signer) (a : Client.ProxyArgs)
  | postShare (url wrappedPath approvalPath : String)
  | dangerousDevBoot (url : String) (a : Client.DevArgs)
  | provisionYubikey (pubPath : String)
  | advancedProvisionYubikey (seedPath : String) (pinPath : Option String)
  | pivotHash (pivotPath output : String)
  | shamirSplit (secretPath : String) (total threshold : Nat) (dir : String)
  | shamirReconstruct (shares : List String) (output : String)
  | yubikeySign (payload : String)
  | yubikeyPublic
  | yubikeyPivReset
  | yubikeyChangePin (current new : String)
  | display (type : DisplayType) (path : String) (json : Bool)
  | jsonToBorsh (type : DisplayType) (path output : String)
  | bootKeyFwd (url envelopePath pivotPath docPath : String)
  | exportKey (url envelopePath docPath output : String)
  | injectKey (url keyPath : String)
  | p256Verify (payloadPath signaturePath pubPath : String)
  | p256Sign (payloadPath signaturePath seedPath : String)
  | p256AsymmetricEncrypt (plaintextPath ciphertextPath pubPath : String)
  | p256AsymmetricDecrypt (plaintextPath ciphertextPath seedPath : String) (hex : Bool)

/-- `generate_manifest`'s choice of the version (mod.rs:1674-1683): `none` exits. -/
def useV2 (m : TokenMap) : Option Bool :=
  (parseUnsigned (2 ^ 32) ((single m "use-manifest-version").getD "1").toList).bind fun n =>
    if n = 1 then some false else if n = 2 then some true else none

/-- `generate_manifest` (mod.rs:1656-1688). -/
def generateManifestCall (m : TokenMap) : Option Call := do
  let nonce ← parseUnsigned (2 ^ 32) (← single m "nonce").toList
  let name ← single m "namespace"
  let restart ← restartPolicy (← single m "restart-policy")
  let pivotHash ← single m "pivot-hash-path"
  let release ← single m "qos-release-dir"
  let pcr3 ← single m "pcr3-preimage-path"
  let manifest ← single m "manifest-path"
  let args ← pivotArgs (← single m "pivot-args")
  let shareSet ← single m "share-set-dir"
  let manifestSet ← single m "manifest-set-dir"
  let quorumKey ← single m "quorum-key-path"
  let bs ← bridges m
  let dns ← resolvers m
  let debug ← HostCli.parseBool ((single m "debug-mode").getD "false")
  let v2 ← useV2 m
  some (.generateManifest v2 ⟨UInt32.ofNat nonce, name, restart, pivotHash, release, pcr3, shareSet, manifestSet,
    single m "patch-set-dir", quorumKey, manifest, args, bs, dns, debug⟩)

/-- `approve_manifest` (mod.rs:1690-1710). -/
def approveManifestCall (m : TokenMap) : Option Call := do
  let s ← signer m
  let manifest ← single m "manifest-path"
  let approvals ← single m "manifest-approvals-dir"
  let release ← single m "qos-release-dir"
  let pcr3 ← single m "pcr3-preimage-path"
  let pivotHash ← single m "pivot-hash-path"
  let quorumKey ← single m "quorum-key-path"
  let manifestSet ← single m "manifest-set-dir"
  let shareSet ← single m "share-set-dir"
  let name ← single m "alias"
  some (.approveManifest s ⟨manifest, approvals, release, pcr3, pivotHash, quorumKey, manifestSet, shareSet,
    single m "patch-set-dir", name, isSet m "unsafe-auto-confirm"⟩)

/-- `proxy_re_encrypt_share` (mod.rs:1740-1761). -/
def proxyCall (m : TokenMap) : Option Call := do
  let s ← signer m
  let share ← single m "share-path"
  let envelope ← single m "manifest-envelope-path"
  let approval ← single m "approval-path"
  let wrapped ← single m "eph-wrapped-share-path"
  let doc ← single m "attestation-doc-path"
  let pcr3 ← single m "pcr3-preimage-path"
  let name ← single m "alias"
  let manifestSet ← single m "manifest-set-dir"
  some (.proxyReEncryptShare s ⟨share, doc, approval, wrapped, pcr3, envelope, manifestSet, name,
    isSet m "unsafe-skip-attestation", single m "unsafe-eph-path-override", isSet m "unsafe-auto-confirm"⟩)

/-- `boot_genesis` (mod.rs:1614-1627). -/
def bootGenesisCall (m : TokenMap) : Option Call := do
  let url ← urlOf m "message"
  let ns ← single m "namespace-dir"
  let shareSet ← single m "share-set-dir"
  let release ← single m "qos-release-dir"
  let pcr3 ← single m "pcr3-preimage-path"
  some (.bootGenesis url ⟨ns, shareSet, release, pcr3, isSet m "unsafe-skip-attestation", single m "dr-key-path"⟩)

/-- `after_genesis` (mod.rs:1629-1644). -/
def afterGenesisCall (m : TokenMap) : Option Call := do
  let s ← signer m
  let share ← single m "share-path"
  let name ← single m "alias"
  let ns ← single m "namespace-dir"
  let release ← single m "qos-release-dir"
  let pcr3 ← single m "pcr3-preimage-path"
  let time ← timeOverride m
  some (.afterGenesis s ⟨share, name, ns, release, pcr3, isSet m "unsafe-skip-attestation", time⟩)

/-- `dangerous_dev_boot` (mod.rs:1796-1805). The command declares no `bridge-config`, so that there are no bridges. -/
def devBootCall (m : TokenMap) : Option Call := do
  let url ← urlOf m "message"
  let pivot ← single m "pivot-path"
  let restart ← restartPolicy (← single m "restart-policy")
  let args ← pivotArgs (← single m "pivot-args")
  let bs ← bridges m
  some (.dangerousDevBoot url ⟨pivot, restart, args, bs, single m "unsafe-eph-path-override"⟩)

/-- The handlers (mod.rs:1449-1931) up to the call of the service; `none` is a panic or `exit(1)`. -/
def call (m : TokenMap) : Command → Option Call
  | .hostHealth => do return .hostHealth (← urlOf m "host-health")
  | .enclaveStatus => do return .enclaveStatus (← urlOf m "message")
  | .enclaveVersion => do return .enclaveVersion (← urlOf m "message")
  | .generateFileKey => do return .generateFileKey (← single m "master-seed-path") (← single m "pub-path")
  | .generateManifestEnvelope => do
    return .generateManifestEnvelope (← single m "manifest-approvals-dir") (← single m "manifest-path")
      (single m "manifest-envelope-path")
  | .bootGenesis => bootGenesisCall m
  | .afterGenesis => afterGenesisCall m
  | .verifyGenesis => do return .verifyGenesis (← single m "namespace-dir") (← single m "master-seed-path")
  | .generateManifest => generateManifestCall m
  | .approveManifest => approveManifestCall m
  | .bootStandard => do
    return .bootStandard (← urlOf m "message") ⟨← single m "pivot-path", ← single m "manifest-envelope-path",
      ← single m "pcr3-preimage-path", isSet m "unsafe-skip-attestation"⟩
  | .getAttestationDoc => do
    return .getAttestationDoc (← urlOf m "message") (← single m "attestation-doc-path") (← single m "manifest-envelope-path")
  | .getEphemeralKeyHex => do return .getEphemeralKeyHex (← single m "attestation-doc-path") (← single m "ephemeral-key-path")
  | .proxyReEncryptShare => proxyCall m
  | .postShare => do
    return .postShare (← urlOf m "message") (← single m "eph-wrapped-share-path") (← single m "approval-path")
  | .dangerousDevBoot => devBootCall m
  | .provisionYubikey => do return .provisionYubikey (← single m "pub-path")
  | .advancedProvisionYubikey => do return .advancedProvisionYubikey (← single m "master-seed-path") (single m "current-pin-path")
  | .pivotHash => do return .pivotHash (← single m "pivot-path") (← single m "output-path")
  | .shamirSplit => do
    return .shamirSplit (← single m "secret-path") (← parseUnsigned (2 ^ 64) (← single m "total-shares").toList)
      (← parseUnsigned (2 ^ 64) (← single m "threshold").toList) (← single m "output-dir")
  | .shamirReconstruct => do return .shamirReconstruct (← Parser.multiple m "share") (← single m "output-path")
  | .yubikeySign => do return .yubikeySign (← single m "payload")
  | .yubikeyPublic => some .yubikeyPublic
  | .yubikeyPivReset => some .yubikeyPivReset
  | .yubikeyChangePin => do return .yubikeyChangePin (← single m "current-pin-path") (← single m "new-pin-path")
  | .display => do
    return .display (← displayType (← single m "display-type")) (← single m "file-path") (isSet m "json")
  | .jsonToBorsh => do
    return .jsonToBorsh (← displayType (← single m "display-type")) (← single m "file-path") (← single m "output-path")
  | .bootKeyFwd => do
    return .bootKeyFwd (← urlOf m "message") (← single m "manifest-envelope-path") (← single m "pivot-path")
      (← single m "attestation-doc-path")
  | .exportKey => do
    return .exportKey (← urlOf m "message") (← single m "manifest-envelope-path") (← single m "attestation-doc-path")
      (← single m "encrypted-quorum-key-path")
  | .injectKey => do return .injectKey (← urlOf m "message") (← single m "encrypted-quorum-key-path")
  | .p256Verify => do return .p256Verify (← single m "payload-path") (← single m "signature-path") (← single m "pub-path")
  | .p256Sign => do return .p256Sign (← single m "payload-path") (← single m "signature-path") (← single m "master-seed-path")
  | .p256AsymmetricEncrypt => do
    return .p256AsymmetricEncrypt (← single m "plaintext-path") (← single m "ciphertext-path") (← single m "pub-path")
  | .p256AsymmetricDecrypt => do
    return .p256AsymmetricDecrypt (← single m "plaintext-path") (← single m "ciphertext-path") (← single m "master-seed-path")
      (isSet m "output-hex")

/-- `ClientRunner::new` and `run` (mod.rs:1325-1423) up to the call of the service; `panics` stands for a panic or `exit(1)`. -/
def client (args : List String) : Started Call :=
  match Parser.parseCommand command tokens args with
  | none => .panics
  | some (.error _) => .panics
  | some (.ok (c, m)) => if Parser.version m then .version else if Parser.help m then .help else
    match call m c with
    | some x => .runs x
    | none => .panics

/-! ## Running it -/

variable {S : Type}

/-- What is printed. mod.rs:1468-1506, services.rs:1951-1983. -/
inductive Shown where
  | nothing
  | text (s : Bytes)
  | phase (p : Phase)
  | version (version commit : String)
  | reconstructed (yes : Bool)
  | debug

/-- What surrounds the process besides the disk: every host in the network, the operator's answers, randomness.
What mod.rs:1449-1931 is run in. -/
structure Outside (S : Type) where
  post : String → S → Bytes → S × Option Bytes
  get : String → S → S × Option Bytes
  input : List String
  seed : Bytes
  coeffs : Nat → Nat → UInt8
  dev : Client.DevRandom

/-- The setting of a command that talks to a URL. mod.rs:931-944. -/
def at_ (C : Setting S) (o : Outside S) (url : String) : Setting S := { C with net := o.post url }

/-- Nothing is printed that is modelled. The handlers of mod.rs:1449-1931. -/
def quiet (x : Run S Unit) : Run S Shown := do
  let _ ← x
  pure .nothing

/-- `PairOrYubi::from_inputs` (services.rs:241-281) without the `smartcard` feature. -/
def openSigner (C : Setting S) : Signer → Except Stop Pair
  | .file path => Client.pairFromFile C.prims C.disk path
  | .yubikey _ => .error .panic

/-- `pivot_hash` (mod.rs:1449-1466). -/
def pivotHash (C : Setting S) (pivotPath output : String) : Run S Unit := do
  let pivot ← Run.lift (Client.orStop (C.disk.file pivotPath) .panic)
  Client.write C output (Hex.encode (C.prims.sha256 pivot))

/-- `host_health` (mod.rs:1468-1475), `request::get` (lib.rs:115-121). -/
def hostHealth (o : Outside S) (url : String) : Run S Shown := fun s =>
  match o.get url s with
  | (s', some b) => ⟨.ok (.text b), s', []⟩
  | (s', none) => ⟨.error .panic, s', []⟩

/-- The phase in an answer. mod.rs:1484-1489. -/
def statusAnswer : Option Msg → Except Stop Shown
  | some (.statusResponse p) => .ok (.phase p)
  | _ => .error .panic

/-- The version in an answer. mod.rs:1499-1505. -/
def versionAnswer : Option Msg → Except Stop Shown
  | some (.versionResponse v c) => .ok (.version v c)
  | _ => .error .panic

/-- `enclave_status` (mod.rs:1477-1490). -/
noncomputable def enclaveStatus (C : Setting S) : Run S Shown := do
  let r ← Client.post C .statusRequest
  Run.lift (statusAnswer r)

/-- `enclave_version` (mod.rs:1492-1506). -/
noncomputable def enclaveVersion (C : Setting S) : Run S Shown := do
  let r ← Client.post C .versionRequest
  Run.lift (versionAnswer r)

/-- `display` (mod.rs:1774-1783, services.rs:1951-1983). -/
def display (C : Setting S) (type : DisplayType) (path : String) (json : Bool) : Run S Shown := do
  let r ← Run.lift (Client.displayJson C type path)
  pure (match json, r with
    | true, some b => .text b
    | _, _ => .debug)

/-- The handlers (mod.rs:1449-1931). -/
noncomputable def execute (C : Setting S) (o : Outside S) : Call → Run S Shown
  | .hostHealth url => hostHealth o url
  | .enclaveStatus url => enclaveStatus (at_ C o url)
  | .enclaveVersion url => enclaveVersion (at_ C o url)
  | .generateFileKey seedPath pubPath => quiet (Client.generateFileKey C o.seed seedPath pubPath)
  | .generateManifestEnvelope dir path out => quiet (Client.generateManifestEnvelope C dir path out)
  | .bootGenesis url a => quiet (Client.bootGenesis (at_ C o url) a)
  | .afterGenesis s a => do
    let pair ← Run.lift (openSigner C s)
    quiet (Client.afterGenesis C pair a)
  | .verifyGenesis dir seedPath => quiet (Client.verifyGenesis C dir seedPath)
  | .generateManifest v2 a => quiet (if v2 then Client.generateManifestV2 C a else Client.generateManifest C a)
  | .approveManifest s a => do
    let pair ← Run.lift (openSigner C s)
    quiet (Client.approveManifest C pair a o.input)
  | .bootStandard url a => quiet (Client.bootStandard (at_ C o url) a)
  | .getAttestationDoc url docPath envelopePath => quiet (Client.getAttestationDoc (at_ C o url) docPath envelopePath)
  | .getEphemeralKeyHex docPath keyPath => quiet (Client.getEphemeralKeyHex C docPath keyPath)
  | .proxyReEncryptShare s a => do
    let pair ← Run.lift (openSigner C s)
    quiet (Client.proxyReEncryptShare C pair a o.input)
  | .postShare url wrapped approval => do
    let r ← Client.postShare (at_ C o url) wrapped approval
    pure (.reconstructed r)
  | .dangerousDevBoot url a => quiet (Client.dangerousDevBoot (at_ C o url) o.dev a)
  | .pivotHash pivot out => quiet (pivotHash C pivot out)
  | .shamirSplit path total threshold dir => quiet (Client.shamirSplit C o.coeffs path total threshold dir)
  | .shamirReconstruct shares out => quiet (Client.shamirReconstruct C shares out)
  | .display type path json => display C type path json
  | .jsonToBorsh type path out => quiet (Client.jsonToBorsh C type path out)
  | .bootKeyFwd url e pivot doc => quiet (Client.bootKeyFwd (at_ C o url) e pivot doc)
  | .exportKey url e doc out => quiet (Client.exportKey (at_ C o url) e doc out)
  | .injectKey url key => quiet (Client.injectKey (at_ C o url) key)
  | .p256Verify payload sig pub => quiet (Client.p256Verify C payload sig pub)
  | .p256Sign payload sig seed => quiet (Client.p256Sign C payload sig seed)
  | .p256AsymmetricEncrypt plain cipher pub => quiet (Client.p256Encrypt C plain cipher pub)
  | .p256AsymmetricDecrypt plain cipher seed hex => quiet (Client.p256Decrypt C plain cipher seed hex)
  | .provisionYubikey _ | .advancedProvisionYubikey _ _ | .yubikeySign _ | .yubikeyPublic | .yubikeyPivReset
  | .yubikeyChangePin _ _ => Run.lift (.error .panic)

/-- `CLI::execute` (mod.rs:1430-1436), `run` (mod.rs:1339-1423). Printing the help or the version and ending is nothing else. -/
noncomputable def program (C : Setting S) (o : Outside S) (args : List String) : Run S Shown :=
  match client args with
  | .help => pure .nothing
  | .version => pure .nothing
  | .panics => Run.lift (.error .panic)
  | .runs x => execute C o x

end Qos.ClientCli
