import Verif.Model.ClientCli
import Verif.Spec.HostCli
/-!
# What the operator's command lines mean

In terms of the words on the command line (`Spec/Parser.lean`), independent of how they are parsed.
-/
namespace Qos.Host

/-- The usual path of an endpoint under a base path. -/
def Endpoint.path (base : String) : Endpoint → String
  | .hostHealth => "/" ++ base ++ "/host-health"
  | .enclaveHealth => "/" ++ base ++ "/enclave-health"
  | .message => "/" ++ base ++ "/message"
  | .enclaveInfo => "/" ++ base ++ "/enclave-info"

/-- How an endpoint is asked. -/
def Endpoint.method : Endpoint → Method
  | .hostHealth | .enclaveHealth | .enclaveInfo => .get
  | .message => .post

end Qos.Host

namespace Qos.ClientCli
open Parser (Item Given)
open HostCli (Says SaysOr Silent Number)

/-- How a command is written. -/
def Command.name : Command → String
  | .hostHealth => "host-health"
  | .enclaveStatus => "enclave-status"
  | .enclaveVersion => "enclave-version"
  | .generateFileKey => "generate-file-key"
  | .generateManifestEnvelope => "generate-manifest-envelope"
  | .bootGenesis => "boot-genesis"
  | .afterGenesis => "after-genesis"
  | .verifyGenesis => "verify-genesis"
  | .generateManifest => "generate-manifest"
  | .approveManifest => "approve-manifest"
  | .bootStandard => "boot-standard"
  | .getAttestationDoc => "get-attestation-doc"
  | .getEphemeralKeyHex => "get-ephemeral-key-hex"
  | .proxyReEncryptShare => "proxy-re-encrypt-share"
  | .postShare => "post-share"
  | .dangerousDevBoot => "dangerous-dev-boot"
  | .provisionYubikey => "provision-yubikey"
  | .advancedProvisionYubikey => "advanced-provision-yubikey"
  | .pivotHash => "pivot-hash"
  | .shamirSplit => "shamir-split"
  | .shamirReconstruct => "shamir-reconstruct"
  | .yubikeySign => "yubikey-sign"
  | .yubikeyPublic => "yubikey-public"
  | .yubikeyPivReset => "yubikey-piv-reset"
  | .yubikeyChangePin => "yubikey-change-pin"
  | .display => "display"
  | .jsonToBorsh => "json-to-borsh"
  | .bootKeyFwd => "boot-key-fwd"
  | .exportKey => "export-key"
  | .injectKey => "inject-key"
  | .p256Verify => "p256-verify"
  | .p256Sign => "p256-sign"
  | .p256AsymmetricEncrypt => "p256-asymmetric-encrypt"
  | .p256AsymmetricDecrypt => "p256-asymmetric-decrypt"

/-! ## Which options there are -/

/-- Options with a value that must be given. -/
def needs : Command → List String
  | .hostHealth | .enclaveStatus | .enclaveVersion => ["host-ip", "host-port"]
  | .generateFileKey => ["master-seed-path", "pub-path"]
  | .bootGenesis => ["host-ip", "host-port", "namespace-dir", "share-set-dir", "pcr3-preimage-path", "qos-release-dir"]
  | .afterGenesis => ["share-path", "alias", "namespace-dir", "qos-release-dir", "pcr3-preimage-path"]
  | .verifyGenesis => ["namespace-dir", "master-seed-path"]
  | .generateManifest => ["nonce", "namespace", "pivot-hash-path", "restart-policy", "qos-release-dir", "pcr3-preimage-path",
      "manifest-path", "manifest-set-dir", "share-set-dir", "quorum-key-path"]
  | .approveManifest => ["manifest-path", "manifest-approvals-dir", "qos-release-dir", "pcr3-preimage-path", "pivot-hash-path",
      "alias", "quorum-key-path", "manifest-set-dir", "share-set-dir"]
  | .bootStandard => ["host-ip", "host-port", "pivot-path", "pcr3-preimage-path"]
  | .getAttestationDoc => ["host-ip", "host-port", "attestation-doc-path"]
  | .proxyReEncryptShare => ["share-path", "approval-path", "eph-wrapped-share-path", "attestation-doc-path",
      "pcr3-preimage-path", "manifest-set-dir", "alias"]
  | .getEphemeralKeyHex => ["attestation-doc-path", "ephemeral-key-path"]
  | .postShare => ["host-ip", "host-port", "approval-path", "eph-wrapped-share-path"]
  | .dangerousDevBoot => ["host-ip", "host-port", "pivot-path", "restart-policy"]
  | .generateManifestEnvelope => ["manifest-approvals-dir", "manifest-path"]
  | .provisionYubikey => ["pub-path"]
  | .advancedProvisionYubikey => ["master-seed-path"]
  | .pivotHash => ["output-path", "pivot-path"]
  | .shamirSplit => ["total-shares", "threshold", "output-dir"]
  | .shamirReconstruct => ["share", "output-path"]
  | .yubikeySign => ["payload"]
  | .yubikeyPublic | .yubikeyPivReset => []
  | .yubikeyChangePin => ["new-pin-path"]
  | .display => ["file-path", "display-type"]
  | .jsonToBorsh => ["file-path", "display-type", "output-path"]
  | .bootKeyFwd => ["host-ip", "host-port", "pivot-path", "attestation-doc-path"]
  | .exportKey => ["host-ip", "host-port", "attestation-doc-path", "encrypted-quorum-key-path"]
  | .injectKey => ["host-ip", "host-port", "encrypted-quorum-key-path"]
  | .p256Verify => ["payload-path", "signature-path", "pub-path"]
  | .p256Sign => ["payload-path", "signature-path", "master-seed-path"]
  | .p256AsymmetricEncrypt => ["plaintext-path", "ciphertext-path", "pub-path"]
  | .p256AsymmetricDecrypt => ["plaintext-path", "ciphertext-path", "master-seed-path"]

/-- Options with a value that may be given. -/
def may : Command → List String
  | .hostHealth | .enclaveStatus | .enclaveVersion | .postShare | .injectKey => ["endpoint-base-path"]
  | .bootGenesis => ["endpoint-base-path", "dr-key-path"]
  | .afterGenesis => ["secret-path", "current-pin-path", "validation-time-override"]
  | .generateManifest => ["patch-set-dir", "pivot-args", "bridge-config", "dns-resolvers", "debug-mode", "use-manifest-version"]
  | .approveManifest => ["secret-path", "patch-set-dir"]
  | .bootStandard | .getAttestationDoc | .bootKeyFwd | .exportKey => ["endpoint-base-path", "manifest-envelope-path"]
  | .proxyReEncryptShare => ["secret-path", "manifest-envelope-path", "unsafe-eph-path-override"]
  | .dangerousDevBoot => ["endpoint-base-path", "pivot-args", "unsafe-eph-path-override"]
  | .generateManifestEnvelope => ["manifest-envelope-path"]
  | .advancedProvisionYubikey | .yubikeyChangePin => ["current-pin-path"]
  | .shamirSplit => ["secret-path"]
  | _ => []

/-- Options without a value. -/
def switches : Command → List String
  | .bootGenesis | .bootStandard => ["unsafe-skip-attestation"]
  | .afterGenesis => ["yubikey", "unsafe-skip-attestation"]
  | .approveManifest => ["yubikey", "unsafe-auto-confirm"]
  | .proxyReEncryptShare => ["yubikey", "unsafe-skip-attestation", "unsafe-auto-confirm"]
  | .provisionYubikey => ["yubikey"]
  | .display => ["json"]
  | .p256AsymmetricDecrypt => ["output-hex"]
  | _ => []

/-- An item is one of the command's options. -/
def Belongs (c : Command) : Item → Prop
  | .flag n => n ∈ switches c
  | .value n v => n ∈ needs c ++ may c ∧ ¬ ['-', '-'] <+: v.toList
  | .bare n => n ∈ may c ∧ n ∈ ["pivot-args", "debug-mode"]

/-- The options are used as the command wants them. -/
structure Follows (c : Command) (items : List Item) : Prop where
  belongs : ∀ i ∈ items, Belongs c i
  /-- only `--share` can be repeated -/
  once : ∀ n, n ≠ "share" → (items.filter fun i => i.name = n).length ≤ 1
  needed : ∀ n ∈ needs c, Given items n
  /-- a key file or a YubiKey, not both -/
  oneKey : ¬ (Given items "yubikey" ∧ Given items "secret-path")

/-! ## What they mean -/

/-- The URL: `http://<host-ip>:<host-port>/<base path, or qos>/<uri>`. -/
def SaysUrl (items : List Item) (uri url : String) : Prop :=
  ∃ ip port base, Says items "host-ip" ip ∧ Says items "host-port" port ∧ SaysOr items "endpoint-base-path" "qos" base ∧
    url = "http://" ++ ip ++ ":" ++ port ++ "/" ++ base ++ "/" ++ uri

/-- The value that is given, if any. -/
def SaysMaybe (items : List Item) (name : String) (o : Option String) : Prop := ∀ v, o = some v ↔ Says items name v

/-- Whether the flag is given. -/
def SaysFlag (items : List Item) (name : String) (b : Bool) : Prop := b = true ↔ .flag name ∈ items

/-- The value an item gives to a name. -/
def saidBy (name : String) : Item → Option String
  | .value n v => if n = name then some v else none
  | .flag _ => none
  | .bare _ => none

/-- All values given for a name, in order. -/
def saidAll (items : List Item) (name : String) : List String := items.filterMap (saidBy name)

/-- Which key is used. -/
def SaysSigner (items : List Item) : Signer → Prop
  | .file path => Says items "secret-path" path ∧ .flag "yubikey" ∉ items
  | .yubikey pin => .flag "yubikey" ∈ items ∧ Silent items "secret-path" ∧ SaysMaybe items "current-pin-path" pin

/-- `[a,b,c]` lists `a`, `b` and `c`; `[]` lists nothing. -/
def Listed (s : String) (l : List String) : Prop :=
  (∀ a ∈ l, ',' ∉ a.toList) ∧ l ≠ [""] ∧ s.toList = ['['] ++ List.intercalate [','] (l.map String.toList) ++ [']']

/-- `never` or `always`, in any case. -/
def Restart (s : String) : RestartPolicy → Prop
  | .never => s.toLower = "never"
  | .always => s.toLower = "always"

/-- JSON for bridges with different ports. -/
def BridgeText (s : String) (l : List BridgeConfig) : Prop :=
  (Json.parse (utf8 s)).bind (JCodec.vec JCodec.bridgeConfig).dec = some l ∧
    l.Pairwise fun a b => match a, b with
      | .server p _, .server q _ | .server p _, .client q _ | .client p _, .server q _ | .client p _, .client q _ => p ≠ q

/-- No `--bridge-config` and no bridges, or the bridges it says. -/
def SaysBridges (items : List Item) (l : List BridgeConfig) : Prop :=
  (Silent items "bridge-config" ∧ l = []) ∨ ∃ s, Says items "bridge-config" s ∧ BridgeText s l

/-- No `--dns-resolvers`, or the addresses it lists. -/
def SaysResolvers (items : List Item) : Option (List IpAddr) → Prop
  | none => Silent items "dns-resolvers"
  | some rs => ∃ s l, Says items "dns-resolvers" s ∧ Listed s l ∧ List.Forall₂ (fun a r => Ip.Denotes a.toList r) l rs

/-- A number below a bound. -/
def SaysNumber (items : List Item) (name : String) (bound n : Nat) : Prop := n < bound ∧ ∃ s, Says items name s ∧ Number s n

/-- No `--validation-time-override`, or its number. -/
def SaysTime (items : List Item) : Option Nat → Prop
  | none => Silent items "validation-time-override"
  | some n => SaysNumber items "validation-time-override" (2 ^ 64) n

/-- The type of a file. -/
def SaysType (items : List Item) : Client.DisplayType → Prop
  | .manifest => Says items "display-type" "manifest"
  | .manifestEnvelope => Says items "display-type" "manifest-envelope"
  | .genesisOutput => Says items "display-type" "genesis-output"

/-- The command of a call. -/
def Call.command : Call → Command
  | .hostHealth .. => .hostHealth
  | .enclaveStatus .. => .enclaveStatus
  | .enclaveVersion .. => .enclaveVersion
  | .generateFileKey .. => .generateFileKey
  | .generateManifestEnvelope .. => .generateManifestEnvelope
  | .bootGenesis .. => .bootGenesis
  | .afterGenesis .. => .afterGenesis
  | .verifyGenesis .. => .verifyGenesis
  | .generateManifest .. => .generateManifest
  | .approveManifest .. => .approveManifest
  | .bootStandard .. => .bootStandard
  | .getAttestationDoc .. => .getAttestationDoc
  | .getEphemeralKeyHex .. => .getEphemeralKeyHex
  | .proxyReEncryptShare .. => .proxyReEncryptShare
  | .postShare .. => .postShare
  | .dangerousDevBoot .. => .dangerousDevBoot
  | .provisionYubikey .. => .provisionYubikey
  | .advancedProvisionYubikey .. => .advancedProvisionYubikey
  | .pivotHash .. => .pivotHash
  | .shamirSplit .. => .shamirSplit
  | .shamirReconstruct .. => .shamirReconstruct
  | .yubikeySign .. => .yubikeySign
  | .yubikeyPublic => .yubikeyPublic
  | .yubikeyPivReset => .yubikeyPivReset
  | .yubikeyChangePin .. => .yubikeyChangePin
  | .display .. => .display
  | .jsonToBorsh .. => .jsonToBorsh
  | .bootKeyFwd .. => .bootKeyFwd
  | .exportKey .. => .exportKey
  | .injectKey .. => .injectKey
  | .p256Verify .. => .p256Verify
  | .p256Sign .. => .p256Sign
  | .p256AsymmetricEncrypt .. => .p256AsymmetricEncrypt
  | .p256AsymmetricDecrypt .. => .p256AsymmetricDecrypt

/-- What the options must say for a call. -/
def Asks (items : List Item) : Call → Prop
  | .hostHealth url => SaysUrl items "host-health" url
  | .enclaveStatus url => SaysUrl items "message" url
  | .enclaveVersion url => SaysUrl items "message" url
  | .generateFileKey seed pub => Says items "master-seed-path" seed ∧ Says items "pub-path" pub
  | .generateManifestEnvelope dir path out => Says items "manifest-approvals-dir" dir ∧ Says items "manifest-path" path ∧
      SaysMaybe items "manifest-envelope-path" out
  | .bootGenesis url a => SaysUrl items "message" url ∧ Says items "namespace-dir" a.namespaceDir ∧
      Says items "share-set-dir" a.shareSetDir ∧ Says items "qos-release-dir" a.releaseDir ∧
      Says items "pcr3-preimage-path" a.pcr3Path ∧ SaysFlag items "unsafe-skip-attestation" a.unsafeSkip ∧
      SaysMaybe items "dr-key-path" a.drKeyPath
  | .afterGenesis s a => SaysSigner items s ∧ Says items "share-path" a.sharePath ∧ Says items "alias" a.memberAlias ∧
      Says items "namespace-dir" a.namespaceDir ∧ Says items "qos-release-dir" a.releaseDir ∧
      Says items "pcr3-preimage-path" a.pcr3Path ∧ SaysFlag items "unsafe-skip-attestation" a.unsafeSkip ∧
      SaysTime items a.timeOverride
  | .verifyGenesis dir seed => Says items "namespace-dir" dir ∧ Says items "master-seed-path" seed
  | .generateManifest v2 a => SaysNumber items "nonce" (2 ^ 32) a.nonce.toNat ∧ Says items "namespace" a.namespaceName ∧
      (∃ s, Says items "restart-policy" s ∧ Restart s a.restartPolicy) ∧ Says items "pivot-hash-path" a.pivotHashPath ∧
      Says items "qos-release-dir" a.releaseDir ∧ Says items "pcr3-preimage-path" a.pcr3Path ∧
      Says items "share-set-dir" a.shareSetDir ∧ Says items "manifest-set-dir" a.manifestSetDir ∧
      SaysMaybe items "patch-set-dir" a.patchSetDir ∧ Says items "quorum-key-path" a.quorumKeyPath ∧
      Says items "manifest-path" a.manifestPath ∧ (∃ s, SaysOr items "pivot-args" "[]" s ∧ Listed s a.pivotArgs) ∧
      SaysBridges items a.bridgeConfig ∧ SaysResolvers items a.dnsResolvers ∧
      SaysOr items "debug-mode" "false" (if a.debugMode then "true" else "false") ∧
      ∃ s, SaysOr items "use-manifest-version" "1" s ∧ Number s (if v2 then 2 else 1)
  | .approveManifest s a => SaysSigner items s ∧ Says items "manifest-path" a.manifestPath ∧
      Says items "manifest-approvals-dir" a.approvalsDir ∧ Says items "qos-release-dir" a.releaseDir ∧
      Says items "pcr3-preimage-path" a.pcr3Path ∧ Says items "pivot-hash-path" a.pivotHashPath ∧
      Says items "quorum-key-path" a.quorumKeyPath ∧ Says items "manifest-set-dir" a.manifestSetDir ∧
      Says items "share-set-dir" a.shareSetDir ∧ SaysMaybe items "patch-set-dir" a.patchSetDir ∧
      Says items "alias" a.memberAlias ∧ SaysFlag items "unsafe-auto-confirm" a.autoConfirm
  | .bootStandard url a => SaysUrl items "message" url ∧ Says items "pivot-path" a.pivotPath ∧
      Says items "manifest-envelope-path" a.envelopePath ∧ Says items "pcr3-preimage-path" a.pcr3Path ∧
      SaysFlag items "unsafe-skip-attestation" a.unsafeSkip
  | .getAttestationDoc url doc e => SaysUrl items "message" url ∧ Says items "attestation-doc-path" doc ∧
      Says items "manifest-envelope-path" e
  | .getEphemeralKeyHex doc key => Says items "attestation-doc-path" doc ∧ Says items "ephemeral-key-path" key
  | .proxyReEncryptShare s a => SaysSigner items s ∧ Says items "share-path" a.sharePath ∧
      Says items "attestation-doc-path" a.docPath ∧ Says items "approval-path" a.approvalPath ∧
      Says items "eph-wrapped-share-path" a.wrappedPath ∧ Says items "pcr3-preimage-path" a.pcr3Path ∧
      Says items "manifest-envelope-path" a.envelopePath ∧ Says items "manifest-set-dir" a.manifestSetDir ∧
      Says items "alias" a.memberAlias ∧ SaysFlag items "unsafe-skip-attestation" a.unsafeSkip ∧
      SaysMaybe items "unsafe-eph-path-override" a.unsafeEphPath ∧ SaysFlag items "unsafe-auto-confirm" a.autoConfirm
  | .postShare url wrapped approval => SaysUrl items "message" url ∧ Says items "eph-wrapped-share-path" wrapped ∧
      Says items "approval-path" approval
  | .dangerousDevBoot url a => SaysUrl items "message" url ∧ Says items "pivot-path" a.pivotPath ∧
      (∃ s, Says items "restart-policy" s ∧ Restart s a.restart) ∧ (∃ s, SaysOr items "pivot-args" "[]" s ∧ Listed s a.args) ∧
      a.bridges = [] ∧ SaysMaybe items "unsafe-eph-path-override" a.ephPath
  | .provisionYubikey pub => Says items "pub-path" pub
  | .advancedProvisionYubikey seed pin => Says items "master-seed-path" seed ∧ SaysMaybe items "current-pin-path" pin
  | .pivotHash pivot out => Says items "pivot-path" pivot ∧ Says items "output-path" out
  | .shamirSplit path total threshold dir => Says items "secret-path" path ∧ SaysNumber items "total-shares" (2 ^ 64) total ∧
      SaysNumber items "threshold" (2 ^ 64) threshold ∧ Says items "output-dir" dir
  | .shamirReconstruct shares out => shares = saidAll items "share" ∧ Says items "output-path" out
  | .yubikeySign payload => Says items "payload" payload
  | .yubikeyPublic => True
  | .yubikeyPivReset => True
  | .yubikeyChangePin current new => Says items "current-pin-path" current ∧ Says items "new-pin-path" new
  | .display type path json => SaysType items type ∧ Says items "file-path" path ∧ SaysFlag items "json" json
  | .jsonToBorsh type path out => SaysType items type ∧ Says items "file-path" path ∧ Says items "output-path" out
  | .bootKeyFwd url e pivot doc => SaysUrl items "message" url ∧ Says items "manifest-envelope-path" e ∧
      Says items "pivot-path" pivot ∧ Says items "attestation-doc-path" doc
  | .exportKey url e doc out => SaysUrl items "message" url ∧ Says items "manifest-envelope-path" e ∧
      Says items "attestation-doc-path" doc ∧ Says items "encrypted-quorum-key-path" out
  | .injectKey url key => SaysUrl items "message" url ∧ Says items "encrypted-quorum-key-path" key
  | .p256Verify payload sig pub => Says items "payload-path" payload ∧ Says items "signature-path" sig ∧ Says items "pub-path" pub
  | .p256Sign payload sig seed => Says items "payload-path" payload ∧ Says items "signature-path" sig ∧
      Says items "master-seed-path" seed
  | .p256AsymmetricEncrypt plain cipher pub => Says items "plaintext-path" plain ∧ Says items "ciphertext-path" cipher ∧
      Says items "pub-path" pub
  | .p256AsymmetricDecrypt plain cipher seed hex => Says items "plaintext-path" plain ∧ Says items "ciphertext-path" cipher ∧
      Says items "master-seed-path" seed ∧ SaysFlag items "output-hex" hex

/-! ## Who is asked -/

/-- The URL a call is about, and the endpoint of the host it is for; `none` for calls that need no host. -/
def Call.goes : Call → Option (String × Host.Endpoint)
  | .hostHealth url => some (url, .hostHealth)
  | .enclaveStatus url => some (url, .message)
  | .enclaveVersion url => some (url, .message)
  | .bootGenesis url _ => some (url, .message)
  | .bootStandard url _ => some (url, .message)
  | .getAttestationDoc url _ _ => some (url, .message)
  | .postShare url _ _ => some (url, .message)
  | .dangerousDevBoot url _ => some (url, .message)
  | .bootKeyFwd url _ _ _ => some (url, .message)
  | .exportKey url _ _ _ => some (url, .message)
  | .injectKey url _ => some (url, .message)
  | _ => none

end Qos.ClientCli
