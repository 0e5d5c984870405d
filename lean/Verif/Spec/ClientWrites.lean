import Verif.Spec.ClientCli
/-!
# Which files a command may write

For every command the options that name its output files. Everything else on disk is only read.
-/
namespace Qos.ClientCli
open Parser (Item)
open HostCli (Says)

/-- The options that name an output file. -/
def outputs : Command → List String
  | .generateFileKey => ["master-seed-path", "pub-path"]
  | .provisionYubikey => ["pub-path"]
  | .afterGenesis => ["share-path"]
  | .generateManifest => ["manifest-path"]
  | .generateManifestEnvelope => ["manifest-envelope-path"]
  | .getAttestationDoc => ["attestation-doc-path", "manifest-envelope-path"]
  | .getEphemeralKeyHex => ["ephemeral-key-path"]
  | .proxyReEncryptShare => ["approval-path", "eph-wrapped-share-path"]
  | .pivotHash | .shamirReconstruct | .jsonToBorsh => ["output-path"]
  | .bootKeyFwd => ["attestation-doc-path"]
  | .exportKey => ["encrypted-quorum-key-path"]
  | .p256Sign => ["signature-path"]
  | .p256AsymmetricEncrypt => ["ciphertext-path"]
  | .p256AsymmetricDecrypt => ["plaintext-path"]
  | _ => []

/-- A file called `name` in the directory that the option `opt` names is an output of the command. -/
inductive Inside (items : List Item) : Command → (opt name : String) → Prop where
  | genesis {name : String} (h : name ∈ ["genesis_dr_artifacts", "genesis_attestation_doc", "genesis_output", "quorum_key.pub",
      "dr_wrapped_quorum_key"]) : Inside items .bootGenesis "namespace-dir" name
  /-- Only when the command line does not say where. -/
  | envelope (h : ∀ p, ¬ Says items "manifest-envelope-path" p) :
      Inside items .generateManifestEnvelope "manifest-approvals-dir" "manifest_envelope"
  /-- The name begins with the alias; no `/` comes after it. -/
  | approval {a rest : String} (h : Says items "alias" a) (hr : '/' ∉ rest.toList) :
      Inside items .approveManifest "manifest-approvals-dir" (a ++ "-" ++ rest ++ ".approval")
  | share (k : Nat) : Inside items .shamirSplit "output-dir" (toString (k + 1) ++ ".share")

/-- The command line names the path as an output. -/
def MayWrite (c : Command) (items : List Item) (path : String) : Prop :=
  (∃ n ∈ outputs c, Says items n path) ∨
  ∃ opt name dir, Inside items c opt name ∧ Says items opt dir ∧ path = Client.pathJoin dir name

/-- Commands that only read. -/
def readOnly : List Command :=
  [.hostHealth, .enclaveStatus, .enclaveVersion, .verifyGenesis, .bootStandard, .postShare, .dangerousDevBoot,
   .advancedProvisionYubikey, .yubikeySign, .yubikeyPublic, .yubikeyPivReset, .yubikeyChangePin, .display, .injectKey, .p256Verify]

/-- A file directly in a directory. -/
def DirectlyIn (dir path : String) : Prop := ∃ name : String, '/' ∉ name.toList ∧ (path = dir ++ name ∨ path = dir ++ "/" ++ name)

end Qos.ClientCli
