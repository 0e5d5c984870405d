import Verif.Model.ClientCli
/-!
# YubiKeys

`/repo/src/qos_client/src/yubikey.rs`, and what `cli/services.rs` and `cli/mod.rs` do with it when the client is built
with the `smartcard` feature.

The card is an arbitrary machine (`Piv`) that answers the commands of the `yubikey` crate; nothing is assumed of it here.
A certificate is represented by the one field the code looks at, its subject public key. Not modelled: the PC/SC session,
the validity period and the name in the certificates, what the card's library says about an error, the printed reminders to
tap the card.
-/
namespace Qos.Yubi
open Client (Stop ClientError YubiKeyError Setting Run Disk orStop mapStop guardStop)
open P256 (Pair Public)

/-- The two slots in use: `SIGNING_SLOT` is `Signature`, `KEY_AGREEMENT_SLOT` is `KeyManagement` (yubikey.rs:23-29). -/
inductive Slot where
  | signature
  | keyManagement
  deriving DecidableEq

/-- `PinPolicy` of the `yubikey` crate; used at yubikey.rs:119, 182. -/
inductive PinPolicy where
  | never | once | always
  deriving DecidableEq

/-- `TouchPolicy` of the `yubikey` crate; used at services.rs:386, 397, 466, 476. -/
inductive TouchPolicy where
  | never | cached | always
  deriving DecidableEq

/-- `MgmKey::default()` (services.rs:385, 396, 465, 475) and `MgmKey::generate()` (yubikey.rs:378). -/
inductive MgmKey where
  | factory
  | random
  deriving DecidableEq

/-- What the code asks of the card: the calls into the `yubikey` crate at yubikey.rs:101-384. Keys are P-256 keys throughout
(`ALGO`, yubikey.rs:32). -/
inductive Cmd where
  | verifyPin (pin : Bytes)
  | authenticate (key : MgmKey)
  | readCertificate (slot : Slot)
  | generate (slot : Slot) (pinPolicy : PinPolicy) (touchPolicy : TouchPolicy)
  | importKey (slot : Slot) (scalar : Bytes) (touchPolicy : TouchPolicy) (pinPolicy : PinPolicy)
  | selfSign (slot : Slot) (publicKey : Bytes)
  | sign (slot : Slot) (digest : Bytes)
  | agree (slot : Slot) (point : Bytes)
  | changePin (current new : Bytes)
  | blockPuk
  | reset
  deriving DecidableEq

/-- How the card answers. `done` carries the public key for `readCertificate` and `generate`, the signature for `sign`, the
shared secret for `agree`; `ragged` is a public key that is not a whole number of bytes. The `Result`s at yubikey.rs:101-384. -/
inductive Answer where
  | failed
  | done (data : Bytes)
  | ragged
  deriving DecidableEq

/-- `Result::is_ok`. yubikey.rs:114, 170. -/
def Answer.isOk : Answer → Bool
  | .failed => false
  | _ => true

/-- A card, whatever it does. `opens` is `YubiKey::open` (yubikey.rs:280-282, services.rs:371-372, 436-437): exactly one
card is plugged in and answers. -/
structure Piv (D : Type) where
  opens : D → Bool
  act : D → Cmd → D × Answer

/-- The card and what has been asked of it so far. The `&mut YubiKey` of yubikey.rs:101-384. -/
structure Plugged (D : Type) where
  card : D
  log : List (Cmd × Answer)

/-- A panic or an error. The results of yubikey.rs:101-384. -/
inductive Fail where
  | panic
  | error (e : YubiKeyError)
  deriving DecidableEq

/-- Work with the card. The functions of yubikey.rs:101-384. -/
def Dev (D α : Type) : Type := Plugged D → Except Fail α × Plugged D

namespace Dev
variable {D α β : Type}

/-- Nothing is asked. The functions of yubikey.rs:101-384. -/
protected def pure (a : α) : Dev D α := fun s => (.ok a, s)

/-- In sequence, stopping at the first failure. The functions of yubikey.rs:101-384. -/
protected def bind (x : Dev D α) (f : α → Dev D β) : Dev D β := fun s =>
  match x s with
  | (.ok a, s') => f a s'
  | (.error e, s') => (.error e, s')

instance : Monad (Dev D) where
  pure := Dev.pure
  bind := Dev.bind

/-- A step without the card. The functions of yubikey.rs:101-384. -/
def lift (x : Except Fail α) : Dev D α := fun s => (x, s)

end Dev

variable {D : Type}

/-- One command to the card. The calls into the `yubikey` crate at yubikey.rs:101-384. -/
def send (P : Piv D) (c : Cmd) : Dev D Answer := fun s =>
  (.ok (P.act s.card c).2, ⟨(P.act s.card c).1, s.log ++ [(c, (P.act s.card c).2)]⟩)

/-- `map_err(…)?` on an answer without data. yubikey.rs:108-111, 127-141. -/
def succeeded (e : YubiKeyError) (a : Answer) : Except Fail Unit :=
  if a.isOk then .ok () else .error (.error e)

/-- `map_err(…)?` on an answer with data; only public keys can be `ragged`. yubikey.rs:234-242, 269-271. -/
def dataOf (e : YubiKeyError) : Answer → Except Fail Bytes
  | .failed => .error (.error e)
  | .done b => .ok b
  | .ragged => .ok []

/-- `EncodedPoint::from_bytes` of the `sec1` crate: the first byte says which form it is, and with it the length.
Called at yubikey.rs:391. -/
def encodedPoint : Bytes → Bool
  | [] => false
  | t :: rest =>
    if t = 0 then rest.length = 0
    else if t = 2 ∨ t = 3 ∨ t = 5 then rest.length = 32
    else if t = 4 then rest.length = 64
    else false

/-- `map_err(…)?` and `extract_encoded_point` (yubikey.rs:386-395). -/
def keyOf (e : YubiKeyError) : Answer → Except Fail Bytes
  | .failed => .error (.error e)
  | .ragged => .error (.error .emptyPublicKeyInfo)
  | .done b => if encodedPoint b then .ok b else .error (.error .foundNonP256Key)

/-- A command without data. yubikey.rs:108-111, 127-141. -/
def need (P : Piv D) (c : Cmd) (e : YubiKeyError) : Dev D Unit := do
  let a ← send P c
  Dev.lift (succeeded e a)

/-- A command that answers with a public key. yubikey.rs:118-124, 225-229, 293-297, 317-321. -/
def needKey (P : Piv D) (c : Cmd) (e : YubiKeyError) : Dev D Bytes := do
  let a ← send P c
  Dev.lift (keyOf e a)

/-- A command that answers with other data. yubikey.rs:234-242, 270-271. -/
def needData (P : Piv D) (c : Cmd) (e : YubiKeyError) : Dev D Bytes := do
  let a ← send P c
  Dev.lift (dataOf e a)

/-- `verify_pin` (yubikey.rs:108, 129, 164, 191, 232, 269). -/
def verifyPin (P : Piv D) (pin : Bytes) : Dev D Unit := need P (.verifyPin pin) .failedToVerifyPin

/-- "Check that there is no key already in the slot" (yubikey.rs:113-116, 169-172). -/
def requireEmpty (P : Piv D) (slot : Slot) : Dev D Unit := do
  let a ← send P (.readCertificate slot)
  Dev.lift (if a.isOk then .error (.error .willNotOverwriteSlot) else .ok ())

/-- `generate_signed_certificate` (yubikey.rs:101-144). The serial number, the validity and the name have constant forms
that always parse. -/
def generateSignedCertificate (P : Piv D) (slot : Slot) (pin : Bytes) (mgm : MgmKey) (touch : TouchPolicy) : Dev D Bytes := do
  verifyPin P pin
  need P (.authenticate mgm) .failedToAuthWithMgm
  requireEmpty P slot
  let key ← needKey P (.generate slot .always touch) .failedToGenerateKey
  verifyPin P pin
  need P (.selfSign slot key) .failedToGenerateSelfSignedCert
  pure key

/-- `SecretKey::from_slice` and its public key (yubikey.rs:174-177). -/
def publicOf (p : Prims) (scalar : Bytes) : Except Fail Bytes :=
  if p.scalarOk scalar then .ok (p.point scalar) else .error (.error .invalidSecret)

/-- `import_key_and_generate_signed_certificate` (yubikey.rs:156-208). -/
def importKeyAndGenerateSignedCertificate (p : Prims) (P : Piv D) (scalar : Bytes) (slot : Slot) (pin : Bytes) (mgm : MgmKey)
    (touch : TouchPolicy) : Dev D Unit := do
  verifyPin P pin
  need P (.authenticate mgm) .failedToAuthWithMgm
  requireEmpty P slot
  let key ← Dev.lift (publicOf p scalar)
  need P (.importKey slot scalar touch .always) .failedToLoadKey
  verifyPin P pin
  need P (.selfSign slot key) .failedToGenerateSelfSignedCert

/-- `generate_random_rfc5280_serial` (yubikey.rs:403-414) of twenty random bytes. -/
def rfc5280Serial : Bytes → Bytes
  | [] => []
  | b :: rest => (b &&& 0x7f) :: rest

/-- `VerifyingKey::from_sec1_bytes` (yubikey.rs:230-231). -/
def verifyingKey (p : Prims) (point : Bytes) : Except Fail Bytes :=
  if p.pointOk point then .ok point else .error (.error .foundNonP256Key)

/-- `Signature::from_der(…).expect(…)` and the check of the signature (yubikey.rs:244-252); `der` is `Signature::from_der`
followed by `to_vec`, the 64 bytes of the signature. -/
def checkSignature (p : Prims) (der : Bytes → Option Bytes) (key data answer : Bytes) : Except Fail Bytes :=
  match der answer with
  | none => .error .panic
  | some sig => if p.ecdsaVerify key data sig then .ok sig else .error (.error .failedToVerifyYubiKeySignature)

/-- `sign_data` (yubikey.rs:219-253). -/
def signData (p : Prims) (der : Bytes → Option Bytes) (P : Piv D) (data pin : Bytes) : Dev D Bytes := do
  let point ← needKey P (.readCertificate .signature) .cannotFindSigningKey
  let key ← Dev.lift (verifyingKey p point)
  verifyPin P pin
  let answer ← needData P (.sign .signature (p.sha256 data)) .signingFailed
  Dev.lift (checkSignature p der key data answer)

/-- `key_agreement` (yubikey.rs:264-272). -/
def keyAgreement (P : Piv D) (senderPublic pin : Bytes) : Dev D Bytes := do
  verifyPin P pin
  needData P (.agree .keyManagement senderPublic) .keyAgreementFailed

/-- `key_agree_public_key` (yubikey.rs:314-324). -/
def keyAgreePublicKey (P : Piv D) : Dev D Bytes := needKey P (.readCertificate .keyManagement) .cannotFindKeyAgree

/-- `pair_public_key` (yubikey.rs:292-306). -/
def pairPublicKey (P : Piv D) : Dev D Bytes := do
  let signing ← needKey P (.readCertificate .signature) .cannotFindSigningKey
  let agree ← keyAgreePublicKey P
  pure (agree ++ signing)

/-- The sender's key in an encryption envelope (yubikey.rs:341-345). -/
def senderOf (buf : Bytes) : Except Fail Bytes :=
  match Borsh.tryFromSlice P256.sealedCodec buf with
  | none => .error (.error .envelopeDeserialize)
  | some s => .ok s.senderPublic

/-- `shared_secret` (yubikey.rs:335-348). -/
def sharedSecret (P : Piv D) (envelope pin : Bytes) : Dev D Bytes := do
  let sender ← Dev.lift (senderOf envelope)
  keyAgreement P sender pin

/-- The command of `yubikey_change_pin` (yubikey.rs:361-363), once the card is open. -/
def changePin (P : Piv D) (current new : Bytes) : Dev D Unit := need P (.changePin current new) .failedToChangePin

/-- A command whose result is ignored. yubikey.rs:378-382. -/
def ignore (P : Piv D) (c : Cmd) : Dev D Unit := do
  let _ ← send P c
  pure ()

/-- One round of the loop of `yubikey_piv_reset` (yubikey.rs:377-380). -/
def blockRound (P : Piv D) : Dev D Unit := do
  ignore P (.authenticate .random)
  ignore P (.verifyPin (ascii "000000"))

/-- `yubikey_piv_reset` (yubikey.rs:374-384), once the card is open. -/
def pivReset (P : Piv D) : Dev D Unit := do
  blockRound P
  blockRound P
  blockRound P
  ignore P .blockPuk
  ignore P .reset

/-! ## Commands -/

/-- The error of a command. services.rs:196-204, 389, 400, 468, 478. -/
def stopOf (wrap : YubiKeyError → ClientError) : Fail → Stop
  | .panic => .panic
  | .error e => .error (wrap e)

/-- Work with the card inside a command. services.rs:225-495. -/
def onCard {α : Type} (wrap : YubiKeyError → ClientError) (x : Dev D α) : Run (Plugged D) α := fun s =>
  ⟨mapStop (x s).1 (stopOf wrap), (x s).2, []⟩

/-- `YubiKey::open`. services.rs:371-372, 436-437; yubikey.rs:280-282. -/
def openCard (P : Piv D) (e : ClientError) : Run (Plugged D) Unit := fun s =>
  if P.opens s.card then ⟨.ok (), s, []⟩ else ⟨.error (.error e), s, []⟩

/-- The first line of a file, without its line ending: `BufRead::lines`. Called at services.rs:416-421. -/
def firstLine (b : Bytes) : Bytes :=
  let line := b.takeWhile (· ≠ 10)
  if line.length < b.length ∧ line.getLast? = some 13 then line.dropLast else line

/-- `pin_from_path` (services.rs:415-423). -/
def pinFromPath (d : Disk) (path : String) : Except Stop Bytes := do
  let c ← orStop (d.file path) .panic
  guardStop (c ≠ []) .panic
  let _ ← orStop (utf8Decode (c.takeWhile (· ≠ 10))) .panic
  return firstLine c

/-- The PIN from a file or from the terminal (services.rs:253-263, 439-449); `prompt` is what `prompt_password` gives. -/
def readPin (d : Disk) (prompt : Option Bytes) : Option String → Except Stop Bytes
  | some path => pinFromPath d path
  | none => orStop prompt (.error .pinEntryError)

/-- `provision_yubikey` (services.rs:368-413). -/
def provisionYubikey (C : Setting (Plugged D)) (P : Piv D) (prompt : Option Bytes) (pubPath : String) :
    Run (Plugged D) Unit := do
  openCard P .openSingleYubiKey
  let pin ← Run.lift (orStop prompt (.error .pinEntryError))
  let _ ← onCard .generateSign (generateSignedCertificate P .signature pin .factory .always)
  let _ ← onCard .generateEncrypt (generateSignedCertificate P .keyManagement pin .factory .always)
  let key ← onCard .yubiKey (pairPublicKey P)
  Client.write C pubPath (Hex.encode key)

/-- `advanced_provision_yubikey` (services.rs:432-490); the two secrets are those of the pair. -/
def advancedProvisionYubikey (C : Setting (Plugged D)) (P : Piv D) (prompt : Option Bytes) (seedPath : String)
    (pinPath : Option String) : Run (Plugged D) Unit := do
  openCard P .openSingleYubiKey
  let pin ← Run.lift (readPin C.disk prompt pinPath)
  let pair ← Run.lift (Client.pairFromFile C.prims C.disk seedPath)
  onCard .generateSign (importKeyAndGenerateSignedCertificate C.prims P pair.signSecret .signature pin .factory .always)
  onCard .generateEncrypt
    (importKeyAndGenerateSignedCertificate C.prims P pair.encSecret .keyManagement pin .factory .always)
  let key ← onCard .yubiKey (pairPublicKey P)
  Run.lift (guardStop (key = (pair.publicKey C.prims).toBytes) (.error .wrongPublicKey))

/-- `PairOrYubi` (services.rs:224-231). -/
inductive Holder where
  | pair (k : Pair)
  | yubi (pin : Bytes)

/-- `PairOrYubi::from_inputs` (services.rs:241-281) with the `smartcard` feature. -/
def openHolder (C : Setting (Plugged D)) (P : Piv D) (prompt : Option Bytes) : ClientCli.Signer → Run (Plugged D) Holder
  | .file path => do
    let k ← Run.lift (Client.pairFromFile C.prims C.disk path)
    pure (.pair k)
  | .yubikey pinPath => do
    openCard P (.yubiKey .connection)
    let pin ← Run.lift (readPin C.disk prompt pinPath)
    pure (.yubi pin)

/-- `PairOrYubi::sign` (services.rs:288-297). -/
def Holder.sign (p : Prims) (der : Bytes → Option Bytes) (P : Piv D) (data : Bytes) : Holder → Run (Plugged D) Bytes
  | .pair k => pure (k.sign p data)
  | .yubi pin => onCard .yubiKey (signData p der P data pin)

/-- `PairOrYubi::decrypt` (services.rs:304-325). -/
def Holder.decrypt (p : Prims) (P : Piv D) (payload : Bytes) : Holder → Run (Plugged D) Bytes
  | .pair k => Run.lift (mapStop (k.decrypt p payload) fun e => .error (.p256 e))
  | .yubi pin => do
    let shared ← onCard .yubiKey (sharedSecret P payload pin)
    let key ← onCard .yubiKey (keyAgreePublicKey P)
    let receiver ← Run.lift (mapStop (P256.componentFromBytes p key) fun e => .error (.p256 e))
    Run.lift (mapStop (P256.openSealedShared p receiver payload shared) fun e => .error (.p256 e))

/-- `PairOrYubi::public_key_bytes` (services.rs:332-340). -/
def Holder.publicKeyBytes (p : Prims) (P : Piv D) : Holder → Run (Plugged D) Bytes
  | .pair k => pure (k.publicKey p).toBytes
  | .yubi _ => onCard .yubiKey (pairPublicKey P)

/-- What `after_genesis` reads and checks before it uses the key (services.rs:721-757). -/
def genesisOf {S : Type} (C : Setting S) (a : Client.AfterGenesisArgs) : Except Stop Services.GenesisOutput := do
  let q ← Client.extractQosPcrs C.disk a.releaseDir
  let cose ← orStop (C.disk.file (Client.pathJoin a.namespaceDir "genesis_attestation_doc")) .panic
  let doc ← Client.extractDoc C.pki C.awsRoot C.now cose a.unsafeSkip a.timeOverride
  let out ← Client.readGenesisOutput C.disk a.namespaceDir
  Client.checkGenesisDoc C a.unsafeSkip doc out q a.pcr3Path
  return out

/-- `after_genesis` (services.rs:709-795). -/
def afterGenesis (C : Setting (Plugged D)) (P : Piv D) (h : Holder) (a : Client.AfterGenesisArgs) : Run (Plugged D) Unit := do
  let out ← Run.lift (genesisOf C a)
  let key ← h.publicKeyBytes C.prims P
  let own ← Run.lift (orStop (Client.ownOutput out key a.memberAlias) .panic)
  let share ← h.decrypt C.prims P own.encryptedShare
  Run.lift (guardStop (C.prims.sha512 share = own.shareHash) .panic)
  Client.write C a.sharePath own.encryptedShare

/-- `approve_manifest` (services.rs:980-1059). -/
def approveManifest (C : Setting (Plugged D)) (der : Bytes → Option Bytes) (P : Piv D) (h : Holder) (a : Client.ApproveArgs)
    (input : List String) : Run (Plugged D) Unit := do
  let m ← Run.lift (Client.approveChecks C a)
  Client.confirm a.autoConfirm (Client.approveQuestions m) input
  let sig ← h.sign C.prims der P (m.hash C.prims)
  let key ← h.publicKeyBytes C.prims P
  Client.write C (Client.pathJoin a.approvalsDir (Client.approvalName a.memberAlias m))
    (Client.approvalBytes ⟨sig, ⟨a.memberAlias, key⟩⟩)

/-- What `proxy_re_encrypt_share` reads and checks before it uses the key (services.rs:1604-1652). -/
def proxyInputs {S : Type} (C : Setting S) (a : Client.ProxyArgs) : Except Stop (Client.ProxyChecked) := do
  let e ← Client.readEnvelope C.disk a.envelopePath
  let doc ← Client.readDoc C.pki C.awsRoot C.now C.disk a.docPath a.unsafeSkip
  let share ← orStop (C.disk.file a.sharePath) (.error .readShare)
  let role ← Client.findPcr3 C.disk a.pcr3Path
  Client.proxyAttestation C a e doc role
  let target ← Client.targetKey C doc a.unsafeEphPath
  return ⟨e, share, role, target⟩

/-- The manifest set and the programmatic verifications (services.rs:1656-1663). -/
def proxyMember {S : Type} (C : Setting S) (a : Client.ProxyArgs) (e : Envelope) (key : Bytes) : Except Stop Unit := do
  let manifestSet ← Client.getSet C.prims C.disk a.manifestSetDir
  guardStop (Client.proxyVerifications C.prims e manifestSet ⟨a.memberAlias, key⟩) .exit1

/-- A failure becomes a panic: `expect`. services.rs:1680-1682, 1688-1690. -/
def orPanic {S α : Type} (x : Run S α) : Run S α := fun s =>
  ⟨mapStop (x s).result fun _ => .panic, (x s).state, (x s).events⟩

/-- `proxy_re_encrypt_share` (services.rs:1592-1706). -/
def proxyReEncryptShare (C : Setting (Plugged D)) (der : Bytes → Option Bytes) (P : Piv D) (h : Holder) (a : Client.ProxyArgs)
    (input : List String) : Run (Plugged D) Unit := do
  let c ← Run.lift (proxyInputs C a)
  let key ← h.publicKeyBytes C.prims P
  Run.lift (proxyMember C a c.envelope key)
  Client.confirm a.autoConfirm (Client.proxyQuestions c.envelope c.role) input
  let share ← orPanic (h.decrypt C.prims P c.encryptedShare)
  let wrapped ← Run.lift (mapStop (c.target.encrypt C.prims C.rand share) fun _ => .panic)
  let sig ← orPanic (h.sign C.prims der P (c.envelope.manifest.hash C.prims))
  Client.write C a.approvalPath (Client.approvalBytes ⟨sig, ⟨a.memberAlias, key⟩⟩)
  Client.write C a.wrappedPath wrapped

/-- `yubikey_sign` (services.rs:1829-1839): the printed text. -/
def yubikeySign (C : Setting (Plugged D)) (der : Bytes → Option Bytes) (P : Piv D) (prompt : Option Bytes) (payload : String) :
    Run (Plugged D) Bytes := do
  let data ← Run.lift (mapStop (Hex.decode (utf8 payload)) fun _ => .error .couldNotDecodeHex)
  let h ← openHolder C P prompt (.yubikey none)
  let sig ← h.sign C.prims der P data
  pure (Hex.encode sig)

/-- `yubikey_public` (services.rs:1842-1850): the printed text. -/
def yubikeyPublic (P : Piv D) : Run (Plugged D) Bytes := do
  openCard P (.yubiKey .connection)
  let key ← onCard .yubiKey (pairPublicKey P)
  pure (Hex.encode key)

/-- `yubikey_change_pin` (mod.rs:1590-1613, yubikey.rs:356-365). -/
def yubikeyChangePin (C : Setting (Plugged D)) (P : Piv D) (current new : String) : Run (Plugged D) Unit := do
  let old ← Run.lift (pinFromPath C.disk current)
  let fresh ← Run.lift (pinFromPath C.disk new)
  openCard P (.yubiKey .connection)
  onCard .yubiKey (changePin P old fresh)

/-- `yubikey_piv_reset` (mod.rs:1575-1588, yubikey.rs:374-384). -/
def yubikeyPivReset (P : Piv D) : Run (Plugged D) Unit := do
  openCard P (.yubiKey .connection)
  onCard .yubiKey (pivReset P)

/-- The handlers (mod.rs:1449-1931) with the `smartcard` feature. -/
noncomputable def execute (C : Setting (Plugged D)) (o : ClientCli.Outside (Plugged D)) (der : Bytes → Option Bytes) (P : Piv D)
    (prompt : Option Bytes) : ClientCli.Call → Run (Plugged D) ClientCli.Shown
  | .afterGenesis s a => do
    let h ← openHolder C P prompt s
    ClientCli.quiet (afterGenesis C P h a)
  | .approveManifest s a => do
    let h ← openHolder C P prompt s
    ClientCli.quiet (approveManifest C der P h a o.input)
  | .proxyReEncryptShare s a => do
    let h ← openHolder C P prompt s
    ClientCli.quiet (proxyReEncryptShare C der P h a o.input)
  | .provisionYubikey pubPath => ClientCli.quiet (provisionYubikey C P prompt pubPath)
  | .advancedProvisionYubikey seedPath pinPath =>
    ClientCli.quiet (advancedProvisionYubikey C P prompt seedPath pinPath)
  | .yubikeySign payload => do
    let t ← yubikeySign C der P prompt payload
    pure (.text t)
  | .yubikeyPublic => do
    let t ← yubikeyPublic P
    pure (.text t)
  | .yubikeyChangePin current new => ClientCli.quiet (yubikeyChangePin C P current new)
  | .yubikeyPivReset => ClientCli.quiet (yubikeyPivReset P)
  | c => ClientCli.execute C o c

/-- `CLI::execute` (mod.rs:1430-1436), `run` (mod.rs:1339-1423), with the `smartcard` feature. -/
noncomputable def program (C : Setting (Plugged D)) (o : ClientCli.Outside (Plugged D)) (der : Bytes → Option Bytes) (P : Piv D)
    (prompt : Option Bytes) (args : List String) : Run (Plugged D) ClientCli.Shown :=
  match ClientCli.client args with
  | .help => pure .nothing
  | .version => pure .nothing
  | .panics => Run.lift (.error .panic)
  | .runs x => execute C o der P prompt x

end Qos.Yubi
