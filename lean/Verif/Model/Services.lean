import Verif.Model.Handles
/-!
# Protocol services

`/repo/src/qos_core/src/protocol/services/{attestation,boot,provision,key,genesis}.rs`.
-/
namespace Qos.Services
open P256 Handles

/-! ## attestation.rs -/

/-- `get_post_boot_attestation_doc` (attestation.rs:25-37). -/
def postBootAttestationDoc (E : Env) (ephemeralPublic manifestHash : Bytes) : M NsmResponse :=
  callNsm E (.attestation (some manifestHash) none (some ephemeralPublic))

/-- `live_attestation_doc` (attestation.rs:10-23). -/
def liveAttestationDoc (E : Env) : M NsmResponse := do
  let k ← getEphemeralKey E
  let e ← getManifestEnvelope E
  postBootAttestationDoc E (k.publicKey E.prims).toBytes (e.manifest.hash E.prims)

/-- `attest_error` (attestation.rs:223-225); the texts are descriptions, not the formatted messages. -/
def attestError (text : String) : ProtocolError := .qosAttestError text

/-- `describe_nsm` (attestation.rs:184-193). -/
def describeNsm (E : Env) : M (UInt16 × List UInt16 × NsmDigest) := do
  match ← callNsm E .describeNSM with
  | .describeNSM _ _ _ _ maxPcrs locked digest => return (maxPcrs, locked, digest)
  | _ => M.fail (attestError "unexpected NSM response")

/-- `describe_pcr` (attestation.rs:195-203). -/
def describePcr (E : Env) (index : UInt16) : M (Bool × Bytes) := do
  match ← callNsm E (.describePCR index) with
  | .describePCR lock data => return (lock, data)
  | _ => M.fail (attestError "unexpected NSM response")

/-- `require_all_pcrs_locked` (attestation.rs:205-217). -/
def requireAllLocked (maxPcrs : UInt16) (locked : List UInt16) : M Unit :=
  M.ensure ((List.range maxPcrs.toNat).all fun i => locked.contains (UInt16.ofNat i))
    (attestError "PCR is not locked after LockPCRs")

/-- `extend_manifest_commitment_pcr` (attestation.rs:105-158). -/
def extendCommitment (E : Env) (kind : Attest.Kind) (maxPcrs : UInt16) (locked : List UInt16)
    (manifestHash key : Bytes) : M Bytes := do
  let index := UInt16.ofNat kind.pcrIndex
  M.ensure (index < maxPcrs) (attestError "PCR is not supported by NSM max_pcrs")
  M.ensure (!locked.contains index) (attestError "PCR is already locked")
  let (lock, initial) ← describePcr E index
  M.ensure (!lock) (attestError "PCR is read-only before QOS extends it")
  M.ensure (initial = zeroPcr) (attestError "PCR initial value mismatch")
  match pcrExtend E.prims initial (Attest.commitment E.prims kind manifestHash key) with
  | none => M.fail (attestError "InvalidPcr")
  | some expected => do
    match ← callNsm E (.extendPCR index (Attest.commitment E.prims kind manifestHash key)) with
    | .extendPCR data => do
      M.ensure (data = expected) (attestError "ExtendPCR returned unexpected value")
      return expected
    | _ => M.fail (attestError "unexpected NSM response")

/-- `verify_locked_manifest_commitment_pcr` (attestation.rs:161-182). -/
def verifyLocked (E : Env) (kind : Attest.Kind) (expected : Bytes) : M Unit := do
  let (lock, value) ← describePcr E (UInt16.ofNat kind.pcrIndex)
  M.ensure lock (attestError "PCR is not read-only after LockPCRs")
  M.ensure (value = expected) (attestError "PCR post-lock value mismatch")

/-- `LockPCRs` and its answer (attestation.rs:75-79). -/
def lockBank (E : Env) (range : UInt16) : M Unit := do
  match ← callNsm E (.lockPCRs range) with
  | .lockPCRs => return ()
  | _ => M.fail (attestError "unexpected NSM response")

/-- `lock_manifest_commitment_pcr_bank` (attestation.rs:39-102). -/
def lockCommitmentBank (E : Env) (manifestHash setupKey liveKey : Bytes) : M Unit := do
  let (maxPcrs, locked, digest) ← describeNsm E
  M.ensure (digest = .sha384) (attestError "expected NSM PCR digest SHA384")
  M.ensure (32 ≤ maxPcrs) (attestError "NSM max_pcrs does not cover attestable PCR range")
  let expectedSetup ← extendCommitment E .setup maxPcrs locked manifestHash setupKey
  let expectedLive ← extendCommitment E .live maxPcrs locked manifestHash liveKey
  lockBank E maxPcrs
  let (maxPcrs', locked', _) ← describeNsm E
  M.ensure (maxPcrs' = maxPcrs) (attestError "NSM max_pcrs changed")
  requireAllLocked maxPcrs locked'
  verifyLocked E .setup expectedSetup
  verifyLocked E .live expectedLive

/-! ## boot.rs -/

/-- `if cond { return Err(e) }`. E.g. boot.rs:725-777. -/
def refuse (cond : Prop) [Decidable cond] (e : ProtocolError) : Except ProtocolError Unit :=
  if cond then .error e else .ok ()

/-- The checks on a boot request (boot.rs:730-742). -/
def checkBoot (E : Env) (e : Envelope) (pivot : Bytes) : Except ProtocolError Unit := do
  e.checkApprovals E.prims
  refuse (e.shareSetApprovals ≠ []) .badShareSetApprovals
  refuse (E.prims.sha256 pivot ≠ e.manifest.pivotHash)
    (.invalidPivotHash (hexString e.manifest.pivotHash) (hexString (E.prims.sha256 pivot)))

/-- `put_manifest_and_pivot` (boot.rs:725-777). -/
def putManifestAndPivot (E : Env) (e : Envelope) (pivot : Bytes) : M NsmResponse := do
  M.lift (checkBoot E e pivot)
  let setup ← generatePair E
  let live ← generatePair E
  lockCommitmentBank E (e.manifest.hash E.prims) (setup.publicKey E.prims).toBytes
    (live.publicKey E.prims).toBytes
  M.modify fun s => { s with pending := some live }
  putEphemeralKey E setup
  putPivot E pivot
  putManifestEnvelope E e
  postBootAttestationDoc E (setup.publicKey E.prims).toBytes (e.manifest.hash E.prims)

/-! ## provision.rs -/

/-- `take_pending_live_ephemeral_key` (state.rs:230-236). -/
def takePending : M Pair := do
  let s ← M.get
  match s.pending with
  | none => M.fail .missingLiveEphemeralKey
  | some k => do
    M.modify fun s => { s with pending := none }
    return k

/-- `SecretBuilder::add_share` (provision.rs:25-35). -/
def addShare (share : Bytes) : M Unit := do
  M.ensure (!share.isEmpty) .invalidShare
  M.modify fun s => { s with shares := s.shares ++ [share] }

/-- `SecretBuilder::build` (provision.rs:38-47). -/
def buildSecret (shares : List Bytes) : Except ProtocolError Bytes :=
  match Shamir.sharesReconstruct shares with
  | .error e => .error (.qosCrypto e)
  | .ok secret => if secret.isEmpty then .error .reconstructionErrorEmptySecret else .ok secret

/-- Key pair from reconstructed bytes (provision.rs:109-121). -/
def provisionedPair (E : Env) (quorumKey secret : Bytes) : Except ProtocolError Pair :=
  if secret.length ≠ 32 then .error .incorrectSecretLen
  else match liftP256 (Pair.fromMasterSeed E.prims secret) with
    | .error e => .error e
    | .ok pair =>
      if (pair.publicKey E.prims).toBytes ≠ quorumKey then .error .reconstructionErrorIncorrectPubKey
      else .ok pair

/-- Publish the quorum key: take the live key, rotate, write (provision.rs:123-137, key.rs:63-72). -/
def installQuorumKey (E : Env) (pair : Pair) : M Unit := do
  let live ← takePending
  rotateEphemeralKey E live
  putQuorumKey E pair

/-- `provision` (provision.rs:59-139). -/
def provision (E : Env) (encryptedShare : Bytes) (approval : Approval) : M Bool := do
  let e ← getManifestEnvelope E
  M.lift (approval.verify E.prims (e.manifest.hash E.prims))
  M.ensure (e.manifest.shareSet.members.contains approval.member) .notShareSetMember
  mutateManifestEnvelope E (·.pushShareApproval approval)
  let ephemeral ← getEphemeralKey E
  match ephemeral.decrypt E.prims encryptedShare with
  | .error _ => M.fail .decryptionFailed
  | .ok share => do
    addShare share
    let s ← M.get
    if s.shares.length < e.manifest.shareSet.threshold.toNat then return false
    else do
      let secret ← M.lift (buildSecret s.shares)
      M.modify fun s => { s with shares := [] }
      let pair ← M.lift (provisionedPair E e.manifest.namespaceOf.quorumKey secret)
      installQuorumKey E pair
      return true

/-! ## key.rs -/

/-- Checks on the decrypted seed (key.rs:46-60). -/
def injectedPair (E : Env) (quorumPublic : Public) (seed : Bytes) : Except ProtocolError Pair :=
  if seed.length ≠ 32 then .error .encryptedQuorumKeyInvalidLen
  else match Pair.fromMasterSeed E.prims seed with
    | .error _ => .error .invalidQuorumSecret
    | .ok pair => if pair.publicKey E.prims ≠ quorumPublic then .error .wrongQuorumKey else .ok pair

/-- `inject_key` (key.rs:26-75). -/
def injectKey (E : Env) (encryptedQuorumKey signature : Bytes) : M Unit := do
  let e ← getManifestEnvelope E
  let quorumPublic ← M.lift (liftP256 (Public.fromBytes E.prims e.manifest.namespaceOf.quorumKey))
  M.ensure (quorumPublic.verify E.prims encryptedQuorumKey signature).isOk .invalidEncryptedQuorumKeySignature
  let ephemeral ← getEphemeralKey E
  let seed ← M.lift (liftP256 (ephemeral.decrypt E.prims encryptedQuorumKey))
  let pair ← M.lift (injectedPair E quorumPublic seed)
  installQuorumKey E pair

/-- Order of `QuorumMember` (derived `Ord`, boot.rs:275-306: alias, then public key, both compared as byte
sequences). -/
def memberLe (a b : QuorumMember) : Prop := (utf8 a.aliasName, a.pubKey) = (utf8 b.aliasName, b.pubKey) ∨
  utf8 a.aliasName < utf8 b.aliasName ∨ (utf8 a.aliasName = utf8 b.aliasName ∧ a.pubKey < b.pubKey)

instance (a b : QuorumMember) : Decidable (memberLe a b) := by unfold memberLe; infer_instance

/-- `Vec::sort` of members. key.rs:140-269, `validate_manifest`. -/
def sortMembers (ms : List QuorumMember) : List QuorumMember := ms.mergeSort (fun a b => memberLe a b)

/-- `qos_hash` of a manifest set (protocol/mod.rs:32-34). -/
def setHash (p : Prims) (s : QuorumSet) : Bytes := p.sha256 (Borsh.quorumSet.enc s)

/-- `From<AttestError> for ProtocolError` (error.rs): the text is a description. -/
def liftAttest {α : Type} : Except AttestError α → Except ProtocolError α
  | .ok a => .ok a
  | .error _ => .error (.qosAttestError "attestation document rejected")

/-- The attested values a manifest expects (key.rs:239-246). -/
def attestInput (p : Prims) (m : VersionedManifest) : Attest.Input :=
  ⟨m.hash p, m.enclave.pcr0, m.enclave.pcr1, m.enclave.pcr2, m.enclave.pcr3⟩

/-- The nonce rule (key.rs:200-233). -/
def checkNonce (E : Env) (new old : VersionedManifest) : Except ProtocolError Unit :=
  if old.namespaceOf.nonce > new.namespaceOf.nonce then
    .error (.lowNonce old.namespaceOf.nonce new.namespaceOf.nonce)
  else if old.namespaceOf.nonce = new.namespaceOf.nonce ∧ old.hash E.prims ≠ new.hash E.prims then
    .error (.differentManifest (hexString (old.hash E.prims)) (hexString (new.hash E.prims)))
  else .ok ()

/-- The comparison of manifest sets (key.rs:165-189): same threshold and the same members after sorting. -/
def checkManifestSet (E : Env) (new old : QuorumSet) : Except ProtocolError Unit :=
  refuse (old.threshold ≠ new.threshold ∨ sortMembers old.members ≠ sortMembers new.members)
    (.differentManifestSet (hexString (setHash E.prims ⟨old.threshold, sortMembers old.members⟩))
      (hexString (setHash E.prims ⟨new.threshold, sortMembers new.members⟩)))

/-- `validate_manifest` (key.rs:140-269). -/
def validateManifest (E : Env) (newE oldE : Envelope) (doc : AttestationDoc) : Except ProtocolError Unit := do
  newE.checkApprovals E.prims
  refuse (newE.shareSetApprovals ≠ []) .badShareSetApprovals
  refuse (oldE.manifest.namespaceOf.quorumKey ≠ newE.manifest.namespaceOf.quorumKey)
    (.differentQuorumKey (hexString oldE.manifest.namespaceOf.quorumKey)
      (hexString newE.manifest.namespaceOf.quorumKey))
  checkManifestSet E newE.manifest.manifestSet oldE.manifest.manifestSet
  refuse (oldE.manifest.namespaceOf.name ≠ newE.manifest.namespaceOf.name)
    (.differentNamespaceName oldE.manifest.namespaceOf.name newE.manifest.namespaceOf.name)
  checkNonce E newE.manifest oldE.manifest
  liftAttest (Attest.verifyManifest E.prims .setup doc (attestInput E.prims newE.manifest))
  refuse (oldE.manifest.enclave.pcr3 ≠ newE.manifest.enclave.pcr3)
    (.differentPcr3 (hexString oldE.manifest.enclave.pcr3) (hexString newE.manifest.enclave.pcr3))

/-- `verify_and_extract_attestation_doc_from_der` (key.rs:271-282). -/
def extractAttestationDoc (E : Env) (der : Bytes) : M AttestationDoc := do
  let s ← M.get
  let _ ← nextIo E
  let ms ← M.lift (liftAttest (E.timestamp s.ios s.nsmHist))
  M.lift (liftAttest (Attest.fromDer E.pki der E.rootCa (ms / 1000)))

/-- `export_key_internal` (key.rs:106-137). -/
def exportKeyInternal (E : Env) (newE : Envelope) (doc : AttestationDoc) : M (Bytes × Bytes) := do
  let oldE ← getManifestEnvelope E
  M.lift (validateManifest E newE oldE doc)
  match doc.publicKey with
  | none => M.fail .missingEphemeralKey
  | some bytes => match Public.fromBytes E.prims bytes with
    | .error _ => M.fail .invalidEphemeralKey
    | .ok eph => do
      let quorum ← getQuorumKey E
      let encrypted ← encryptTo E eph quorum.seed
      return (encrypted, quorum.sign E.prims encrypted)

/-- `export_key` (key.rs:88-103). -/
def exportKey (E : Env) (newE : Envelope) (der : Bytes) : M (Bytes × Bytes) := do
  let doc ← extractAttestationDoc E der
  exportKeyInternal E newE doc

/-! ## genesis.rs -/

/-- `GenesisSet` (genesis.rs:26-34). -/
structure GenesisSet where
  members : List QuorumMember
  threshold : UInt32
  deriving DecidableEq

/-- `GenesisMemberOutput` (genesis.rs:84-96). -/
structure MemberOutput where
  member : QuorumMember
  encryptedShare : Bytes
  shareHash : Bytes
  deriving DecidableEq

/-- `MemberShard` (genesis.rs:36-51). -/
structure MemberShard where
  member : QuorumMember
  shard : Bytes
  deriving DecidableEq

/-- `GenesisOutput` (genesis.rs:122-160). -/
structure GenesisOutput where
  set : GenesisSet
  drKey : Option Bytes
  quorumKey : Bytes
  memberOutputs : List MemberOutput
  recoveryPermutations : List (List MemberShard)
  drKeyWrappedQuorumKey : Option Bytes
  quorumKeyHash : Bytes
  testMessageCiphertext : Bytes
  testMessageSignature : Bytes
  testMessage : Bytes
  deriving DecidableEq

/-- Borsh codec of `GenesisSet`. genesis.rs:26-34. -/
def genesisSetCodec : Borsh.Codec GenesisSet :=
  Borsh.imap (fun x => ⟨x.1, x.2⟩) (fun s => (s.members, s.threshold))
    (Borsh.pair (Borsh.vec Borsh.quorumMember) Borsh.u32)

/-- Borsh codec of `GenesisMemberOutput`. genesis.rs:84-96. -/
def memberOutputCodec : Borsh.Codec MemberOutput :=
  Borsh.imap (fun x => ⟨x.1, x.2.1, x.2.2⟩) (fun o => (o.member, o.encryptedShare, o.shareHash))
    (Borsh.pair Borsh.quorumMember (Borsh.pair Borsh.bytes (Borsh.fixed 64)))

/-- Borsh codec of `MemberShard`. genesis.rs:36-51. -/
def memberShardCodec : Borsh.Codec MemberShard :=
  Borsh.imap (fun x => ⟨x.1, x.2⟩) (fun o => (o.member, o.shard)) (Borsh.pair Borsh.quorumMember Borsh.bytes)

/-- Borsh codec of `GenesisOutput` (field order of the struct). genesis.rs:113-161. -/
def genesisOutputCodec : Borsh.Codec GenesisOutput :=
  Borsh.imap
    (fun x => ⟨x.1, x.2.1, x.2.2.1, x.2.2.2.1, x.2.2.2.2.1, x.2.2.2.2.2.1, x.2.2.2.2.2.2.1, x.2.2.2.2.2.2.2.1,
      x.2.2.2.2.2.2.2.2.1, x.2.2.2.2.2.2.2.2.2⟩)
    (fun o => (o.set, o.drKey, o.quorumKey, o.memberOutputs, o.recoveryPermutations, o.drKeyWrappedQuorumKey,
      o.quorumKeyHash, o.testMessageCiphertext, o.testMessageSignature, o.testMessage))
    (Borsh.pair genesisSetCodec (Borsh.pair (Borsh.option Borsh.bytes) (Borsh.pair Borsh.bytes
      (Borsh.pair (Borsh.vec memberOutputCodec) (Borsh.pair (Borsh.vec (Borsh.vec memberShardCodec))
        (Borsh.pair (Borsh.option Borsh.bytes) (Borsh.pair (Borsh.fixed 64) (Borsh.pair Borsh.bytes
          (Borsh.pair Borsh.bytes Borsh.bytes)))))))))

/-- The closure at genesis.rs:195-206 for one share and member. Errors are returned, not raised: `collect` keeps
the first one and it is raised only at line 223. -/
def memberOutput (E : Env) (share : Bytes) (m : QuorumMember) : M MemberOutput := do
  let key ← M.lift (liftP256 (Public.fromBytes E.prims m.pubKey))
  let ct ← encryptTo E key share
  return ⟨m, ct, E.prims.sha512 share⟩

/-- `zip(…).map(…).collect()` (genesis.rs:193-207): stops at the first error. -/
def memberOutputs (E : Env) : List Bytes → List QuorumMember → M (List MemberOutput)
  | s :: ss, m :: ms => do
    let o ← memberOutput E s m
    let os ← memberOutputs E ss ms
    return o :: os
  | _, _ => return []

/-- Turn a failure into a value (`let x: Result<…> = …;`). key.rs:26-75, `inject_key`. -/
def attempt {α : Type} (m : M α) : M (Except ProtocolError α) := fun s =>
  match m s with
  | (r, s') => (.ok r, s')

/-- The DR key part (genesis.rs:209-215). -/
def wrapForDr (E : Env) (drKey : Option Bytes) (seed : Bytes) : M (Option Bytes) :=
  match drKey with
  | none => return none
  | some k => match Public.fromBytes E.prims k with
    | .error e => M.fail (.invalidP256DRKey e)
    | .ok pub => do
      let ct ← encryptTo E pub seed
      return some ct

/-- `QOS_TEST_MESSAGE` (genesis.rs:14). -/
def testMessage : Bytes := ascii "qos-test-message"

/-- `boot_genesis` (genesis.rs:176-242). -/
def bootGenesis (E : Env) (set : GenesisSet) (drKey : Option Bytes) : M (GenesisOutput × NsmResponse) := do
  M.lift (ensureUniqueMembers E.prims set.members)
  let pair ← generatePair E
  let shares ← splitSecret E pair.seed set.members.length set.threshold.toNat
  let outputs ← attempt (memberOutputs E shares set.members)
  let wrapped ← wrapForDr E drKey pair.seed
  let outputs ← M.lift outputs
  let ct ← encryptTo E (pair.publicKey E.prims) testMessage
  let out : GenesisOutput :=
    { set := set, drKey := drKey, quorumKey := (pair.publicKey E.prims).toBytes, memberOutputs := outputs,
      recoveryPermutations := [], drKeyWrappedQuorumKey := wrapped,
      quorumKeyHash := E.prims.sha512 (Hex.encode pair.seed), testMessageCiphertext := ct,
      testMessageSignature := pair.sign E.prims testMessage, testMessage := testMessage }
  let resp ← callNsm E (.attestation (some (E.prims.sha256 (genesisOutputCodec.enc out))) none none)
  return (out, resp)

end Qos.Services
