import Verif.Model.World
/-!
# Handles

`/repo/src/qos_core/src/handles.rs`.
-/
namespace Qos.Handles
open P256

/-- Default paths (`qos_core/src/lib.rs:20-29`). -/
def defaultPaths : Paths where
  ephemeral := "/qos.ephemeral.key"
  quorum := "/qos.quorum.key"
  manifest := "/qos.manifest"
  pivot := "/qos.pivot.bin"

/-- `write_as_read_only` (handles.rs:302-328). -/
def writeAsReadOnly (E : Env) (path : String) (buf : Bytes) (err : ProtocolError) : M Unit := do
  let present ← fileExists path
  M.ensure (!present) .cannotModifyPostPivotStatic
  let dirOk ← makeParent E
  M.ensure dirOk err
  let wrote ← writeFile E (withTmpExtension path) buf
  M.ensure wrote err
  let renamed ← renameFile E (withTmpExtension path) path
  M.ensure renamed .ioError
  let perms ← chmod E path 0o444
  M.ensure perms err

/-- `P256Pair::from_hex_file` (qos_p256/src/lib.rs:303-317) through a handle. Simplification: the text of a read
error is a fixed description. -/
def readPair (E : Env) (path : String) (wrap : P256Error → ProtocolError) : M Pair := do
  match ← readFile E path with
  | none => M.fail (wrap (.ioError "read failed"))
  | some contents => match Pair.fromHexContents E.prims contents with
    | .ok k => return k
    | .error e => M.fail (wrap e)

/-- `get_ephemeral_key` (handles.rs:61-65, 104-108). -/
def getEphemeralKey (E : Env) : M Pair := readPair E E.paths.ephemeral .failedToGetEphemeralKey

/-- `get_quorum_key` (handles.rs:33-37, 157-159). -/
def getQuorumKey (E : Env) : M Pair := readPair E E.paths.quorum .failedToGetQuorumKey

/-- `put_ephemeral_key` (handles.rs:115-124). -/
def putEphemeralKey (E : Env) (k : Pair) : M Unit :=
  writeAsReadOnly E E.paths.ephemeral k.toMasterSeedHex .failedToPutEphemeralKey

/-- `rotate_ephemeral_key` (handles.rs:132-150). -/
def rotateEphemeralKey (E : Env) (k : Pair) : M Unit := do
  let present ← fileExists E.paths.ephemeral
  M.ensure present .cannotRotateNonExistentEphemeralKey
  let removed ← removeFile E E.paths.ephemeral
  M.ensure removed (.cannotDeleteEphemeralKey "remove_file failed")
  writeAsReadOnly E E.paths.ephemeral k.toMasterSeedHex .failedToPutEphemeralKey

/-- `put_quorum_key` (handles.rs:166-172). -/
def putQuorumKey (E : Env) (k : Pair) : M Unit :=
  writeAsReadOnly E E.paths.quorum k.toMasterSeedHex .failedToPutQuorumKey

/-- `get_manifest_envelope` (handles.rs:185-195). -/
def getManifestEnvelope (E : Env) : M Envelope := do
  match ← readFile E E.paths.manifest with
  | none => M.fail .failedToGetManifestEnvelope
  | some contents => match Envelope.tryFromSliceCompat contents with
    | some e => return e
    | none => M.fail .failedToGetManifestEnvelope

/-- `put_manifest_envelope` (handles.rs:202-217). -/
def putManifestEnvelope (E : Env) (e : Envelope) : M Unit :=
  match e.toStorageVec with
  | none => M.fail .failedToPutManifestEnvelope
  | some buf => writeAsReadOnly E E.paths.manifest buf .failedToPutManifestEnvelope

/-- `mutate_manifest_envelope` (handles.rs:223-253). -/
def mutateManifestEnvelope (E : Env) (mutate : Envelope → Envelope) : M Unit := do
  let e ← getManifestEnvelope E
  let opened ← chmod E E.paths.manifest 0o666
  M.ensure opened .ioError
  match (mutate e).toStorageVec with
  | none => M.fail .failedToPutManifestEnvelope
  | some buf => do
    let wrote ← writeFile E E.paths.manifest buf
    M.ensure wrote .failedToPutManifestEnvelope
    let closed ← chmod E E.paths.manifest 0o444
    M.ensure closed .ioError

/-- `put_pivot` (handles.rs:273-293). -/
def putPivot (E : Env) (pivot : Bytes) : M Unit := do
  let present ← fileExists E.paths.pivot
  M.ensure (!present) .cannotModifyPostPivotStatic
  let dirOk ← makeParent E
  M.ensure dirOk .failedToPutPivot
  let wrote ← writeFile E E.paths.pivot pivot
  M.ensure wrote .failedToPutPivot
  let perms ← chmod E E.paths.pivot 0o111
  M.ensure perms .failedToPutPivot

end Qos.Handles
