import Verif.Model.Attest
import Verif.Model.Approvals
import Verif.Model.Shamir
/-!
# The enclave and its surroundings

One enclave process: its in-memory state, the file system, the NSM device and the sources of randomness.
Everything the environment decides (device answers, file-system failures, random bytes, clock) is a function in
`Env`, over which the theorems quantify, so a theorem holds for every behaviour of the environment.

Every change of the file system and every device request is appended to a trace, with a snapshot of the files
after each change; a crash at any moment leaves the files as in one of these snapshots.
-/
namespace Qos

/-- A file: contents and permission bits.
The file system behind qos_core/src/handles.rs:137-326 and the device behind qos_nsm/src/nsm.rs:12-78. -/
structure File where
  data : Bytes
  mode : Nat

/-- The regular files of the enclave, by path.
The file system behind qos_core/src/handles.rs:137-326 and the device behind qos_nsm/src/nsm.rs:12-78. -/
abbrev Files := String → Option File

/-- Replace the entry of one path.
The file system behind qos_core/src/handles.rs:137-326 and the device behind qos_nsm/src/nsm.rs:12-78. -/
def Files.set (fs : Files) (path : String) (f : Option File) : Files := fun q => if q = path then f else fs q

/-- What happens to a file-system call.
The file system behind qos_core/src/handles.rs:137-326 and the device behind qos_nsm/src/nsm.rs:12-78. -/
inductive IoOutcome where
  /-- it succeeds (if it can) -/
  | ok
  /-- it fails without effect -/
  | fail
  /-- a write that stops after some bytes (disk full) and reports an error; without effect for other calls -/
  | short (k : Nat)
  deriving DecidableEq

/-- Observable events.
The file system behind qos_core/src/handles.rs:137-326 and the device behind qos_nsm/src/nsm.rs:12-78. -/
inductive Event where
  /-- the files after a change -/
  | files (fs : Files)
  /-- a device request and its answer -/
  | nsm (req : NsmRequest) (resp : NsmResponse)

/-- The four paths of `Handles` (handles.rs:72-82). -/
structure Paths where
  ephemeral : String
  quorum : String
  manifest : String
  pivot : String

/-- `PathBuf::with_extension("tmp")` (handles.rs:317): everything after the last dot of the file name is
replaced; a file name without a dot (or with only a leading one) gets `.tmp` appended. Paths ending in `/..` are
not modelled. -/
def withTmpExtension (path : String) : String :=
  let cs := path.toList.reverse
  let name := cs.takeWhile (· ≠ '/')
  let dir := cs.dropWhile (· ≠ '/')
  let stem := match name.dropWhile (· ≠ '.') with
    | '.' :: rest => if rest = [] then name else rest
    | _ => name
  String.ofList (dir.reverse ++ stem.reverse ++ ".tmp".toList)

/-- Everything outside the control of the enclave process.
What qos_core/src/protocol/state.rs:188-220 and the services call into. -/
structure Env where
  prims : Prims
  paths : Paths
  /-- the device: its answer may depend on all earlier requests -/
  nsm : List NsmRequest → NsmRequest → NsmResponse
  /-- `timestamp_ms` of the provider (nsm.rs:29-29), asked as the n-th call to the outside, after these requests to the device.
  Simplification: the request that the real device needs for it is not recorded. -/
  timestamp : Nat → List NsmRequest → Except AttestError Nat
  /-- `attestation_root_ca_der` (nsm.rs:41-44) -/
  rootCa : Bytes
  pki : Attest.Pki
  /-- n-th random master seed (`P256Pair::generate`) -/
  seedAt : Nat → Bytes
  /-- randomness of the n-th encryption -/
  randAt : Nat → P256.SealRandom
  /-- coefficients of the n-th secret sharing -/
  coeffsAt : Nat → Nat → Nat → UInt8
  /-- outcome of the n-th call to the outside, if it is to the file system -/
  io : Nat → IoOutcome
  /-- mode of a newly created file (umask) -/
  createMode : Nat
  /-- `CARGO_PKG_VERSION` and `QOS_GIT_COMMIT` (state.rs:398-404) -/
  version : String
  commit : String

/-- `ProtocolState` (state.rs:188-194) and the world around it. -/
structure St where
  phase : Phase
  /-- `SecretBuilder.shares` (provision.rs:14-16) -/
  shares : List Bytes
  /-- `pending_live_ephemeral_key` -/
  pending : Option P256.Pair
  files : Files
  /-- requests the device has answered so far -/
  nsmHist : List NsmRequest
  seeds : Nat
  rands : Nat
  splits : Nat
  ios : Nat
  trace : List Event

/-- `ProtocolState::new` (state.rs:191-216) in production (no phase override), with the given files. -/
def St.initial (files : Files) : St where
  phase := .waitingForBootInstruction
  shares := []
  pending := none
  files := files
  nsmHist := []
  seeds := 0
  rands := 0
  splits := 0
  ios := 0
  trace := []

/-- Computations that may fail with a protocol error; the state reached is kept on failure, as in Rust.
`Result<_, ProtocolError>` with `&mut ProtocolState`, as in state.rs:369-581 and services/boot.rs:725-777. -/
def M (α : Type) : Type := St → Except ProtocolError α × St

namespace M

/-- Return.
`Result<_, ProtocolError>` with `&mut ProtocolState`, as in state.rs:369-581 and services/boot.rs:725-777. -/
protected def pure {α : Type} (a : α) : M α := fun s => (.ok a, s)

/-- Sequencing: `?`.
`Result<_, ProtocolError>` with `&mut ProtocolState`, as in state.rs:369-581 and services/boot.rs:725-777. -/
protected def bind {α β : Type} (m : M α) (f : α → M β) : M β := fun s =>
  match m s with
  | (.ok a, s') => f a s'
  | (.error e, s') => (.error e, s')

instance : Monad M where
  pure := M.pure
  bind := M.bind

/-- `Err(e)`.
`Result<_, ProtocolError>` with `&mut ProtocolState`, as in state.rs:369-581 and services/boot.rs:725-777. -/
def fail {α : Type} (e : ProtocolError) : M α := fun s => (.error e, s)

/-- `?` on a pure result.
`Result<_, ProtocolError>` with `&mut ProtocolState`, as in state.rs:369-581 and services/boot.rs:725-777. -/
def lift {α : Type} : Except ProtocolError α → M α
  | .ok a => M.pure a
  | .error e => fail e

/-- Read the state.
`Result<_, ProtocolError>` with `&mut ProtocolState`, as in state.rs:369-581 and services/boot.rs:725-777. -/
def get : M St := fun s => (.ok s, s)

/-- Change the state.
`Result<_, ProtocolError>` with `&mut ProtocolState`, as in state.rs:369-581 and services/boot.rs:725-777. -/
def modify (f : St → St) : M Unit := fun s => (.ok (), f s)

/-- `if !cond { return Err(e) }`, and `.map_err(|_| e)?` on an I/O result.
`Result<_, ProtocolError>` with `&mut ProtocolState`, as in state.rs:369-581 and services/boot.rs:725-777. -/
def ensure (cond : Bool) (e : ProtocolError) : M Unit := if cond then M.pure () else fail e

end M

/-! ## Environment calls -/

/-- Outcome of the next file-system call. Every `std::fs` call of handles.rs:137-326. -/
def nextIo (E : Env) : M IoOutcome := fun s => (.ok (E.io s.ios), { s with ios := s.ios + 1 })

/-- A change of the files, recorded in the trace. Every `std::fs` call of handles.rs:137-326. -/
def setFiles (fs : Files) : M Unit := M.modify fun s => { s with files := fs, trace := s.trace ++ [.files fs] }

/-- `fs::read`: the contents, or `none` for an error. Permission bits do not restrict the enclave process, which
runs as root. handles.rs:188, qos_p256/src/lib.rs:303-317. -/
def readFile (E : Env) (path : String) : M (Option Bytes) := do
  match ← nextIo E with
  | .ok => do
    let s ← M.get
    return (s.files path).map (·.data)
  | _ => return none

/-- `Path::exists`. Simplification: never wrong (a failing `stat` is not modelled).
handles.rs:137, 177, 258, 274, 298, 307. -/
def fileExists (path : String) : M Bool := do
  let s ← M.get
  return (s.files path).isSome

/-- `fs::create_dir_all` of the parent when it is missing: directories are not modelled, only that the
call can fail. handles.rs:278-283, 311-315. -/
def makeParent (E : Env) : M Bool := do
  match ← nextIo E with
  | .ok => return true
  | _ => return false

/-- The file after truncation and `k` bytes written, with the mode it had or the creation mode.
handles.rs:238, 285, 319. -/
def written (E : Env) (fs : Files) (path : String) (buf : Bytes) (k : Nat) : File :=
  { data := buf.take k
    mode := match fs path with
      | some f => f.mode
      | none => E.createMode }

/-- Truncation (`k = 0`) and then byte after byte: every intermediate content is visible. Writes in larger
chunks show a subset of these. handles.rs:238, 285, 319. -/
def writeUpTo (E : Env) (path : String) (buf : Bytes) : Nat → M Unit
  | 0 => do
    let s ← M.get
    setFiles (s.files.set path (some (written E s.files path buf 0)))
  | k + 1 => do
    writeUpTo E path buf k
    let s ← M.get
    setFiles (s.files.set path (some (written E s.files path buf (k + 1))))

/-- `fs::write`. handles.rs:238, 285, 319. -/
def writeFile (E : Env) (path : String) (buf : Bytes) : M Bool := do
  match ← nextIo E with
  | .ok => do
    writeUpTo E path buf buf.length
    return true
  | .fail => return false
  | .short k => do
    writeUpTo E path buf (min k buf.length)
    return false

/-- `fs::rename`: atomic. handles.rs:322. -/
def renameFile (E : Env) (source target : String) : M Bool := do
  match ← nextIo E with
  | .ok => do
    let s ← M.get
    match s.files source with
    | some f => do
      setFiles ((s.files.set source none).set target (some f))
      return true
    | none => return false
  | _ => return false

/-- `fs::set_permissions`. handles.rs:234, 247, 287, 324. -/
def chmod (E : Env) (path : String) (mode : Nat) : M Bool := do
  match ← nextIo E with
  | .ok => do
    let s ← M.get
    match s.files path with
    | some f => do
      setFiles (s.files.set path (some { f with mode := mode }))
      return true
    | none => return false
  | _ => return false

/-- `fs::remove_file`. handles.rs:141. -/
def removeFile (E : Env) (path : String) : M Bool := do
  match ← nextIo E with
  | .ok => do
    let s ← M.get
    match s.files path with
    | some _ => do
      setFiles (s.files.set path none)
      return true
    | none => return false
  | _ => return false

/-- `nsm_process_request`. qos_nsm/src/nsm.rs:12-78. -/
def callNsm (E : Env) (req : NsmRequest) : M NsmResponse := fun s =>
  let resp := E.nsm s.nsmHist req
  (.ok resp, { s with nsmHist := s.nsmHist ++ [req], trace := s.trace ++ [.nsm req resp] })

/-- `P256Pair::generate` (qos_p256/src/lib.rs:163-182). -/
def generatePair (E : Env) : M P256.Pair := fun s =>
  (liftP256 (P256.Pair.fromMasterSeed E.prims (E.seedAt s.seeds)), { s with seeds := s.seeds + 1 })

/-- `P256Public::encrypt` with fresh randomness. qos_p256/src/lib.rs:360-362. -/
def encryptTo (E : Env) (key : P256.Public) (msg : Bytes) : M Bytes := fun s =>
  (liftP256 (key.encrypt E.prims (E.randAt s.rands) msg), { s with rands := s.rands + 1 })

/-- `shares_generate` with fresh randomness; the error text is `{e:?}`. qos_crypto/src/shamir.rs:17-26. -/
def splitSecret (E : Env) (secret : Bytes) (count threshold : Nat) : M (List Bytes) := fun s =>
  (match Shamir.sharesGenerate secret count threshold (E.coeffsAt s.splits) with
   | .ok l => .ok l
   | .error e => .error (.qosCrypto e), { s with splits := s.splits + 1 })

end Qos
