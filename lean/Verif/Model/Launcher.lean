import Verif.Model.HostCli
/-!
# The program that runs the enclave on the host

`/repo/src/qos_enclave/src/main.rs`: it starts the enclave from its environment variables, answers health checks, forwards the
enclave's console as log events, and ends the enclave when it is told to stop. The `nitro_cli` library is outside: each call is
an answer of `Nitro`. Simplifications: threads (health service, console) are separate functions; log lines other than the
console's are not modelled.
-/
namespace Qos.Launcher
open HostCli (parseBool)

/-! ## The console -/

/-- `trim_end_matches('\r')`. main.rs:72. -/
def trimCr (t : String) : String := String.ofList ((t.toList.reverse.dropWhile fun c => c == '\r').reverse)

/-- `emit_line` (main.rs:70-76): the messages of the events. `lossy` is `String::from_utf8_lossy`. -/
def emitLine (lossy : Bytes → String) (line : Bytes) : List String :=
  if trimCr (lossy line) = "" then [] else [trimCr (lossy line)]

/-- The loop of `write` (main.rs:83-90), on what is not yet consumed; then what is left of it. The fuel is its length, which
is enough: each turn consumes a byte. -/
def emitLines (lossy : Bytes → String) : Nat → Bytes → List String × Bytes
  | 0, b => ([], b)
  | fuel + 1, b =>
    match b.idxOf? 10 with
    | none => ([], b)
    | some i => (emitLine lossy (b.take i) ++ (emitLines lossy fuel (b.drop (i + 1))).1, (emitLines lossy fuel (b.drop (i + 1))).2)

/-- `write` (main.rs:80-97), on the buffer: the events, and the buffer after it. -/
def write (lossy : Bytes → String) (buffer buf : Bytes) : List String × Bytes :=
  emitLines lossy (buffer ++ buf).length (buffer ++ buf)

/-- `flush` (main.rs:99-105). -/
def flush (lossy : Bytes → String) (buffer : Bytes) : List String × Bytes :=
  if buffer = [] then ([], buffer) else (emitLine lossy buffer, [])

/-- `read_to` into the writer (main.rs:313-319): several writes. -/
def writes (lossy : Bytes → String) : Bytes → List Bytes → List String × Bytes
  | buffer, [] => ([], buffer)
  | buffer, c :: cs =>
    ((write lossy buffer c).1 ++ (writes lossy (write lossy buffer c).2 cs).1, (writes lossy (write lossy buffer c).2 cs).2)

/-- `read_logs` (main.rs:313-319): all messages of a console that has sent these chunks and ended. -/
def readLogs (lossy : Bytes → String) (chunks : List Bytes) : List String :=
  (writes lossy [] chunks).1 ++ (flush lossy (writes lossy [] chunks).2).1

/-! ## Starting -/

/-- `RunEnclavesArgs` as filled in at main.rs:158-167. -/
structure RunArgs where
  eifPath : String
  cid : UInt32
  memoryMib : UInt64
  cpuCount : UInt32
  debugMode : Bool
  attachConsole : Bool
  name : String
  deriving DecidableEq

/-- `std::env::var(name).unwrap_or(default)`; the environment gives `none` for a variable that is not set or not Unicode.
main.rs:146-154. -/
def var (env : String → Option String) (name default : String) : String := (env name).getD default

/-- `boot` up to the arguments (main.rs:139-167); `none` is a panic. -/
def runArgs (env : String → Option String) : Option RunArgs :=
  (parseUnsigned (2 ^ 32) (var env "ENCLAVE_CID" "16").toList).bind fun cid =>
  (parseUnsigned (2 ^ 64) (var env "MEMORY_MIB" "1024").toList).bind fun memory =>
  (parseBool (var env "DEBUG" "false")).bind fun debug =>
  (parseBool (var env "LOGS" "false")).bind fun logs =>
  (parseUnsigned (2 ^ 32) (var env "CPU_COUNT" "2").toList).bind fun cpus =>
    some ⟨var env "EIF_PATH" "/aws-x86_64.eif", UInt32.ofNat cid, UInt64.ofNat memory, UInt32.ofNat cpus, debug, logs,
      var env "ENCLAVE_NAME" "nitro"⟩

/-- The answers of the file system and of `nitro_cli`. main.rs:171-243, 258-274. -/
structure Nitro where
  dirExists : Bool
  dirCreated : Bool
  logger : Bool
  loggerId : Bool
  spawned : Bool
  runSent : Bool
  replied : Bool
  attached : Bool
  idByName : String → Option String
  connects : String → Bool

/-- What the program does. main.rs:139-277, 321-347. -/
inductive Act where
  /-- `create_dir_all` (main.rs:171-174) -/
  | createDir (path : String)
  /-- the `Run` command (main.rs:193-202) -/
  | run (a : RunArgs)
  /-- the console is attached at this port (main.rs:220-235) -/
  | attach (port : Nat)
  /-- the health service is started (main.rs:333-335) -/
  | serveHealth
  /-- the console is read (main.rs:337-341) -/
  | readConsole
  /-- the `Terminate` command for an enclave (main.rs:259-267) -/
  | terminate (id : String)
  /-- `exit(0)` (main.rs:276) -/
  | exitZero
  /-- `ok_or_exit_with_errno` (main.rs:176-232) -/
  | exitErrno
  | panics
  deriving DecidableEq

/-- `CID_TO_CONSOLE_PORT_OFFSET` of `nitro_cli`. main.rs:224. -/
def consoleOffset : Nat := 10000

/-- `enclave_cid_u32 + CID_TO_CONSOLE_PORT_OFFSET` (main.rs:224); with overflow checks it can panic. -/
def consolePort (o : NChooseK.Overflow) (cid : UInt32) : Option Nat :=
  if cid.toNat + consoleOffset < 2 ^ 32 then some (cid.toNat + consoleOffset)
  else match o with
    | .panics => none
    | .wraps => some (cid.toNat + consoleOffset - 2 ^ 32)

/-- The end of `boot` (main.rs:237-243): the identity of the enclave, and whether its console is attached. -/
def identify (w : Nitro) (a : RunArgs) (acts : List Act) : List Act × Option (String × Bool) :=
  match w.idByName a.name with
  | some id => (acts, some (id, a.attachConsole))
  | none => (acts ++ [.panics], none)

/-- `boot` after the replies (main.rs:220-244). -/
def attach (o : NChooseK.Overflow) (w : Nitro) (a : RunArgs) (acts : List Act) : List Act × Option (String × Bool) :=
  if a.attachConsole then
    match consolePort o a.cid with
    | none => (acts ++ [.panics], none)
    | some p => if w.attached then identify w a (acts ++ [.attach p]) else (acts ++ [.exitErrno], none)
  else identify w a acts

/-- `boot` after the arguments (main.rs:170-244). -/
def start (o : NChooseK.Overflow) (w : Nitro) (a : RunArgs) : List Act × Option (String × Bool) :=
  let dir : List Act := if w.dirExists then [] else [.createDir "/run/nitro_enclaves"]
  if w.dirExists = false ∧ w.dirCreated = false then (dir ++ [.panics], none)
  else if w.logger = false ∨ w.loggerId = false ∨ w.spawned = false ∨ w.runSent = false then (dir ++ [.exitErrno], none)
  else if w.replied = false then (dir ++ [.run a, .exitErrno], none)
  else attach o w a (dir ++ [.run a])

/-- `boot` (main.rs:139-244). -/
def boot (o : NChooseK.Overflow) (env : String → Option String) (w : Nitro) : List Act × Option (String × Bool) :=
  match runArgs env with
  | none => ([.panics], none)
  | some a => start o w a

/-- `shutdown` (main.rs:246-277), after the signal. -/
def shutdown (w : Nitro) (id : String) : List Act :=
  (if w.connects id then [.terminate id] else []) ++ [.exitZero]

/-- The threads that `main` starts (main.rs:332-341). -/
def threads (console : Bool) : List Act := .serveHealth :: if console then [.readConsole] else []

/-- `main` (main.rs:321-346); `signal` says whether a signal has come. -/
def main (o : NChooseK.Overflow) (env : String → Option String) (w : Nitro) (signal : Bool) : List Act :=
  match boot o env w with
  | (acts, none) => acts
  | (acts, some (id, console)) => acts ++ threads console ++ if signal then shutdown w id else []

/-! ## Health -/

/-- `healthy` (main.rs:108-137): the states of the described enclaves, or a failure. -/
def healthy : Option (List String) → Bool
  | some (s :: _) => s == "RUNNING"
  | _ => false

/-- The answer of the health service (main.rs:283-295). -/
def healthAnswer (described : Option (List String)) : Bytes :=
  if healthy described then utf8 "HTTP/1.1 200 OK\r\n\r\n" else utf8 "HTTP/1.1 503 Service Unavailable\r\n\r\n"

end Qos.Launcher
