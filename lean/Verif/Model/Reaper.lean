import Verif.Model.Handles
import Verif.Model.Pool
/-!
# The reaper

`/repo/src/qos_core/src/reaper.rs`, with `SocketAddress::with_port` (`io/mod.rs:205-227`), `HostBridge::new`
(`io/host_bridge.rs:27-34`) and the command line of `run_looping` (`egress.rs:280-301`).

The reaper is a step machine. At each step the outside world shows it the files as they are at that moment and decides
whether the system call made in that step succeeds and whether the child has exited; everything observable that it does
is emitted. Simplifications: delays have no length; the traffic of the bridges (`vsock_to_tcp`) and the reprinted pivot
output are not modelled; a panic of a spawned bridge task is not modelled (it does not stop the reaper).
-/
namespace Qos.Reaper
open Pool (Address)

/-- What the reaper is started with (reaper.rs:186-191): paths, core socket, and whether the `egress` feature is
compiled in (reaper.rs:111-126). -/
structure Config where
  paths : Paths
  core : Address
  egress : Bool

/-- What the outside world does at one step: the files at that moment, whether the system call of this step succeeds,
and the exit status if the child has exited. The observable behaviour of reaper.rs:186-291. -/
structure Tick where
  files : Files
  callOk : Bool
  exit : Option Int

/-- Where stdout and stderr of a process go. The observable behaviour of reaper.rs:186-291. -/
inductive Output where
  | inherited | discarded | reprinted
  deriving DecidableEq

/-- A process to run. The observable behaviour of reaper.rs:186-291. -/
structure Launch where
  path : String
  args : List String
  env : List (String × String)
  output : Output
  deriving DecidableEq

/-- Observable actions. The observable behaviour of reaper.rs:186-291. -/
inductive Act where
  /-- `/etc/resolv.conf` is written with this content -/
  | resolvConf (text : String)
  /-- connections to this socket are bridged to `127.0.0.1:port` -/
  | ingress (socket : Address) (port : UInt16)
  /-- the egress helper is kept running -/
  | egress (helper : Launch)
  /-- the pivot is started -/
  | launch (l : Launch)
  /-- the pivot has exited -/
  | exited (status : Int)
  /-- the protocol server is told to stop (`InterState::Quitting`) -/
  | stopServer
  /-- `execute` returns -/
  | returned
  /-- `execute` panics -/
  | panicked
  /-- `std::process::exit(1)` -/
  | aborted
  deriving DecidableEq

/-- Where the reaper is in `execute`. The observable behaviour of reaper.rs:186-291. -/
inductive Pc where
  /-- top of the polling loop (reaper.rs:206-211) -/
  | poll
  /-- `quorum_key_exists` (reaper.rs:213) -/
  | quorum
  /-- `pivot_exists` (reaper.rs:214) -/
  | pivot
  /-- `manifest_envelope_exists` (reaper.rs:215) -/
  | manifest
  /-- `get_manifest_envelope` (reaper.rs:228-231) -/
  | load
  /-- `write_resolv_conf` (reaper.rs:237-240) -/
  | dns (m : VersionedManifest)
  /-- the loop of `run_bridges` (reaper.rs:87-105): entries left and `egress_enabled` -/
  | bridges (m : VersionedManifest) (left : List BridgeConfig) (egressEnabled : Bool)
  /-- `spawn` (reaper.rs:257) -/
  | spawn (m : VersionedManifest)
  /-- `wait` (reaper.rs:264-265) -/
  | wait (m : VersionedManifest)
  /-- after the restart delay (reaper.rs:272-276) -/
  | again (m : VersionedManifest)
  /-- waiting for the server to finish (reaper.rs:281-287) -/
  | closing
  /-- nothing more happens -/
  | done
  deriving DecidableEq

/-- The reaper: where it is, and whether `inter_state` is `Quitting` (reaper.rs:194, 279). -/
structure R where
  pc : Pc
  quitting : Bool
  deriving DecidableEq

/-- The start of `execute` (reaper.rs:192-203). -/
def R.start : R := ⟨.poll, false⟩

/-- `SocketAddress::with_port` (io/mod.rs:205-227); `none` is an error or a panic of `new_unix`, both end the reaper. -/
def withPort (port : UInt16) : Address → Option Address
  | .vsock cid _ flags => some (.vsock cid (UInt32.ofNat port.toNat) flags)
  | .unix path => if path = [] then none else
      match Pool.unixAddr (path ++ '.' :: natText port.toNat ++ ".appsock".toList) with
      | .ok a => some a
      | .error _ => none

/-- One `BridgeConfig::Server` entry (reaper.rs:89-97) and the assertion of `HostBridge::new` (host_bridge.rs:28-31), with
a pool of one stream. -/
def ingressOf (core : Address) (port : UInt16) : Option Act :=
  match withPort port core with
  | none => none
  | some socket => if 1 + port.toNat < 65535 then some (.ingress socket port) else none

/-- The command of `run_egress_bridge` (reaper.rs:117-126) and `run_looping` (egress.rs:280-287). -/
def egressHelper (cid : UInt32) : Launch :=
  ⟨"/egress", ["--cid", String.ofList (natText cid.toNat), "--vsock-to-host", "false"], [], .inherited⟩

/-- `run_egress_bridge` (reaper.rs:111-126): panics without the feature or without a vsock core socket. -/
def egressOf (c : Config) : Option Act :=
  match c.core with
  | .unix _ => none
  | .vsock cid _ _ => if c.egress then some (.egress (egressHelper cid)) else none

/-- `resolv_conf_with_nameservers` (reaper.rs:160-168). -/
def resolvConf (resolvers : List IpAddr) : String :=
  String.join (resolvers.map fun r => "nameserver " ++ Ip.display r ++ "\n")

/-- `Command::new(pivot_path)`, `env_clear`, `args`, stdio (reaper.rs:246-254). -/
def command (c : Config) (m : VersionedManifest) : Launch := 
  ⟨c.paths.pivot, m.args, [], if m.debugMode then .reprinted else .discarded⟩

/-- `get_manifest_envelope().manifest()` (handles.rs:185-195, reaper.rs:228-231) on the files of this moment. -/
def load (c : Config) (t : Tick) : Option VersionedManifest :=
  if t.callOk then
    match t.files c.paths.manifest with
    | none => none
    | some f => (Envelope.tryFromSliceCompat f.data).map (·.manifest)
  else none

/-- A panic of `execute`. The observable behaviour of reaper.rs:186-291. -/
def crash (r : R) : R × List Act := (⟨.done, r.quitting⟩, [.panicked])

/-- One entry of `run_bridges` (reaper.rs:87-105). -/
def bridgeStep (c : Config) (m : VersionedManifest) (b : BridgeConfig) (left : List BridgeConfig) (on : Bool) (r : R) :
    R × List Act :=
  match b with
  | .server port _ => match ingressOf c.core port with
    | none => crash r
    | some a => ({ r with pc := .bridges m left on }, [a])
  | .client _ _ => if on then ({ r with pc := .bridges m left true }, []) else
      match egressOf c with
      | none => crash r
      | some a => ({ r with pc := .bridges m left true }, [a])

/-- One step of `execute` (reaper.rs:186-288). -/
def step (c : Config) (t : Tick) (r : R) : R × List Act :=
  match r.pc with
  | .poll => if r.quitting then (⟨.done, r.quitting⟩, [.aborted]) else ({ r with pc := .quorum }, [])
  | .quorum => ({ r with pc := if (t.files c.paths.quorum).isSome then .pivot else .poll }, [])
  | .pivot => ({ r with pc := if (t.files c.paths.pivot).isSome then .manifest else .poll }, [])
  | .manifest => ({ r with pc := if (t.files c.paths.manifest).isSome then .load else .poll }, [])
  | .load => match load c t with
    | none => crash r
    | some m => ({ r with pc := .dns m }, [])
  | .dns m => match m.dnsConfig with
    | none => ({ r with pc := .bridges m m.bridgeConfig false }, [])
    | some d => if t.callOk then ({ r with pc := .bridges m m.bridgeConfig false }, [.resolvConf (resolvConf d.resolvers)])
      else crash r
  | .bridges m [] _ => ({ r with pc := .spawn m }, [])
  | .bridges m (b :: left) on => bridgeStep c m b left on r
  | .spawn m => if t.callOk then ({ r with pc := .wait m }, [.launch (command c m)]) else crash r
  | .wait m => if t.callOk then
      match t.exit with
      | none => (r, [])
      | some status => ({ r with pc := .again m }, [.exited status])
    else crash r
  | .again m => match m.restart with
    | .always => ({ r with pc := .spawn m }, [])
    | .never => (⟨.closing, true⟩, [.stopServer])
  | .closing => ({ r with pc := .done }, [.returned])
  | .done => (r, [])

/-- A run over a schedule: the state reached and everything done. The observable behaviour of reaper.rs:186-291. -/
def runFrom (c : Config) (r : R) : List Tick → R × List Act
  | [] => (r, [])
  | t :: ts => ((runFrom c (step c t r).1 ts).1, (step c t r).2 ++ (runFrom c (step c t r).1 ts).2)

/-- A run of the reaper. The observable behaviour of reaper.rs:186-291. -/
def run (c : Config) (ts : List Tick) : R × List Act := runFrom c R.start ts

end Qos.Reaper
