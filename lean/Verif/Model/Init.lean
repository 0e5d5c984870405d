import Verif.Model.P256
import Verif.Model.Reaper
/-!
# The first process of the enclave

`/repo/src/init/init.rs`, `/repo/src/init/setip.rs`, `/repo/src/qos_aws/src/lib.rs`, `/repo/src/qos_system/src/lib.rs` and
`init_egress_tun` (`/repo/src/qos_core/src/egress.rs`): everything between the kernel's start of init and the reaper.
The kernel's answers are outside. Simplifications: messages on the console are not modelled; an answer does not depend on
earlier calls; a panic of this process ends the machine.
-/
namespace Qos.Init
open Pool (Address)

/-- What the process asks of the kernel. init.rs:17-88, qos_aws/src/lib.rs:4-41, setip.rs:11-81. -/
inductive Call where
  /-- `mount(2)` -/
  | mount (src target fstype : String) (flags : Nat) (data : String)
  /-- `freopen(3)` of a file descriptor -/
  | reopen (file mode : String) (fd : Nat)
  /-- connects a vsock -/
  | connect (port cid : Nat)
  /-- writes one byte there and reads one -/
  | heartbeat (byte : UInt8)
  /-- `finit_module(2)` of an opened file -/
  | insmod (path : String)
  /-- reads a file -/
  | read (path : String)
  | poweroff
  /-- `SIOCGIFFLAGS` of an interface -/
  | getFlags (interface : String)
  /-- `SIOCSIFFLAGS` -/
  | setFlags (interface : String) (flags : UInt16)
  /-- `SIOCSIFADDR` -/
  | setAddr (interface : String) (addr : UInt32)
  /-- runs `ip` -/
  | ip (args : String)
  /-- `IOCTL_VM_SOCKETS_GET_LOCAL_CID` -/
  | localCid
  /-- `Reaper::execute` begins -/
  | reaper (c : Reaper.Config)
  /-- what the reaper does -/
  | act (a : Reaper.Act)
  | reboot

/-- The kernel's answers. qos_system/src/lib.rs:36-200, setip.rs:11-81, qos_core/src/egress.rs:268-277. -/
structure Kernel where
  mounts : String → Bool
  reopens : Nat → Bool
  /-- the connection for the heartbeat -/
  connects : Bool
  /-- the module file can be opened -/
  opens : String → Bool
  loads : String → Bool
  file : String → Option Bytes
  /-- the call to power off comes back -/
  poweroffReturns : Bool
  /-- a socket for the interface requests -/
  socket : Bool
  flags : String → Option UInt16
  setsFlags : Bool
  setsAddr : Bool
  ips : String → Bool
  cid : Option UInt32

/-- How a part of the program ends. -- init.rs:55-88: on to the next part; by a panic; or the machine is off. -/
inductive End where
  | goesOn
  | panics
  | off
  deriving DecidableEq

/-- A part of the program: what it asks, and how it ends. -- init.rs:55-88. -/
structure Part where
  calls : List Call
  ends : End

/-- One part after another. -- init.rs:55-88. -/
def Part.next (a b : Part) : Part := match a.ends with
  | .goesOn => ⟨a.calls ++ b.calls, b.ends⟩
  | e => ⟨a.calls, e⟩

/-- `MS_NOSUID`. External: libc, used at init.rs:18-20. -/
def nosuid : Nat := 2
/-- `MS_NODEV`. External: libc, used at init.rs:18-20. -/
def nodev : Nat := 4
/-- `MS_NOEXEC`. External: libc, used at init.rs:18-20. -/
def noexec : Nat := 8

/-- `no_dse` (init.rs:19). -/
def noDse : Nat := nodev ||| nosuid ||| noexec
/-- `no_se` (init.rs:20). -/
def noSe : Nat := nosuid ||| noexec

/-- The table of `init_rootfs` (init.rs:21-30). -/
def mountTable : List (String × String × String × Nat × String) :=
  [("devtmpfs", "/dev", "devtmpfs", noSe, "mode=0755"),
   ("devpts", "/dev/pts", "devpts", noSe, ""),
   ("shm", "/dev/shm", "tmpfs", noDse, "mode=0755"),
   ("proc", "/proc", "proc", noDse, "hidepid=2"),
   ("tmpfs", "/run", "tmpfs", noDse, "mode=0755"),
   ("tmpfs", "/tmp", "tmpfs", noDse, ""),
   ("sysfs", "/sys", "sysfs", noDse, ""),
   ("cgroup_root", "/sys/fs/cgroup", "tmpfs", noDse, "mode=0755")]

/-- `init_rootfs` (init.rs:17-37): a mount that fails is only reported. -/
def initRootfs : Part := ⟨mountTable.map fun m => .mount m.1 m.2.1 m.2.2.1 m.2.2.2.1 m.2.2.2.2, .goesOn⟩

/-- `init_console` (init.rs:40-52): a failure is only reported. -/
def initConsole : Part :=
  ⟨[.reopen "/dev/console" "r" 0, .reopen "/dev/console" "w" 1, .reopen "/dev/console" "w" 2], .goesOn⟩

/-- `nitro_heartbeat` (qos_aws/src/lib.rs:4-22). -/
def nitroHeartbeat (K : Kernel) : Part :=
  ⟨.connect 9000 3 :: (if K.connects then [.heartbeat 0xB7] else []), .goesOn⟩

/-- `insmod` (qos_system/src/lib.rs:107-120) at qos_aws/src/lib.rs:29-32: no such file is a panic, a module that does not load is only
reported. -/
def loadModule (K : Kernel) (path : String) : Part :=
  if K.opens path then ⟨[.insmod path], .goesOn⟩ else ⟨[], .panics⟩

/-- `check_hwrng` (qos_system/src/lib.rs:152-169). -/
def checkHwrng (K : Kernel) (expected : String) : Bool :=
  match K.file "/sys/class/misc/hw_random/rng_current" with
  | none => false
  | some c => match utf8Decode c with
    | none => false
    | some s => expected = P256.trim s

/-- The end of `init_platform` (qos_aws/src/lib.rs:34-40) with `poweroff` (qos_system/src/lib.rs:44-50), whose result is not
looked at. -/
def requireHwrng (K : Kernel) : Part :=
  if checkHwrng K "nsm-hwrng" then ⟨[.read "/sys/class/misc/hw_random/rng_current"], .goesOn⟩
  else ⟨[.read "/sys/class/misc/hw_random/rng_current", .poweroff], if K.poweroffReturns then .goesOn else .off⟩

/-- `init_platform` (qos_aws/src/lib.rs:25-41). -/
def initPlatform (K : Kernel) : Part :=
  ((nitroHeartbeat K).next (loadModule K "/nsm.ko")).next (requireHwrng K)

/-- `IFF_UP`. External: libc, used at setip.rs:51. -/
def iffUp : UInt16 := 1

/-- `LOCALHOST_U32` (setip.rs:9). -/
def localhost : UInt32 := 2130706433

/-- The last request of `init_localhost` (setip.rs:61-71), in network byte order. -/
def assignLocalhost (K : Kernel) : Part := ⟨[.setAddr "lo" localhost], if K.setsAddr then .goesOn else .panics⟩

/-- The second request of `init_localhost` (setip.rs:50-60), if needed. -/
def raise (K : Kernel) (flags : UInt16) : Part :=
  if flags &&& iffUp = 0 then ⟨[.setFlags "lo" (flags ||| iffUp)], if K.setsFlags then .goesOn else .panics⟩ else ⟨[], .goesOn⟩

/-- `init_localhost` (setip.rs:11-81). -/
def initLocalhost (K : Kernel) : Part :=
  if K.socket then
    match K.flags "lo" with
    | none => ⟨[.getFlags "lo"], .panics⟩
    | some f => (⟨[.getFlags "lo"], .goesOn⟩ : Part).next ((raise K f).next (assignLocalhost K))
  else ⟨[], .panics⟩

/-- The commands of `init_egress_tun` (qos_core/src/egress.rs:77-84). -/
def ipTable : List String :=
  ["tuntap add enclave_egress mode tun", "link set lo up", "address add 169.254.0.1/32 dev lo",
   "link set mtu 1320 dev enclave_egress", "link set enclave_egress up", "route replace default dev enclave_egress"]

/-- `run_ip` one after another (qos_core/src/egress.rs:77-84, 271-277): a failure is a panic. -/
def runIps (K : Kernel) : List String → Part
  | [] => ⟨[], .goesOn⟩
  | a :: rest => (⟨[.ip a], if K.ips a then .goesOn else .panics⟩ : Part).next (runIps K rest)

/-- `boot` (init.rs:54-64), with or without the feature `egress`. -/
def boot (egress : Bool) (K : Kernel) : Part :=
  (((initRootfs.next initConsole).next (initPlatform K)).next (initLocalhost K)).next
    (if egress then runIps K ipTable else ⟨[], .goesOn⟩)

/-- The files of qos_core/src/lib.rs:19-29, as given to `Handles::new` (init.rs:74-79). -/
def paths : Paths := ⟨"/qos.ephemeral.key", "/qos.quorum.key", "/qos.manifest", "/qos.pivot.bin"⟩

/-- What the reaper is started with (init.rs:74-85). `VMADDR_NO_FLAGS` is 0. -/
def reaperConfig (egress : Bool) (cid : UInt32) : Reaper.Config := ⟨paths, .vsock cid 3 0, egress⟩

/-- After the reaper (init.rs:85-87): `reboot` if it has returned. -/
def afterwards (acts : List Reaper.Act) : List Call := if .returned ∈ acts then [.reboot] else []

/-- `Reaper::execute(..).await; reboot()` (init.rs:85-87), as far as it has got on this schedule. -/
def runReaper (c : Reaper.Config) (ts : List Reaper.Tick) : List Call :=
  .reaper c :: (Reaper.run c ts).2.map .act ++ afterwards (Reaper.run c ts).2

/-- The part of `main` after `boot` (init.rs:71-87). -/
def serve (egress : Bool) (K : Kernel) (ts : List Reaper.Tick) : List Call :=
  .localCid :: match K.cid with
    | none => []
    | some cid => runReaper (reaperConfig egress cid) ts

/-- `main` (init.rs:66-88): everything the process has asked so far. -/
def main (egress : Bool) (K : Kernel) (ts : List Reaper.Tick) : List Call :=
  (boot egress K).calls ++ (if (boot egress K).ends = .goesOn then serve egress K ts else [])

end Qos.Init
