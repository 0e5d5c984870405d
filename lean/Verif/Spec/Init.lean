import Verif.Model.Init
/-!
# What the first process has done before anything is served
-/
namespace Qos.Init
open Pool (Address)

/-- The kernel's current source of hardware randomness is the Nitro device. -/
def Entropy (K : Kernel) : Prop :=
  ∃ c text, K.file "/sys/class/misc/hw_random/rng_current" = some c ∧ utf8Decode c = some text ∧ P256.trim text = "nsm-hwrng"

/-- The interface is up. -/
def Up (flags : UInt16) : Prop := flags.toNat.testBit 0 = true

/-- The commands that make the tunnel. -/
def tunnelCommands : List String :=
  ["tuntap add enclave_egress mode tun", "link set lo up", "address add 169.254.0.1/32 dev lo",
   "link set mtu 1320 dev enclave_egress", "link set enclave_egress up", "route replace default dev enclave_egress"]

/-- What has to succeed for the enclave to come up; a machine that cannot be switched off comes up without the right source of
randomness too. -/
structure Works (egress : Bool) (K : Kernel) : Prop where
  module : K.opens "/nsm.ko" = true
  entropy : Entropy K ∨ K.poweroffReturns = true
  socket : K.socket = true
  loopback : ∃ f, K.flags "lo" = some f ∧ (Up f ∨ K.setsFlags = true)
  address : K.setsAddr = true
  tunnel : egress = true → ∀ a ∈ tunnelCommands, K.ips a = true
  cid : K.cid ≠ none

/-- What has been asked of the kernel before anything is served. -/
structure Prepared (egress : Bool) (K : Kernel) (pre : List Call) : Prop where
  /-- these file systems: where, of which type and with which options -/
  mounted : ∀ m ∈ [("/dev", "devtmpfs", "mode=0755"), ("/dev/pts", "devpts", ""), ("/dev/shm", "tmpfs", "mode=0755"),
      ("/proc", "proc", "hidepid=2"), ("/run", "tmpfs", "mode=0755"), ("/tmp", "tmpfs", ""), ("/sys", "sysfs", ""),
      ("/sys/fs/cgroup", "tmpfs", "mode=0755")],
    ∃ src flags, .mount src m.1 m.2.1 flags m.2.2 ∈ pre
  /-- none of them with programs (8), with set-user-id programs (2), or, but for two, with devices (4) -/
  safe : ∀ src target fstype flags data, .mount src target fstype flags data ∈ pre →
    flags &&& 8 ≠ 0 ∧ flags &&& 2 ≠ 0 ∧ (flags &&& 4 = 0 → target = "/dev" ∨ target = "/dev/pts")
  /-- input, output and errors are the console's -/
  console : .reopen "/dev/console" "r" 0 ∈ pre ∧ .reopen "/dev/console" "w" 1 ∈ pre ∧ .reopen "/dev/console" "w" 2 ∈ pre
  /-- the heartbeat for the hypervisor, 0xB7 to port 9000 of CID 3 -/
  heartbeat : .connect 9000 3 ∈ pre ∧ (K.connects = true → .heartbeat 183 ∈ pre)
  /-- the driver of the Nitro device was loaded before the source of randomness was looked at -/
  module : ∃ a b, pre = a ++ .insmod "/nsm.ko" :: b ∧ .read "/sys/class/misc/hw_random/rng_current" ∈ b
  /-- the loopback interface is up, its other flags as they were, and has the address 127.0.0.1 -/
  loopback : ∃ f, K.flags "lo" = some f ∧ (Up f ∨ ∃ g, .setFlags "lo" g ∈ pre ∧ Up g ∧
    ∀ i, i ≠ 0 → g.toNat.testBit i = f.toNat.testBit i)
  address : ∃ a, .setAddr "lo" a ∈ pre ∧ a.toNat = 127 * 256 ^ 3 + 1
  tunnel : egress = true → ∀ a ∈ tunnelCommands, .ip a ∈ pre
  /-- nothing of the reaper, and no reboot -/
  quiet : ∀ x ∈ pre, x ≠ .reboot ∧ (∀ c, x ≠ .reaper c) ∧ ∀ a, x ≠ .act a

end Qos.Init
