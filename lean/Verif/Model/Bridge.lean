import Verif.Model.HostCli
import Verif.Model.Host
import Verif.Model.Reaper
/-!
# The host side of the bridge

`/repo/src/qos_bridge/src/host.rs` and `/repo/src/qos_core/src/io/host_bridge.rs`: how the bridge server learns what to
bridge, which listeners it opens for which sockets, and the copying of bytes between the outside and the application.

Simplifications: the pause of five seconds between two polls and the HTTP time-out have no length; printed text is left out;
without the `qemu` feature (one second of sleep before copying); tasks of one connection are modelled for one connection at
a time, as they share nothing; the buffer of `copy_bidirectional` has no bound.
-/
namespace Qos.Bridge
open Pool (Address)
open HostCli (Ipv4)
open Reaper (Launch)
open NChooseK (Overflow)

/-! ## Asking the host -/

/-- An `Option` without attributes: `null` if there is nothing. External crate `serde_derive`, behind
qos_host/src/lib.rs:56-65. -/
def nullable {α : Type} (c : JCodec α) : Option α → Json
  | some a => c.enc a
  | none => .null

/-- `EnclaveInfo` as the host writes it (qos_host/src/lib.rs:56-65, host.rs:228-230); the key is hexadecimal text
(qos_host/src/host.rs:284-286). -/
def infoJson (i : Host.EnclaveInfo) : Json :=
  .obj [("phase", JCodec.phase.enc i.phase), ("manifestEnvelope", nullable JCodec.envelope i.manifestEnvelope),
    ("ephemeralKey", nullable JCodec.hexVec i.ephemeralKey)]

/-- `EnclaveInfo` as it is read (qos_host/src/lib.rs:56-65): a missing member of an `Option` is `None`, like `null`. -/
def infoCodec : JCodec (Phase × Option Envelope × Option String) :=
  .struct false (.both (.req "phase" .phase) (.both (.opt "manifestEnvelope" .envelope) (.opt "ephemeralKey" .string)))

/-- What `ureq::get(..).call()` gives: an error (also for a status from 400 on) or the body. qos_bridge/src/host.rs:45-50. -/
inductive Reply where
  | failed
  | body (b : Bytes)

/-- What one turn of the loop does (qos_bridge/src/host.rs:45-66). -/
inductive Turn where
  /-- polls again -/
  | again
  /-- panics -/
  | panic
  /-- runs the bridges of this manifest -/
  | manifest (m : VersionedManifest)

/-- One turn of the loop of `serve` (qos_bridge/src/host.rs:45-66). -/
def turn : Reply → Turn
  | .failed => .again
  | .body b => match fromJsonSlice infoCodec b with
    | none => .panic
    | some i => match i.2.1 with
      | none => .again
      | some e => .manifest e.manifest

/-! ## Which bridges -/

/-- What the bridge server does. qos_bridge/src/host.rs:43-161. -/
inductive Act where
  /-- listens at this address; connections go to the socket (`HostBridge::tcp_to_vsock`) -/
  | ingress (ip : Ipv4) (port : UInt16) (socket : Address)
  /-- keeps the egress program running -/
  | egress (helper : Launch)
  /-- the program panics; whatever it ran ends -/
  | panicked
  deriving DecidableEq

/-- `host_port` (qos_bridge/src/host.rs:69-72). -/
def hostPort (c : HostCli.BridgeConfig) (port : UInt16) : UInt16 := c.hostPortOverride.getD port

/-- `SocketAddress::with_port` (io/mod.rs:205-227). -/
inductive Derived where
  | socket (a : Address)
  | error
  | panic

/-- `SocketAddress::with_port` (io/mod.rs:205-227): an unnamed Unix socket is an error, a path too long a panic. -/
def appSocket (port : UInt16) : Address → Derived
  | .vsock cid _ flags => .socket (.vsock cid (UInt32.ofNat port.toNat) flags)
  | .unix path => if path = [] then .error else
      match Pool.unixAddr (path ++ '.' :: natText port.toNat ++ ".appsock".toList) with
      | .ok a => .socket a
      | .error _ => .panic

/-- The pairs that `HostBridge` makes of a pool and a port (host_bridge.rs:39-55, 67-90): a listener or a stream for each
socket, the port goes up by one each time; `none` is a panic of the task. -/
def pairs (o : Overflow) : List Address → UInt16 → Option (List (Address × UInt16))
  | [], _ => some []
  | a :: l, p => match Pool.incr o (2 ^ 16) p.toNat with
    | .error _ => none
    | .ok next => match pairs o l (UInt16.ofNat next) with
      | none => none
      | some r => some ((a, p) :: r)

/-- `HostBridge::new` (host_bridge.rs:27-34) and one of its two runs; `none` is a panic. -/
def hostBridge (o : Overflow) (pool : List Address) (port : UInt16) : Option (List (Address × UInt16)) :=
  if pool.length + port.toNat < 65535 then pairs o pool port else none

/-- The actions for the pairs of a bridge (host_bridge.rs:39-55). -/
def listenAll (ip : Ipv4) : Option (List (Address × UInt16)) → List Act
  | none => [.panicked]
  | some l => l.map fun x => .ingress ip x.2 x.1

/-- The end of `run_ingress_bridge` (qos_bridge/src/host.rs:142-160); `StreamPool::single` (pool.rs:102-104). -/
def ingressTo (o : Overflow) (c : HostCli.BridgeConfig) (port : UInt16) (host : String) (socket : Address) : List Act :=
  match Pool.Pool.new o socket 1 with
  | .error _ => []
  | .ok pool => match HostCli.parseIpv4 host with
    | none => []
    | some ip => listenAll ip (hostBridge o pool.addresses (hostPort c port))

/-- `run_ingress_bridge` (qos_bridge/src/host.rs:124-161). -/
def ingress (o : Overflow) (c : HostCli.BridgeConfig) (port : UInt16) (host : String) : List Act :=
  match appSocket port c.socket with
  | .error => []
  | .panic => [.panicked]
  | .socket a => ingressTo o c port host a

/-- `bool` as text. External: standard library, used at qos_bridge/src/host.rs:116-118. -/
def boolText (b : Bool) : String := if b then "true" else "false"

/-- `run_egress_host_bridge` (qos_bridge/src/host.rs:101-122) with `run_looping` (egress.rs:280-301); `feature` is the
`egress` feature. -/
def egress (feature : Bool) (c : HostCli.BridgeConfig) : List Act :=
  match c.socket with
  | .unix _ => [.panicked]
  | .vsock cid _ flags =>
    if feature then
      [.egress ⟨c.egressBinPath.getD "/qos_egress",
        ["--egress-host", "--cid", String.ofList (natText cid.toNat), "--vsock-to-host", boolText (flags = 1)], [], .inherited⟩]
    else [.panicked]

/-- What one entry makes happen (qos_bridge/src/host.rs:78-95); `on` is `egress_enabled`. -/
def entry (o : Overflow) (feature : Bool) (c : HostCli.BridgeConfig) (on : Bool) : BridgeConfig → List Act
  | .client _ _ => if on then [] else egress feature c
  | .server port host => ingress o c port host

/-- `egress_enabled` after an entry (qos_bridge/src/host.rs:86-87). -/
def isClient : BridgeConfig → Bool
  | .client _ _ => true
  | .server _ _ => false

/-- `run_bridges` (qos_bridge/src/host.rs:74-97): a panic ends it. -/
def runBridges (o : Overflow) (feature : Bool) (c : HostCli.BridgeConfig) : Bool → List BridgeConfig → List Act
  | _, [] => []
  | on, b :: l =>
    if .panicked ∈ entry o feature c on b then entry o feature c on b
    else entry o feature c on b ++ runBridges o feature c (on || isClient b) l

/-- `serve` (qos_bridge/src/host.rs:43-67): everything done for a sequence of replies. -/
def serve (o : Overflow) (feature : Bool) (c : HostCli.BridgeConfig) : List Reply → List Act
  | [] => []
  | r :: rs => match turn r with
    | .again => serve o feature c rs
    | .panic => [.panicked]
    | .manifest m => runBridges o feature c false m.bridgeConfig

/-- The URL that is asked (qos_bridge/src/host.rs:26-37). -/
def infoUrl (c : HostCli.BridgeConfig) : String := c.controlUrl ++ "/enclave-info"

/-- What a host in front of an enclave replies to that (qos_host/src/host.rs:174-231). -/
def hostReply : Option Host.EnclaveInfo → Reply
  | none => .failed
  | some i => .body (Json.writeBytes (infoJson i))

end Qos.Bridge
