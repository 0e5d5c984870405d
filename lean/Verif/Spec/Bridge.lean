import Verif.Model.Bridge
import Verif.Spec.HostCli
import Verif.Spec.Reaper
/-!
# What the bridge server is meant to do

Vocabulary of C59. Nothing here uses the helper functions of the model.
-/
namespace Qos.Bridge
open Pool (Address)
open HostCli (Ipv4)
open Reaper (Launch SocketFor HasClient)

/-- A listener on the host: connections to the address go to the socket. -/
structure Listener where
  ip : Ipv4
  port : UInt16
  socket : Address
  deriving DecidableEq

/-- Parts of a list of actions. -/
def listeners (acts : List Act) : List Listener := acts.filterMap fun a => match a with
  | .ingress ip port socket => some ⟨ip, port, socket⟩
  | _ => none

def helpers (acts : List Act) : List Launch := acts.filterMap fun a => match a with
  | .egress l => some l
  | _ => none

/-- The placeholder is a Unix socket without a name: no socket can be derived from it. -/
def Unnamed (c : HostCli.BridgeConfig) : Prop := c.socket = .unix []

/-- The listener that a server entry asks for: at its IPv4 address, on its port or on the port that overrides all, towards the
socket of the application port. -/
structure Asks (c : HostCli.BridgeConfig) (port : UInt16) (host : String) (l : Listener) : Prop where
  address : host = l.ip.text
  hostPort : l.port = match c.hostPortOverride with
    | some p => p
    | none => port
  socket : SocketFor c.socket port l.socket

/-- The listeners for the entries of a manifest, in order: one for each server entry with an IPv4 address, none for the
others. -/
inductive ListensFor (c : HostCli.BridgeConfig) : List BridgeConfig → List Listener → Prop
  | nil : ListensFor c [] []
  | client (port : UInt16) (host : Option String) {bs : List BridgeConfig} {ls : List Listener} : ListensFor c bs ls →
      ListensFor c (.client port host :: bs) ls
  | skipped (port : UInt16) (host : String) {bs : List BridgeConfig} {ls : List Listener} :
      Unnamed c ∨ (∀ ip : Ipv4, host ≠ ip.text) → ListensFor c bs ls → ListensFor c (.server port host :: bs) ls
  | server (port : UInt16) (host : String) {l : Listener} {bs : List BridgeConfig} {ls : List Listener} : ¬ Unnamed c →
      Asks c port host l → ListensFor c bs ls → ListensFor c (.server port host :: bs) (l :: ls)

/-- The egress helper: the given program or `/qos_egress`, on the host side, for the CID of the enclave. -/
structure Helper (c : HostCli.BridgeConfig) (l : Launch) : Prop where
  path : l.path = match c.egressBinPath with
    | some p => p
    | none => "/qos_egress"
  args : ∃ cid port flags, c.socket = .vsock cid port flags ∧
    l.args = ["--egress-host", "--cid", toString cid.toNat, "--vsock-to-host", toString (flags == 1)]
  env : l.env = []
  output : l.output = .inherited

/-- What runs for the entries of a manifest: exactly the listeners asked for, and one egress helper if and only if there is
a client entry. -/
structure Bridged (c : HostCli.BridgeConfig) (bs : List BridgeConfig) (acts : List Act) : Prop where
  alive : .panicked ∉ acts
  listens : ListensFor c bs (listeners acts)
  client : HasClient bs → ∃ l, helpers acts = [l] ∧ Helper c l
  noClient : ¬ HasClient bs → helpers acts = []

/-- An entry that the bridge server cannot serve: a client entry without the `egress` feature or without a vsock socket; a
server entry with a socket path too long, or with a port on the host that leaves no port above it. -/
def Unservable (feature : Bool) (c : HostCli.BridgeConfig) : BridgeConfig → Prop
  | .client _ _ => feature = false ∨ ∃ path, c.socket = .unix path
  | .server port host =>
    (∃ path, c.socket = .unix path ∧ path ≠ [] ∧
      107 < (utf8 (String.ofList path ++ "." ++ toString port.toNat ++ ".appsock")).length) ∨
    (¬ Unnamed c ∧ (∃ ip : Ipv4, host = ip.text) ∧ 65534 ≤ (c.hostPortOverride.getD port).toNat)

/-! ## Both sides -/

/-- The socket the bridge server derives from and the core socket of the enclave belong together: both are vsocks (the CID
is the way to the enclave, the port is replaced), or the same Unix socket. -/
def Faces : (host enclave : Address) → Prop
  | .vsock _ _ _, .vsock _ _ _ => True
  | .unix p, .unix q => p = q
  | _, _ => False

/-- A connection to the first socket arrives at a listener on the second. -/
def Connects : (dialled listening : Address) → Prop
  | .vsock _ p _, .vsock _ q _ => p = q
  | .unix p, .unix q => p = q
  | _, _ => False

end Qos.Bridge
