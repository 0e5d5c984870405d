import Verif.Model.HostCli
import Verif.Spec.Ip
import Verif.Spec.Parser
/-!
# What the command lines of host, bridge and proxy mean

In terms of the words on the command line (`Spec/Parser.lean`), independent of how they are parsed.
-/
namespace Qos.HostCli
open Parser (Item)
open Pool (Address)

/-- Decimal digits and their value. -/
inductive Digits : List Char → Nat → Prop
  | one (d : Nat) : d < 10 → Digits [Char.ofNat (48 + d)] d
  | snoc (cs : List Char) (n d : Nat) : Digits cs n → d < 10 → Digits (cs ++ [Char.ofNat (48 + d)]) (10 * n + d)

/-- A number: decimal digits, possibly with `+` before. -/
def Number (s : String) (n : Nat) : Prop := Digits s.toList n ∨ ∃ cs, s.toList = '+' :: cs ∧ Digits cs n

/-- `--name v` is on the command line. -/
def Says (items : List Item) (name v : String) : Prop := .value name v ∈ items

/-- `--name` with a value is not on the command line. -/
def Silent (items : List Item) (name : String) : Prop := ∀ v, .value name v ∉ items

/-- The value given for a name, or the default. -/
def SaysOr (items : List Item) (name default v : String) : Prop :=
  Says items name v ∨ (v = default ∧ Silent items name)

/-- The flags byte of a vsock address: 1 for `--vsock-to-host true`, 0 for `false`. -/
def SaysFlags (items : List Item) (unset flags : UInt8) : Prop :=
  (Says items "vsock-to-host" "true" ∧ flags = 1) ∨ (Says items "vsock-to-host" "false" ∧ flags = 0) ∨
  (Silent items "vsock-to-host" ∧ flags = unset)

/-- A Unix socket path of at most 107 bytes. -/
def SaysUnix (items : List Item) (a : Address) : Prop :=
  ∃ u, Says items "usock" u ∧ u.utf8ByteSize ≤ 107 ∧ a = .unix u.toList

/-- What the host is started with. -/
structure HostAsks (items : List Item) (c : HostConfig) : Prop where
  socket : SaysUnix items c.socket ∨ ∃ cid port flags cs ps, c.socket = .vsock cid port flags ∧ Says items "cid" cs ∧
    Number cs cid.toNat ∧ Says items "port" ps ∧ Number ps port.toNat ∧ SaysFlags items 0 flags
  timeout : c.timeoutMs < 2 ^ 64 ∧ ∃ s, SaysOr items "socket-timeout" "20000" s ∧ Number s c.timeoutMs
  ip : Says items "host-ip" c.ip.text
  port : ∃ s, Says items "host-port" s ∧ Number s c.port.toNat
  basePath : ∀ p, c.basePath = some p ↔ Says items "endpoint-base-path" p

/-- What the bridge is started with. A `--host-port-override` that is not a port is ignored. -/
structure BridgeAsks (items : List Item) (c : BridgeConfig) : Prop where
  socket : SaysUnix items c.socket ∨ ∃ cid flags cs, c.socket = .vsock cid 3001 flags ∧ Says items "cid" cs ∧
    Number cs cid.toNat ∧ SaysFlags items 1 flags
  url : Says items "control-url" c.controlUrl
  override : ∀ p, c.hostPortOverride = some p ↔ ∃ s, Says items "host-port-override" s ∧ Number s p.toNat
  bin : ∀ p, c.egressBinPath = some p ↔ Says items "egress-bin-path" p

/-- What the egress program is started with. -/
structure EgressAsks (items : List Item) (c : EgressConfig) : Prop where
  side : c.hostSide = true ↔ .flag "egress-host" ∈ items
  cid : ∃ s, Says items "cid" s ∧ Number s c.cid.toNat
  flags : SaysFlags items 1 c.flags

/-- What the proxy is started with: the first socket, how many, and how many connections each serves. -/
structure ProxyAsks (items : List Item) (first : Address) (size : Nat) (max : Nat) : Prop where
  socket : SaysUnix items first ∨ ∃ cid port cs ps, first = .vsock cid port 0 ∧ Says items "cid" cs ∧
    Number cs cid.toNat ∧ Says items "port" ps ∧ Number ps port.toNat
  size : 0 < size ∧ size < 256 ∧ ∃ s, SaysOr items "pool-size" "1" s ∧ Number s size
  max : max < 2 ^ 64 ∧ ∃ s, SaysOr items "max-connections" "256" s ∧ Number s max

end Qos.HostCli
