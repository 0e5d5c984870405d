import Verif.Model.Ip
/-!
# Socket addresses

`SocketAddr` and its reader in the standard library, as the signed-echo pivot uses it (signed_echo/src/main.rs:56-58). Like the
reader of IP addresses (`Model/Ip.lean`), it reads characters here instead of bytes.
-/
namespace Qos.SockAddr
open Qos (IpAddr)
open HostCli (isDigit expect readIpv4)
open Ip (readIpv6)

/-- `SocketAddr`: the address, the port, and the scope of an IPv6 address (0 when there is none; its flow label is always 0).
External: standard library, used at signed_echo/src/main.rs:56-58. -/
structure Addr where
  ip : IpAddr
  port : UInt16
  scope : UInt32
  deriving DecidableEq

/-- `read_number(10, None, true)`: digits, leading zeros allowed, below the bound of the type. External: standard library, used
at signed_echo/src/main.rs:56-58. -/
def readDecimal (bound : Nat) (cs : List Char) : Option (Nat × List Char) :=
  let ds := cs.takeWhile isDigit
  if ds = [] then none
  else match digitsNat 0 ds with
    | none => none
    | some n => if n < bound then some (n, cs.dropWhile isDigit) else none

/-- `read_port`: `:` and a number. External: standard library, used at signed_echo/src/main.rs:56-58. -/
def readPort (cs : List Char) : Option (UInt16 × List Char) :=
  (expect ':' cs).bind fun r => (readDecimal 65536 r).map fun (n, r) => (UInt16.ofNat n, r)

/-- `read_scope_id`: `%` and a number. External: standard library, used at signed_echo/src/main.rs:56-58. -/
def readScope (cs : List Char) : Option (UInt32 × List Char) :=
  (expect '%' cs).bind fun r => (readDecimal 4294967296 r).map fun (n, r) => (UInt32.ofNat n, r)

/-- `read_socket_addr_v4`. External: standard library, used at signed_echo/src/main.rs:56-58. -/
def readV4 (cs : List Char) : Option (Addr × List Char) :=
  (readIpv4 cs).bind fun (i, r) => (readPort r).map fun (p, r) => (⟨.v4 i, p, 0⟩, r)

/-- `read_socket_addr_v6`: a scope that cannot be read counts as none, and then `]` must follow. External: standard library, used
at signed_echo/src/main.rs:56-58. -/
def readV6 (cs : List Char) : Option (Addr × List Char) :=
  (expect '[' cs).bind fun r => (readIpv6 r).bind fun (a, r) =>
    let s := (readScope r).getD (0, r)
    (expect ']' s.2).bind fun r => (readPort r).map fun (p, r) => (⟨.v6 a, p, s.1⟩, r)

/-- `SocketAddr::from_str`: an IPv4 address and port, else an IPv6 address and port, and nothing else. External: standard
library, used at signed_echo/src/main.rs:56-58. -/
def parse (t : String) : Option Addr :=
  match (readV4 t.toList).orElse fun _ => readV6 t.toList with
  | some (a, []) => some a
  | _ => none

end Qos.SockAddr
