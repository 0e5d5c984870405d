import Verif.Model.SockAddr
import Verif.Spec.Ip
import Verif.Spec.HostCli
/-!
# The texts of a socket address

Independent of how they are read: host, colon, port.
-/
namespace Qos.SockAddr
open Qos (IpAddr)

/-- A text that names a host: an IPv4 address in dotted decimal, or an IPv6 address in brackets, possibly with a numeric scope. -/
inductive HostText : List Char → IpAddr → UInt32 → Prop
  | v4 {t : List Char} {i : HostCli.Ipv4} : Ip.Denotes t (.v4 i) → HostText t (.v4 i) 0
  | v6 {t : List Char} {a : Ipv6} : Ip.Denotes t (.v6 a) → HostText ('[' :: t ++ [']']) (.v6 a) 0
  | withScope {t d : List Char} {a : Ipv6} {n : UInt32} : Ip.Denotes t (.v6 a) → HostCli.Digits d n.toNat →
      HostText ('[' :: t ++ '%' :: d ++ [']']) (.v6 a) n

/-- A text that denotes a socket address: a host, `:` and the port in decimal digits. -/
def Denotes (t : List Char) (a : Addr) : Prop :=
  ∃ h d, t = h ++ ':' :: d ∧ HostText h a.ip a.scope ∧ HostCli.Digits d a.port.toNat

end Qos.SockAddr
