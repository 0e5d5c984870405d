import Verif.Model.Text
/-!
# IP addresses

`IpAddr` and its text, as the standard library writes and reads them. The enclave's manifest lists DNS resolvers as
addresses (qos_core/src/protocol/services/boot/manifest/v2.rs:18-21, through serde, which uses this text), the reaper writes
them into `/etc/resolv.conf` (qos_core/src/reaper.rs:160-172), the operator gives them on the command line
(qos_client/src/cli/mod.rs:1079-1108), and the network proxy reads them from requests
(qos_net/src/proxy_connection.rs:54-72, 119-127).

The standard library's parser reads bytes; here it reads characters. This is the same: it only looks for ASCII characters,
and no byte of a character that is not ASCII is an ASCII byte.
-/
namespace Qos.HostCli

/-! ## IPv4 -/

/-- An IPv4 address, as `Ipv4Addr::octets`. External: standard library, used at qos_host/src/cli.rs:101-107. -/
structure Ipv4 where
  a : UInt8
  b : UInt8
  c : UInt8
  d : UInt8
  deriving DecidableEq

/-- A decimal digit. External: `char::to_digit(10)`, used through qos_host/src/cli.rs:101-107. -/
def isDigit (c : Char) : Bool := (digitNat c).isSome

/-- `read_number(10, Some(3), false)` of the standard library's address parser: one to three digits, no leading zero, below
256. External: standard library, used at qos_host/src/cli.rs:101-107. -/
def readOctet (cs : List Char) : Option (UInt8 × List Char) :=
  let ds := cs.takeWhile isDigit
  if ds = [] ∨ 3 < ds.length ∨ (ds.head? = some '0' ∧ 1 < ds.length) then none
  else match digitsNat 0 ds with
    | none => none
    | some n => if n < 256 then some (UInt8.ofNat n, cs.dropWhile isDigit) else none

/-- A given character. External: `read_given_char` of the standard library, used through qos_host/src/cli.rs:101-107. -/
def expect (c : Char) : List Char → Option (List Char)
  | [] => none
  | x :: r => if x = c then some r else none

/-- Three times `.` and an octet. External: `read_ipv4_addr`, used through qos_host/src/cli.rs:101-107. -/
def readDotted (cs : List Char) : Option (UInt8 × List Char) := (expect '.' cs).bind readOctet

/-- `read_ipv4_addr`: four octets with dots between. External: standard library, used at qos_host/src/cli.rs:101-107,
v2.rs:18-21. -/
def readIpv4 (cs : List Char) : Option (Ipv4 × List Char) :=
  (readOctet cs).bind fun (a, r) => (readDotted r).bind fun (b, r) => (readDotted r).bind fun (c, r) =>
    (readDotted r).bind fun (d, r) => some (⟨a, b, c, d⟩, r)

/-- `Display` of `Ipv4Addr`. External: standard library, used at reaper.rs:160-168, v2.rs:18-21. -/
def Ipv4.chars (i : Ipv4) : List Char :=
  natText i.a.toNat ++ '.' :: (natText i.b.toNat ++ '.' :: (natText i.c.toNat ++ '.' :: natText i.d.toNat))

end Qos.HostCli

namespace Qos
open HostCli (Ipv4 readIpv4 expect)

/-- `Ipv6Addr`, as `Ipv6Addr::segments`. External: standard library, used at v2.rs:18-21. -/
structure Ipv6 where
  groups : List UInt16
  eight : groups.length = 8
  deriving DecidableEq

/-- `IpAddr`. External: standard library, used at v2.rs:18-21. -/
inductive IpAddr where
  | v4 (a : Ipv4)
  | v6 (a : Ipv6)
  deriving DecidableEq

namespace Ip

/-! ## Writing -/

/-- A hexadecimal digit. External: standard library, used at reaper.rs:160-168. -/
def hexChar (n : Nat) : Char := if n < 10 then Char.ofNat (48 + n) else Char.ofNat (87 + n)

/-- `{:x}` of a `u16`: lower case, no leading zeros. External: standard library, used at reaper.rs:160-168. -/
def hexText (g : UInt16) : List Char :=
  (([g.toNat / 4096, g.toNat / 256 % 16, g.toNat / 16 % 16].dropWhile fun d => d == 0) ++ [g.toNat % 16]).map hexChar

/-- `fmt_subslice`: groups with `:` between. External: standard library, used at reaper.rs:160-168. -/
def joined : List UInt16 → List Char
  | [] => []
  | [g] => hexText g
  | g :: g' :: gs => hexText g ++ ':' :: joined (g' :: gs)

/-- A run of groups. -- External: `Span` of the standard library, used at reaper.rs:160-168. -/
structure Span where
  start : Nat
  len : Nat

/-- One step of the search for the longest run of zeros, at group `i`: the run that ends here, and the longest one so far.
External: standard library, used at reaper.rs:160-168. -/
def spanStep (i : Nat) (g : UInt16) (current longest : Span) : Span × Span :=
  if g = 0 then
    let current : Span := if current.len = 0 then ⟨i, 1⟩ else ⟨current.start, current.len + 1⟩
    (current, if longest.len < current.len then current else longest)
  else (⟨0, 0⟩, longest)

/-- The first longest run of zeros. External: standard library, used at reaper.rs:160-168. -/
def longestFrom : Nat → List UInt16 → Span → Span → Span
  | _, [], _, longest => longest
  | i, g :: gs, current, longest =>
    longestFrom (i + 1) gs (spanStep i g current longest).1 (spanStep i g current longest).2

/-- The two bytes of a group. External: `u16::to_be_bytes`, used through reaper.rs:160-168. -/
def high (g : UInt16) : UInt8 := UInt8.ofNat (g.toNat / 256)

/-- The two bytes of a group. External: `u16::to_be_bytes`, used through reaper.rs:160-168. -/
def low (g : UInt16) : UInt8 := UInt8.ofNat (g.toNat % 256)

/-- `to_ipv4_mapped`: an address of the form `::ffff:a.b.c.d`. External: standard library, used at reaper.rs:160-168. -/
def mapped : List UInt16 → Option Ipv4
  | [0, 0, 0, 0, 0, 0xffff, x, y] => some ⟨high x, low x, high y, low y⟩
  | _ => none

/-- `Display` of `Ipv6Addr`. External: standard library, used at reaper.rs:160-168. -/
def chars6 (gs : List UInt16) : List Char :=
  match mapped gs with
  | some i => "::ffff:".toList ++ i.chars
  | none =>
    let z := longestFrom 0 gs ⟨0, 0⟩ ⟨0, 0⟩
    if 1 < z.len then joined (gs.take z.start) ++ "::".toList ++ joined (gs.drop (z.start + z.len)) else joined gs

/-- `Display` of `IpAddr`. External: standard library, used at reaper.rs:160-168, and behind serde at v2.rs:18-21. -/
def display : IpAddr → String
  | .v4 i => String.ofList i.chars
  | .v6 a => String.ofList (chars6 a.groups)

/-! ## Reading -/

/-- `char::to_digit(16)`. External: standard library, used at v2.rs:18-21. -/
def hexNat (c : Char) : Option Nat :=
  if 48 ≤ c.toNat ∧ c.toNat ≤ 57 then some (c.toNat - 48)
  else if 97 ≤ c.toNat ∧ c.toNat ≤ 102 then some (c.toNat - 87)
  else if 65 ≤ c.toNat ∧ c.toNat ≤ 70 then some (c.toNat - 55)
  else none

/-- A hexadecimal digit. External: standard library, used at v2.rs:18-21. -/
def isHex (c : Char) : Bool := (hexNat c).isSome

/-- The value of hexadecimal digits. External: standard library, used at v2.rs:18-21. -/
def hexValue (cs : List Char) : Nat := cs.foldl (fun n c => 16 * n + (hexNat c).getD 0) 0

/-- `read_number(16, Some(4), true)`: one to four digits, leading zeros allowed. External: standard library, used at
v2.rs:18-21. -/
def readHex (cs : List Char) : Option (UInt16 × List Char) :=
  let ds := cs.takeWhile isHex
  if ds = [] ∨ 4 < ds.length then none else some (UInt16.ofNat (hexValue ds), cs.dropWhile isHex)

/-- `read_separator(':', i, ..)`: except before the first group, `:`. External: standard library, used at v2.rs:18-21. -/
def separated {α : Type} (first : Bool) (read : List Char → Option (α × List Char)) (cs : List Char) : Option (α × List Char) :=
  if first then read cs else (expect ':' cs).bind read

/-- `u16::from_be_bytes`. External: standard library, used at v2.rs:18-21. -/
def group (a b : UInt8) : UInt16 := UInt16.ofNat (256 * a.toNat + b.toNat)

/-- The IPv4 address that may end the groups, if there is room for it. External: `read_groups` of the standard library, used
at v2.rs:18-21. -/
def readEmbedded (room : Nat) (first : Bool) (cs : List Char) : Option (Ipv4 × List Char) :=
  if 2 ≤ room then separated first readIpv4 cs else none

/-- `read_groups`, with room for that many groups: the groups, whether they end with an IPv4 address, and the rest.
External: standard library, used at v2.rs:18-21. -/
def readGroups : Nat → Bool → List Char → List UInt16 × Bool × List Char
  | 0, _, cs => ([], false, cs)
  | n + 1, first, cs =>
    match readEmbedded (n + 1) first cs with
    | some (i, r) => ([group i.a i.b, group i.c i.d], true, r)
    | none =>
      match separated first readHex cs with
      | none => ([], false, cs)
      | some (g, r) => (g :: (readGroups n false r).1, (readGroups n false r).2)

/-- Eight groups as an address. External: standard library, used at v2.rs:18-21. -/
def ofGroups (gs : List UInt16) : Option Ipv6 := if h : gs.length = 8 then some ⟨gs, h⟩ else none

/-- `read_ipv6_addr` after the groups before `::`. External: standard library, used at v2.rs:18-21. -/
def readTail (head : List UInt16) (cs : List Char) : Option (Ipv6 × List Char) :=
  (expect ':' cs).bind fun r => (expect ':' r).bind fun r =>
    let t := readGroups (7 - head.length) true r
    (ofGroups (head ++ List.replicate (8 - head.length - t.1.length) 0 ++ t.1)).map fun a => (a, t.2.2)

/-- `read_ipv6_addr`. External: standard library, used at v2.rs:18-21. -/
def readIpv6 (cs : List Char) : Option (Ipv6 × List Char) :=
  let h := readGroups 8 true cs
  if h.1.length = 8 then (ofGroups h.1).map fun a => (a, h.2.2)
  else if h.2.1 then none
  else readTail h.1 h.2.2

/-- `read_ip_addr`. External: standard library, used at v2.rs:18-21. -/
def readIp (cs : List Char) : Option (IpAddr × List Char) :=
  match readIpv4 cs with
  | some (i, r) => some (.v4 i, r)
  | none => (readIpv6 cs).map fun (a, r) => (.v6 a, r)

/-- `IpAddr::from_str`: an address and nothing else. External: standard library, used at v2.rs:18-21, qos_client/src/cli/mod.rs:1090-1104,
qos_net/src/proxy_connection.rs:60-64, 119-127. -/
def parse (s : String) : Option IpAddr :=
  (readIp s.toList).bind fun (a, r) => if r = [] then some a else none

end Ip
end Qos
