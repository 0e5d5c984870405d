import Verif.Model.Ip
/-!
# The texts of an IP address

The grammar of RFC 4291, section 2.2, and the recommended text of RFC 5952, independent of how addresses are read and written.
-/
namespace Qos.HostCli

/-- The usual text of an IPv4 address. -/
def Ipv4.text (i : Ipv4) : String :=
  toString i.a.toNat ++ "." ++ toString i.b.toNat ++ "." ++ toString i.c.toNat ++ "." ++ toString i.d.toNat

end Qos.HostCli

namespace Qos.Ip
open HostCli (Ipv4)

/-- A hexadecimal digit, in either case. -/
def Digit (c : Char) (d : Nat) : Prop := "0123456789abcdef".toList[d]? = some c ∨ "0123456789ABCDEF".toList[d]? = some c

/-- Hexadecimal digits and their value. -/
inductive HexDigits : List Char → Nat → Prop
  | nil : HexDigits [] 0
  | snoc {cs : List Char} {n : Nat} {c : Char} {d : Nat} : HexDigits cs n → Digit c d → HexDigits (cs ++ [c]) (16 * n + d)

/-- One to four hexadecimal digits. -/
def Group (t : List Char) (g : UInt16) : Prop := 1 ≤ t.length ∧ t.length ≤ 4 ∧ HexDigits t g.toNat

/-- The sixteen bits of two bytes. -/
def Pair (g : UInt16) (a b : UInt8) : Prop := g.toNat = 256 * a.toNat + b.toNat

/-- Groups with `:` between; with `true`, the last two are written as an IPv4 address. -/
inductive Pieces : Bool → List Char → List UInt16 → Prop
  | one {t : List Char} {g : UInt16} : Group t g → Pieces false t [g]
  | embedded (i : Ipv4) {x y : UInt16} : Pair x i.a i.b → Pair y i.c i.d → Pieces true i.text.toList [x, y]
  | cons {b : Bool} {t r : List Char} {g : UInt16} {gs : List UInt16} : Group t g → Pieces b r gs →
      Pieces b (t ++ ':' :: r) (g :: gs)

/-- The same, or nothing at all. -/
def MaybePieces (b : Bool) (t : List Char) (gs : List UInt16) : Prop := (b = false ∧ t = [] ∧ gs = []) ∨ Pieces b t gs

/-- A text denotes an address: dotted decimal; or eight groups, the last two of them possibly as an IPv4 address; or the same
with `::` for at least one group that is zero, and the IPv4 address only at the end. -/
inductive Denotes : List Char → IpAddr → Prop
  | v4 (i : Ipv4) : Denotes i.text.toList (.v4 i)
  | full {b : Bool} {t : List Char} (a : Ipv6) : Pieces b t a.groups → Denotes t (.v6 a)
  | short {b : Bool} {h t : List Char} {hs ts : List UInt16} {k : Nat} (a : Ipv6) : MaybePieces false h hs → MaybePieces b t ts →
      1 ≤ k → a.groups = hs ++ List.replicate k 0 ++ ts → Denotes (h ++ "::".toList ++ t) (.v6 a)

/-- `len` groups from `start` on are zero. -/
def ZeroRun (gs : List UInt16) (start len : Nat) : Prop :=
  start + len ≤ gs.length ∧ ∀ k, start ≤ k → k < start + len → gs[k]? = some 0

/-- A group without leading zeros and in lower case. -/
def Tidy (t : List Char) (g : UInt16) : Prop :=
  Group t g ∧ (∀ c ∈ t, c ∈ "0123456789abcdef".toList) ∧ (t.head? = some '0' → t = ['0'])

/-- Tidy groups with `:` between, possibly none at all. -/
inductive TidyGroups : List Char → List UInt16 → Prop
  | nil : TidyGroups [] []
  | one {t : List Char} {g : UInt16} : Tidy t g → TidyGroups t [g]
  | cons {t r : List Char} {g : UInt16} {gs : List UInt16} : Tidy t g → TidyGroups r gs → gs ≠ [] →
      TidyGroups (t ++ ':' :: r) (g :: gs)

/-- The text of an address recommended by RFC 5952: groups are tidy; `::` stands for the longest run of at least two zero
groups, the first one if there are several, and is not used if there is none; an IPv4-mapped address ends with dotted
decimal. -/
inductive Recommended : List Char → IpAddr → Prop
  | v4 (i : Ipv4) : Recommended i.text.toList (.v4 i)
  | mapped (a : Ipv6) (i : Ipv4) (x y : UInt16) : a.groups = [0, 0, 0, 0, 0, 0xffff, x, y] → Pair x i.a i.b → Pair y i.c i.d →
      Recommended ("::ffff:" ++ i.text).toList (.v6 a)
  | full {t : List Char} (a : Ipv6) : (¬ ∃ s, ZeroRun a.groups s 2) → TidyGroups t a.groups → Recommended t (.v6 a)
  | short {h t : List Char} (a : Ipv6) (start len : Nat) : (¬ ∃ x y, a.groups = [0, 0, 0, 0, 0, 0xffff, x, y]) →
      2 ≤ len → ZeroRun a.groups start len → (∀ s l, ZeroRun a.groups s l → l < len ∨ (l = len ∧ start ≤ s)) →
      TidyGroups h (a.groups.take start) → TidyGroups t (a.groups.drop (start + len)) →
      Recommended (h ++ "::".toList ++ t) (.v6 a)

end Qos.Ip
