import Verif.Model.Egress
/-!
# Packets on a tun interface

What an IP packet is (RFC 791, RFC 8200: version, header length, total length), independently of the pumps.
-/
namespace Qos.Egress

/-- The number in two bytes at a position, in network byte order. -/
def numberAt (f : Bytes) (i : Nat) : Nat := (f.getD i 0).toNat * 256 + (f.getD (i + 1) 0).toNat

/-- An IPv4 packet: version 4, a header of at least 20 bytes that fits, and the total length is the number of bytes. -/
def IsV4 (f : Bytes) : Prop :=
  ∃ b rest, f = b :: rest ∧ b.toNat / 16 = 4 ∧ 5 ≤ b.toNat % 16 ∧ b.toNat % 16 * 4 ≤ f.length ∧ numberAt f 2 = f.length

/-- An IPv6 packet: version 6, a header of 40 bytes, and the payload length is the number of further bytes. -/
def IsV6 (f : Bytes) : Prop :=
  ∃ b rest, f = b :: rest ∧ b.toNat / 16 = 6 ∧ 40 ≤ f.length ∧ numberAt f 4 + 40 = f.length

/-- A packet that the pump has room for. -/
def IsPacket (f : Bytes) : Prop := f.length ≤ 32000 ∧ (IsV4 f ∨ IsV6 f)

/-- The environment behaves like a connection that stays open and a tun interface: a read gives at least one byte, and a
write takes the whole packet. -/
def steady (step : Pump → Call → Option (Pump × List Bytes)) (p : Pump) : Call → Option (Pump × List Bytes)
  | .read bytes => if bytes = [] then none else step p (.read bytes)
  | .wrote n => if n = p.frameSize - p.sent then step p (.wrote n) else none
  | .turn => step p .turn

end Qos.Egress
