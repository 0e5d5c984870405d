import Verif.Spec.Egress
/-!
# Packets over a tunnel whose connections come and go
-/
namespace Qos.Tunnel
open Egress

/-- What happens to the packets in one direction over any number of connections. `offered`: the packets the kernel had for the
tunnel, in order; `delivered`: what was written to the other interface, one write each. Each connection is served by a new pump on
either side (egress.rs:185-199, 221-262), either of which may be cut off anywhere, and so may the bytes on the way. -/
inductive Transfer (overflowChecks : Bool) : List Bytes → List Bytes → Prop where
  | nothing : Transfer overflowChecks [] []
  /-- A packet while no process reads the interface. -/
  | lost {offered delivered : List Bytes} (f : Bytes) : Transfer overflowChecks offered delivered →
      Transfer overflowChecks (offered ++ [f]) delivered
  /-- A connection: the packets `fs` were there for it; `sent` was read of them, of which `out` was written to the connection,
  of which `arrived` was read on the other side, which wrote `written`. -/
  | connection {offered delivered fs out written : List Bytes} {sent arrived : Bytes} {p q : Pump} :
      Transfer overflowChecks offered delivered → (∀ f ∈ fs, IsPacket f) → Egress.Run allStep sent out p → sent <+: fs.flatten →
      Egress.Run (steady (frameStep overflowChecks)) arrived written q → arrived <+: out.flatten →
      Transfer overflowChecks (offered ++ fs) (delivered ++ written)

end Qos.Tunnel
