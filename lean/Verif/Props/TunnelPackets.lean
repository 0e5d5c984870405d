import Verif.Spec.TunnelPackets
import Verif.Props.Egress
import Verif.Props.Tunnel
/-!
# C84, C54: packets across failures

The pumps of a restarted process begin with empty buffers on a new connection. So what is cut off in the middle of a packet
does not spoil what comes later.
-/
namespace Qos.Tunnel
open Egress

/-- C84: whatever connections break wherever: every packet that comes out is one that went in, whole, unchanged and in order;
packets can only be missing. -/
theorem packets_across_failures {oc : Bool} {offered delivered : List Bytes} (h : Transfer oc offered delivered) :
    delivered.Sublist offered := by
  induction h with
  | nothing => exact List.Sublist.refl _
  | lost f _ ih => exact ih.trans (List.sublist_append_left ..)
  | connection _ hf h1 hin h2 hnet ih => exact ih.append (tunnel_preserves_packets oc hf h1 hin h2 hnet).2.1.sublist

/-- C84: and of the connection that is up, nothing is missing once both pumps wait and nothing is on the way. -/
theorem last_connection_complete {oc : Bool} {offered delivered fs out written : List Bytes} {sent arrived : Bytes} {p q : Pump}
    (h : Transfer oc offered delivered) (hf : ∀ f ∈ fs, IsPacket f) (h1 : Egress.Run allStep sent out p) (hin : sent <+: fs.flatten)
    (h2 : Egress.Run (steady (frameStep oc)) arrived written q) (hnet : arrived <+: out.flatten)
    (hp : p.pc = .reading) (hq : q.pc = .reading) (he : arrived = out.flatten) (hall : sent = fs.flatten) :
    Transfer oc (offered ++ fs) (delivered ++ written) ∧ written = fs := by
  obtain ⟨-, b, c⟩ := tunnel_preserves_packets oc hf h1 hin h2 hnet
  refine ⟨.connection h hf h1 hin h2 hnet, ?_⟩
  have := c hp he hq fs.length (by rw [List.take_length, hall]; exact List.prefix_refl _)
  rw [List.take_length] at this
  exact List.IsPrefix.eq_of_length b (Nat.le_antisymm b.length_le this.length_le)

/-- A pump that reads all of both packets at once and writes the first `n` bytes. -/
theorem toy_sender (n : Nat) (hn : n ≤ 62) : ∃ p, Egress.Run allStep toyPackets.flatten [toyPackets.flatten.take n] p := by
  have hl : toyPackets.flatten.length = 62 := by decide
  have hb : Pump.start.buf.length = 32000 := List.length_replicate
  have ht : (fill Pump.start.buf 0 toyPackets.flatten).take 62 = toyPackets.flatten := by
    have := fill_take (buf := Pump.start.buf) (bytes := toyPackets.flatten) (pos := 0) (Nat.zero_le _)
    rw [Nat.zero_add, List.take_zero, List.nil_append, hl] at this
    exact this
  have s1 : allStep Pump.start (.read toyPackets.flatten) =
      some ({ Pump.start with buf := fill Pump.start.buf 0 toyPackets.flatten, received := 62, sent := 0, pc := .writing }, []) := by
    simp only [allStep]
    rw [if_pos ⟨rfl, by rw [hl, hb]; decide⟩, if_neg (by rw [hl]; decide), hl]
  have s2 : allStep { Pump.start with buf := fill Pump.start.buf 0 toyPackets.flatten, received := 62, sent := 0, pc := .writing } (.wrote n) =
      some ({ Pump.start with buf := fill Pump.start.buf 0 toyPackets.flatten, received := 62, sent := n, pc := .writing },
        [toyPackets.flatten.take n]) := by
    simp only [allStep, List.drop_zero, Nat.zero_add]
    rw [if_pos ⟨trivial, by decide, by omega⟩, show (fill Pump.start.buf 0 toyPackets.flatten).take n = toyPackets.flatten.take n from by
      have := congrArg (List.take n) ht
      rwa [List.take_take, Nat.min_eq_left hn] at this]
  have := (Egress.Run.start.step s1).step s2
  rw [List.nil_append, List.append_nil, List.nil_append, List.nil_append] at this
  exact ⟨_, this⟩

/-- Concrete case: two packets are offered; the connection breaks in the middle of the second; the two packets are offered again on
the next connection, which delivers them. Three of the four come out. -/
theorem toy_transfer : Transfer true (toyPackets ++ toyPackets) (toyPackets.take 1 ++ toyPackets) := by
  obtain ⟨p, p', out, h1, -, h3, h4, -⟩ := toy_frames
  subst h3
  obtain ⟨a, ha⟩ := toy_sender 30 (by decide)
  obtain ⟨b, hb⟩ := toy_sender 62 (by decide)
  have t1 := Transfer.nothing (overflowChecks := true) |>.connection toy_packets ha (List.prefix_refl _) h1
    (by rw [List.flatten_singleton]; exact List.prefix_refl _)
  have t2 := t1.connection toy_packets hb (List.prefix_refl _) h4
    (by rw [List.flatten_singleton, List.take_of_length_le (by decide)]; exact List.prefix_refl _)
  exact t2

end Qos.Tunnel
