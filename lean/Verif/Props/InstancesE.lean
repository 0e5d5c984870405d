import Verif.Props.InstancesD
import Verif.Props.Egress
import Verif.Props.BridgeInfo
import Verif.Props.ProxyRuns
/-!
# Concrete cases, part E: the end of an enclave's life, the tunnel, the proxy's socket
-/
namespace Qos.Reaper
open StateMachine

/-- The files of the provisioned enclave of `Props/Scenario` are such that a reaper starts its pivot. -/
theorem toy_good {c : Config} (hc : c.paths = toyEnv.paths) :
    ∃ (h : List (Msg × Msg)) (s : St), History toyEnv noFiles h s ∧ Good c toyEnvelope.manifest ⟨s.files, true, none⟩ := by
  obtain ⟨setup, h0, H, ⟨doc, hdoc⟩, hph, hin, heph⟩ := toy_boot (m := .bootStandardRequest toyEnvelope [1, 2, 3]) (.inl rfl)
  obtain ⟨h, s, q1, q2, q3, q4⟩ := toy_provision (a := toyApproval 4 toyHash) H hph
    (by rcases hdoc with hd | hd <;> rw [hd] <;> rfl) h0 hin heph List.mem_cons_self
    ((approval_verify_iff ..).1 toy_share_approval)
  refine ⟨h, s, q1, ?_⟩
  obtain ⟨b, key, hw, _⟩ := q1.provisioned q2
  obtain ⟨q, hq, _⟩ := hw.quorum
  obtain ⟨g, hg, _⟩ := q3.pivot
  obtain ⟨buf, hb1, f, hf, hd⟩ := q3.manifest
  obtain ⟨buf', r1, r2⟩ := q3.readable
  rw [hb1] at r1
  injection r1 with r1
  refine ⟨?_, ?_, ⟨f, _, by rw [hc]; exact hf, by rw [hd, r1]; exact r2, Envelope.manifest_withShares ..⟩, rfl⟩
  · show s.files c.paths.quorum ≠ none
    rw [hc, hq]; simp
  · show s.files c.paths.pivot ≠ none
    rw [hc, hg]; simp

/-- The toy manifest has the policy `Never`: the pivot of the provisioned enclave is started once, and after its exit the
reaper stops the server and returns. -/
theorem toy_complete {c : Config} (hc : c.paths = toyEnv.paths) : ∃ (h : List (Msg × Msg)) (s : St) (l : Launch),
    History toyEnv noFiles h s ∧
      (run c (List.replicate 11 ⟨s.files, true, some 7⟩)).2 = [.launch l, .exited 7, .stopServer, .returned] := by
  obtain ⟨h, s, H, g⟩ := toy_good hc
  exact ⟨h, s, _, H, (complete_runs g rfl rfl).2.1 rfl⟩

end Qos.Reaper

namespace Qos.Init
open StateMachine

/-- On the good kernel the provisioned toy enclave runs its pivot and is rebooted after its exit: `reboot_exact` is not
empty. -/
example : ∃ (h : List (Msg × Msg)) (s : St), History toyEnv noFiles h s ∧
    Call.reboot ∈ main true (goodKernel (utf8 "nsm-hwrng\n") false) (List.replicate 11 ⟨s.files, true, some 7⟩) := by
  obtain ⟨h, s, l, H, hr⟩ := Reaper.toy_complete (c := reaperConfig true 16) rfl
  refine ⟨h, s, H, ?_⟩
  obtain ⟨c, hc⟩ := (reaper_started_iff true (goodKernel (utf8 "nsm-hwrng\n") false)
    (List.replicate 11 ⟨s.files, true, some 7⟩)).mpr good_works
  unfold main at hc ⊢
  by_cases hg : (boot true (goodKernel (utf8 "nsm-hwrng\n") false)).ends = .goesOn
  · rw [if_pos hg]
    refine List.mem_append_right _ (List.mem_cons_of_mem _ ?_)
    show Call.reboot ∈ runReaper (reaperConfig true 16) _
    unfold runReaper afterwards
    rw [hr]
    simp
  · rw [if_neg hg, List.append_nil] at hc
    exact absurd hg (by decide +kernel)

end Qos.Init

namespace Qos.Egress

/-- The two toy packets through both pumps: read at once by the first pump, written to the connection in two pieces, and
put on the other tun interface as the same two packets. -/
example : ∃ (in1 in2 : Bytes) (out1 out2 : List Bytes) (p1 p2 : Pump), Run allStep in1 out1 p1 ∧ in1 <+: toyPackets.flatten ∧
    Run (steady (frameStep true)) in2 out2 p2 ∧ in2 <+: out1.flatten ∧ out1.length = 2 ∧ out2 = toyPackets ∧
    p1.pc = .reading ∧ p2.pc = .reading ∧ in2 = out1.flatten := by
  obtain ⟨-, p2, -, -, -, -, r2, q2⟩ := toy_frames
  have e62 : toyPackets.flatten.length = 62 := by decide
  have hb : Pump.start.buf.length = 32000 := List.length_replicate
  have s1 : allStep Pump.start (.read toyPackets.flatten) =
      some ({ Pump.start with buf := fill Pump.start.buf 0 toyPackets.flatten, received := 62, sent := 0, pc := .writing }, []) := by
    simp only [allStep]
    rw [e62, hb, if_pos ⟨rfl, by decide⟩, if_neg (by decide)]
  have hf : (fill Pump.start.buf 0 toyPackets.flatten).take 62 = toyPackets.flatten := by
    unfold fill
    rw [List.take_zero, List.nil_append, List.take_append_of_le_length (by rw [e62]), List.take_of_length_le (by rw [e62])]
  have r1 := Run.start.step s1
  obtain ⟨P, hP⟩ : ∃ P : Pump, P = { Pump.start with buf := fill Pump.start.buf 0 toyPackets.flatten, received := 62, sent := 0, pc := .writing } := ⟨_, rfl⟩
  rw [← hP] at r1
  have hP1 : P.pc = .writing ∧ P.received = 62 ∧ P.sent = 0 ∧ P.buf.take 62 = toyPackets.flatten := by
    rw [hP]; exact ⟨rfl, rfl, rfl, hf⟩
  clear hP
  have s2 : allStep P (.wrote 30) = some ({ P with sent := 30 }, [P.buf.take 30]) := by
    simp only [allStep, hP1.1, hP1.2.1, hP1.2.2.1]
    rw [if_pos (by decide)]
    rfl
  have s3 : allStep { P with sent := 30 } (.wrote 32) = some ({ P with sent := 62 }, [(P.buf.drop 30).take 32]) := by
    simp only [allStep, hP1.1, hP1.2.1]
    rw [if_pos (by decide)]
  have s4 : allStep { P with sent := 62 } .turn = some ({ P with sent := 62, pc := .reading }, []) := by
    simp only [allStep, hP1.1, hP1.2.1]
    rw [if_pos (by decide)]
  have r := ((r1.step s2).step s3).step s4
  simp only [List.nil_append, List.append_nil] at r
  have hout : ([P.buf.take 30] ++ [(P.buf.drop 30).take 32]).flatten = toyPackets.flatten := by
    rw [← hP1.2.2.2]
    simp only [List.flatten_append, List.flatten_cons, List.flatten_nil, List.append_nil]
    rw [show (62 : Nat) = 30 + 32 from rfl, List.take_add]
  exact ⟨_, _, _, _, _, p2, r, List.prefix_rfl, r2, by rw [hout], rfl, rfl, rfl, q2, hout.symm⟩

/-- There are packets longer than the buffer: an IPv4 packet of 40000 bytes. -/
example : ∃ f : Bytes, (IsV4 f ∨ IsV6 f) ∧ 32000 < f.length ∧ f.length < 65536 := by
  have hl : (0x45 :: 0 :: 0x9c :: 0x40 :: List.replicate 39996 0 : Bytes).length = 40000 := by
    simp only [List.length_cons, List.length_replicate]
  refine ⟨0x45 :: 0 :: 0x9c :: 0x40 :: List.replicate 39996 0, .inl ⟨_, _, rfl, by decide, by decide, ?_, ?_⟩, ?_, ?_⟩
  · rw [hl]; decide
  · rw [hl]; rfl
  · rw [hl]; decide
  · rw [hl]; decide

end Qos.Egress

namespace Qos.Bridge
open Reaper

/-- The toy manifest with two server entries. -/
def bridgedManifest : VersionedManifest :=
  .v1 { toyManifest with pivot := { toyManifest.pivot with bridgeConfig := [.server 3000 "0.0.0.0", .server 8080 "127.0.0.1"] } }

/-- The enclave's side. -/
def bridgedCore : Reaper.Config := ⟨Handles.defaultPaths, .vsock 16 3 0, true⟩

theorem bridged_setup : SetUp bridgedCore bridgedManifest [.ingress (.vsock 16 3000 0) 3000, .ingress (.vsock 16 8080 0) 8080] := by
  refine ⟨?_, rfl, rfl, ?_, ?_, fun _ => rfl⟩
  · intro a ha
    simp only [List.mem_cons, List.not_mem_nil, or_false] at ha
    rcases ha with rfl | rfl <;> trivial
  · intro x hx
    have : x ∈ [((.vsock 16 3000 0 : Pool.Address), (3000 : UInt16)), (.vsock 16 8080 0, 8080)] := hx
    simp only [List.mem_cons, List.not_mem_nil, or_false] at this
    rcases this with rfl | rfl <;> exact ⟨rfl, by decide⟩
  · rintro ⟨p, h, hm⟩
    have : BridgeConfig.client p h ∈ [BridgeConfig.server 3000 "0.0.0.0", .server 8080 "127.0.0.1"] := hm
    simp at this

theorem bridged_host : listeners (runBridges .wraps true sampleConfig false bridgedManifest.bridgeConfig) =
    [⟨⟨0, 0, 0, 0⟩, 3000, .vsock 16 3000 1⟩, ⟨⟨127, 0, 0, 1⟩, 8080, .vsock 16 8080 1⟩] := by
  show listeners (runBridges .wraps true sampleConfig false [.server 3000 "0.0.0.0", .server 8080 "127.0.0.1"]) = _
  decide +kernel

/-- Both directions of C59 apply to it: the second listener leads to port 8080 only, and port 8080 is reachable. -/
example : (∃ port host, BridgeConfig.server port host ∈ bridgedManifest.bridgeConfig ∧
      Asks sampleConfig port host ⟨⟨127, 0, 0, 1⟩, 8080, .vsock 16 8080 1⟩ ∧
      (∃ s, (s, port) ∈ ingresses [.ingress (.vsock 16 3000 0) 3000, .ingress (.vsock 16 8080 0) 8080] ∧
        Connects (.vsock 16 8080 1) s)) ∧
    ∃ host, BridgeConfig.server 8080 host ∈ bridgedManifest.bridgeConfig := by
  constructor
  · obtain ⟨p, h, h1, h2, h3, -⟩ := listener_reaches (o := .wraps) (feature := true) (c := sampleConfig) bridged_setup
      (by trivial) (l := ⟨⟨127, 0, 0, 1⟩, 8080, .vsock 16 8080 1⟩) (by rw [bridged_host]; simp)
    exact ⟨p, h, h1, h2, h3⟩
  · obtain ⟨host, h, -⟩ := port_reachable (o := .wraps) (feature := true) (c := sampleConfig) bridged_setup (by trivial)
      (by simp [Unnamed, sampleConfig])
      (by
        intro b hb
        have : b ∈ [BridgeConfig.server 3000 "0.0.0.0", .server 8080 "127.0.0.1"] := hb
        simp only [List.mem_cons, List.not_mem_nil, or_false] at this
        rcases this with rfl | rfl <;> simp [Unservable, sampleConfig])
      (x := (.vsock 16 8080 0, 8080)) (by simp [ingresses])
    exact ⟨host, h⟩

end Qos.Bridge

namespace Qos.Proxy

/-- A proxy whose only listener failed to accept once, with somebody waiting: reachable, and whoever waits goes on waiting. -/
example : ∃ σ : Sys Nat, Reachable toyAddresses (Sys.start 1 1) σ ∧ σ.gates[0]? = some ⟨1, false, false⟩ ∧
    (∃ s, σ.sessions[0]? = some s ∧ s.listener = 0 ∧ s.task = .queued) ∧
    ∀ σ', Reachable toyAddresses σ σ' → ∃ s', σ'.sessions[0]? = some s' ∧ s'.listener = 0 ∧ s'.task = .queued := by
  have a1 := Step.connect (A := toyAddresses) (Sys.start 1 1) 0
  have a2 := Step.permit (A := toyAddresses) { Sys.start (Ip := Nat) 1 1 with sessions := [.fresh 0] } 0 0 ⟨1, false, true⟩
    rfl rfl rfl rfl
  have a3 := Step.acceptFailed (A := toyAddresses) ⟨[.fresh 0], [⟨0, true, true⟩], [], []⟩ 0 ⟨0, true, true⟩ rfl rfl rfl
  refine ⟨_, .tail (.tail (.tail .refl a1) a2) a3, rfl, ⟨.fresh 0, rfl, rfl, rfl⟩, fun σ' hr => ?_⟩
  exact (failed_accept_is_final (g := ⟨1, false, false⟩) rfl rfl hr).2 0 (.fresh 0) rfl rfl rfl

end Qos.Proxy
