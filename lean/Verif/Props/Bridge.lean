import Verif.Lemmas.Bridge
/-!
# C59: which bridges the bridge server runs

Concrete cases: the examples at the end of `Props/BridgeInfo.lean`.
-/
namespace Qos.Bridge
open Pool (Address)
open HostCli (Ipv4)
open Reaper (Launch SocketFor HasClient SetUp serverPorts ingresses)
open NChooseK (Overflow)

variable {o : Overflow} {feature : Bool} {c : HostCli.BridgeConfig} {bs : List BridgeConfig}

theorem Tail.bridged {acts : List Act} (t : Tail c false bs acts) : Bridged c bs acts :=
  ⟨t.alive, t.listens, t.client rfl, fun h => t.noClient (.inr h)⟩

/-- C59: if every entry can be served, exactly the listeners and the egress helper that the entries ask for run. -/
theorem bridges_exact (h : ∀ b ∈ bs, ¬ Unservable feature c b) : Bridged c bs (runBridges o feature c false bs) := by
  rcases runBridges_cases o feature c bs false (by simp) with ⟨_, t⟩ | ⟨pre, b, post, acts, h1, h2, _⟩
  · exact t.bridged
  · exact absurd h2 (h b (by rw [h1]; simp))

/-- C59: otherwise the bridge server panics at the first entry that cannot be served, with the bridges of all entries
before it already running. -/
theorem bridges_panic (h : ∃ b ∈ bs, Unservable feature c b) : ∃ pre b post acts, bs = pre ++ b :: post ∧
    Unservable feature c b ∧ (∀ x ∈ pre, ¬ Unservable feature c x) ∧
    runBridges o feature c false bs = acts ++ [.panicked] ∧ Bridged c pre acts := by
  rcases runBridges_cases o feature c bs false (by simp) with ⟨k, _⟩ | ⟨pre, b, post, acts, h1, h2, h3, h4, h5⟩
  · obtain ⟨b, hb, hu⟩ := h
    exact absurd hu (k b hb)
  · exact ⟨pre, b, post, acts, h1, h2, h3, h4, h5.bridged⟩

/-- C59: it panics in no other case. -/
theorem bridges_panic_iff : .panicked ∈ runBridges o feature c false bs ↔ ∃ b ∈ bs, Unservable feature c b := by
  constructor
  · intro h
    by_contra hn
    exact (bridges_exact (o := o) (fun b hb hu => hn ⟨b, hb, hu⟩)).alive h
  · intro h
    obtain ⟨_, _, _, _, _, _, _, h4, _⟩ := bridges_panic (o := o) h
    rw [h4]; simp

theorem ListensFor.mem {ls : List Listener} (h : ListensFor c bs ls) : ∀ l ∈ ls, ∃ port host,
    BridgeConfig.server port host ∈ bs ∧ Asks c port host l := by
  induction h with
  | nil => simp
  | client port host _ ih =>
    intro l hl
    obtain ⟨p, x, h1, h2⟩ := ih l hl
    exact ⟨p, x, List.mem_cons_of_mem _ h1, h2⟩
  | skipped port host _ _ ih =>
    intro l hl
    obtain ⟨p, x, h1, h2⟩ := ih l hl
    exact ⟨p, x, List.mem_cons_of_mem _ h1, h2⟩
  | server port host _ ha _ ih =>
    intro l hl
    rcases List.mem_cons.mp hl with rfl | hl
    · exact ⟨port, host, List.mem_cons_self, ha⟩
    · obtain ⟨p, x, h1, h2⟩ := ih l hl
      exact ⟨p, x, List.mem_cons_of_mem _ h1, h2⟩

theorem ListensFor.complete {ls : List Listener} (h : ListensFor c bs ls) (hn : ¬ Unnamed c) : ∀ port (ip : Ipv4),
    BridgeConfig.server port ip.text ∈ bs → ∃ l ∈ ls, Asks c port ip.text l := by
  induction h with
  | nil => simp
  | client port host _ ih =>
    intro p ip hm
    rcases List.mem_cons.mp hm with hm | hm
    · cases hm
    · exact ih p ip hm
  | skipped port host hs _ ih =>
    intro p ip hm
    rcases List.mem_cons.mp hm with hm | hm
    · cases hm
      rcases hs with hs | hs
      · exact absurd hs hn
      · exact absurd rfl (hs ip)
    · exact ih p ip hm
  | server port host _ ha _ ih =>
    intro p ip hm
    rcases List.mem_cons.mp hm with hm | hm
    · cases hm
      exact ⟨_, List.mem_cons_self, ha⟩
    · obtain ⟨l, h1, h2⟩ := ih p ip hm
      exact ⟨l, List.mem_cons_of_mem _ h1, h2⟩

/-- C59: nothing else is exposed. Panic or not, every listener is one that a server entry asks for. -/
theorem listener_asked {l : Listener} (hl : l ∈ listeners (runBridges o feature c false bs)) : ∃ port host,
    BridgeConfig.server port host ∈ bs ∧ Asks c port host l := by
  by_cases h : ∃ b ∈ bs, Unservable feature c b
  · obtain ⟨pre, b, post, acts, h1, _, _, h4, h5⟩ := bridges_panic (o := o) h
    rw [h4, listeners_append] at hl
    have hl' : l ∈ listeners acts := by simpa [listeners] using hl
    obtain ⟨port, host, k1, k2⟩ := h5.listens.mem l hl'
    exact ⟨port, host, by rw [h1]; simp [k1], k2⟩
  · exact (bridges_exact (o := o) (fun b hb hu => h ⟨b, hb, hu⟩)).listens.mem l hl

/-- C59: with a port override every listener has that port, whatever the manifest says. -/
theorem override_one_port {p : UInt16} (h : c.hostPortOverride = some p) {l : Listener}
    (hl : l ∈ listeners (runBridges o feature c false bs)) : l.port = p := by
  obtain ⟨_, _, _, ha⟩ := listener_asked hl
  have := ha.hostPort
  rw [h] at this
  exact this

/-- C59: the general bridge (host_bridge.rs:27-90): as many sockets as the pool has, each with its own port, counting up;
or a panic, exactly if the ports would reach 65535. -/
theorem host_bridge_exact (pool : List Address) (p : UInt16) :
    (65535 ≤ pool.length + p.toNat → hostBridge o pool p = none) ∧
    (pool.length + p.toNat < 65535 → ∃ l, hostBridge o pool p = some l ∧ l.map Prod.fst = pool ∧
      ∀ i x, l[i]? = some x → x.2.toNat = p.toNat + i) := by
  unfold hostBridge
  constructor
  · intro h
    rw [if_neg (by omega)]
  · intro h
    rw [if_pos h]
    exact pairs_some o pool p h

/-! ## Both sides together -/

theorem connects_socket {core core' a b : Address} {p q : UInt16} (hf : Faces core core') (ha : SocketFor core p a)
    (hb : SocketFor core' q b) : Connects a b ↔ p = q := by
  cases core with
  | vsock cid x f =>
    cases core' with
    | unix _ => exact hf.elim
    | vsock cid' y g =>
      cases (show a = _ from ha)
      cases (show b = _ from hb)
      show UInt32.ofNat p.toNat = UInt32.ofNat q.toNat ↔ _
      constructor
      · intro h
        have := congrArg UInt32.toNat h
        have h1 := p.toNat_lt
        have h2 := q.toNat_lt
        rw [UInt32.toNat_ofNat_of_lt' (by show _ < 4294967296; omega), UInt32.toNat_ofNat_of_lt' (by show _ < 4294967296; omega)] at this
        exact UInt16.toNat_inj.mp this
      · rintro rfl; rfl
  | unix path =>
    cases core' with
    | vsock _ _ _ => exact hf.elim
    | unix path' =>
      cases (show path = path' from hf)
      cases (show a = _ from ha)
      cases (show b = _ from hb)
      show (_ = _) ↔ _
      constructor
      · intro h
        have h1 := List.append_cancel_right h
        have h2 := List.append_cancel_left h1
        have h3 := (List.cons.inj h2).2
        rw [Reaper.natText_toString, Reaper.natText_toString] at h3
        exact UInt16.toNat_inj.mp (natText_injective h3)
      · rintro rfl; rfl

theorem mem_serverPorts {p : UInt16} : p ∈ serverPorts bs ↔ ∃ host, BridgeConfig.server p host ∈ bs := by
  unfold serverPorts
  rw [List.mem_filterMap]
  constructor
  · rintro ⟨b, hb, h⟩
    cases b with
    | client _ _ => simp at h
    | server q host =>
      simp only [Option.some.injEq] at h
      subst h
      exact ⟨host, hb⟩
  · rintro ⟨host, h⟩
    exact ⟨_, h, rfl⟩

/-- C59: what comes in on the host arrives at the application port that the entry names, and at no other. For the same
manifest on both sides: the socket behind each listener of the host is that of a listener in the enclave, and every
listener in the enclave that it can reach forwards to the port of the entry. -/
theorem listener_reaches {m : VersionedManifest} {rc : Reaper.Config} {su : List Reaper.Act} (hs : SetUp rc m su)
    (hf : Faces c.socket rc.core) {l : Listener} (hl : l ∈ listeners (runBridges o feature c false m.bridgeConfig)) :
    ∃ port host, BridgeConfig.server port host ∈ m.bridgeConfig ∧ Asks c port host l ∧
      (∃ s, (s, port) ∈ ingresses su ∧ Connects l.socket s) ∧ ∀ x ∈ ingresses su, Connects l.socket x.1 → x.2 = port := by
  obtain ⟨port, host, h1, h2⟩ := listener_asked hl
  refine ⟨port, host, h1, h2, ?_, ?_⟩
  · have : port ∈ (ingresses su).map (·.2) := by
      rw [hs.ports]
      exact mem_serverPorts.mpr ⟨host, h1⟩
    obtain ⟨⟨s, p⟩, hx, rfl⟩ := List.mem_map.mp this
    exact ⟨s, hx, (connects_socket hf h2.socket (hs.sockets _ hx).1).mpr rfl⟩
  · intro x hx hc
    exact ((connects_socket hf h2.socket (hs.sockets _ hx).1).mp hc).symm

/-- C59: conversely, each port that the enclave forwards to is reachable from the host, if the entry has an IPv4 address and
all entries can be served. -/
theorem port_reachable {m : VersionedManifest} {rc : Reaper.Config} {su : List Reaper.Act} (hs : SetUp rc m su)
    (hf : Faces c.socket rc.core) (hn : ¬ Unnamed c) (hok : ∀ b ∈ m.bridgeConfig, ¬ Unservable feature c b)
    {x : Address × UInt16} (hx : x ∈ ingresses su) : ∃ host, BridgeConfig.server x.2 host ∈ m.bridgeConfig ∧
      ∀ ip : Ipv4, host = ip.text → ∃ l ∈ listeners (runBridges o feature c false m.bridgeConfig),
        Asks c x.2 host l ∧ Connects l.socket x.1 := by
  have : x.2 ∈ serverPorts m.bridgeConfig := by
    rw [← hs.ports]
    exact List.mem_map.mpr ⟨x, hx, rfl⟩
  obtain ⟨host, h1⟩ := mem_serverPorts.mp this
  refine ⟨host, h1, ?_⟩
  rintro ip rfl
  obtain ⟨l, h2, h3⟩ := (bridges_exact (o := o) hok).listens.complete hn _ ip h1
  exact ⟨l, h2, h3, (connects_socket hf h3.socket (hs.sockets _ hx).1).mpr rfl⟩

end Qos.Bridge
