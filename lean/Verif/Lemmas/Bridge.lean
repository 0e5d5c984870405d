import Verif.Spec.Bridge
import Verif.Lemmas.Reaper
import Verif.Lemmas.HostCli
import Verif.Props.HostCli
namespace Qos.Bridge
open Pool (Address)
open HostCli (Ipv4)
open Reaper (Launch SocketFor HasClient)
open NChooseK (Overflow)

/-! ## Pairs -/

theorem incr_small (o : Overflow) {n : Nat} (h : n + 1 < 2 ^ 16) : Pool.incr o (2 ^ 16) n = .ok (n + 1) := by
  unfold Pool.incr
  rw [if_pos h]

theorem pairs_some (o : Overflow) : ∀ (pool : List Address) (p : UInt16), pool.length + p.toNat < 65535 →
    ∃ l, pairs o pool p = some l ∧ l.map Prod.fst = pool ∧ ∀ i x, l[i]? = some x → x.2.toNat = p.toNat + i
  | [], p, _ => ⟨[], rfl, rfl, by simp⟩
  | a :: pool, p, h => by
    simp only [List.length_cons] at h
    have h1 := incr_small o (n := p.toNat) (by omega)
    have hn : (UInt16.ofNat (p.toNat + 1)).toNat = p.toNat + 1 := UInt16.toNat_ofNat_of_lt' (by show _ < 65536; omega)
    obtain ⟨l, hl, hm, hi⟩ := pairs_some o pool (UInt16.ofNat (p.toNat + 1)) (by rw [hn]; omega)
    refine ⟨(a, p) :: l, ?_, by simp [hm], ?_⟩
    · simp only [pairs, h1, hl]
    · intro i x hx
      match i with
      | 0 => simp at hx; subst hx; rfl
      | i + 1 =>
        rw [List.getElem?_cons_succ] at hx
        rw [hi i x hx, hn]; omega

/-- One stream: what both sides of the bridge use. -/
theorem hostBridge_one (o : Overflow) (a : Address) (p : UInt16) :
    hostBridge o [a] p = if p.toNat < 65534 then some [(a, p)] else none := by
  unfold hostBridge
  by_cases h : p.toNat < 65534
  · rw [if_pos h, if_pos (by simp only [List.length_singleton]; omega)]
    simp only [pairs, incr_small o (n := p.toNat) (by omega)]
  · rw [if_neg h, if_neg (by simp only [List.length_singleton]; omega)]

/-! ## One entry -/

theorem pool_single (o : Overflow) (a : Address) : Pool.Pool.new o a 1 = .ok ⟨[a], [a]⟩ := by
  have h : (1 : UInt8).toNat = 0 + 1 := rfl
  simp only [Pool.Pool.new, h, Pool.addressesFrom]

theorem ingressTo_eq (o : Overflow) (c : HostCli.BridgeConfig) (port : UInt16) (host : String) (a : Address) :
    ingressTo o c port host a = match HostCli.parseIpv4 host with
      | none => []
      | some ip => if (hostPort c port).toNat < 65534 then [.ingress ip (hostPort c port) a] else [.panicked] := by
  unfold ingressTo
  simp only [pool_single, hostBridge_one]
  cases HostCli.parseIpv4 host with
  | none => rfl
  | some ip => by_cases h : (hostPort c port).toNat < 65534 <;> simp [h, listenAll]

theorem appPath (path : List Char) (port : UInt16) :
    (path ++ '.' :: natText port.toNat ++ ".appsock".toList).flatMap String.utf8EncodeChar =
      utf8 (String.ofList path ++ "." ++ toString port.toNat ++ ".appsock") := by
  have : path ++ '.' :: natText port.toNat ++ ".appsock".toList =
      (String.ofList path ++ "." ++ toString port.toNat ++ ".appsock").toList := by
    simp only [String.toList_append, String.toList_ofList, Reaper.natText_toString]
    simp
  rw [this]
  rfl

/-- The path of the application's socket is too long. -/
def TooLong (c : HostCli.BridgeConfig) (port : UInt16) : Prop :=
  ∃ path, c.socket = .unix path ∧ path ≠ [] ∧
    107 < (utf8 (String.ofList path ++ "." ++ toString port.toNat ++ ".appsock")).length

theorem appSocket_cases (c : HostCli.BridgeConfig) (port : UInt16) :
    (appSocket port c.socket = .error ∧ Unnamed c ∧ ¬ TooLong c port) ∨
    (appSocket port c.socket = .panic ∧ ¬ Unnamed c ∧ TooLong c port) ∨
    (∃ a, appSocket port c.socket = .socket a ∧ ¬ Unnamed c ∧ ¬ TooLong c port ∧ SocketFor c.socket port a) := by
  unfold Unnamed TooLong
  cases c.socket with
  | vsock cid p flags => exact .inr (.inr ⟨_, rfl, by simp, by simp, rfl⟩)
  | unix path =>
    by_cases hp : path = []
    · left
      subst hp
      exact ⟨rfl, rfl, by simp⟩
    · by_cases hl : (utf8 (String.ofList path ++ "." ++ toString port.toNat ++ ".appsock")).length < 108
      · right; right
        refine ⟨.unix (path ++ '.' :: natText port.toNat ++ ".appsock".toList), ?_, by simpa using hp, ?_, ?_⟩
        · simp only [appSocket, if_neg hp, Pool.unixAddr, appPath, if_pos hl]
        · rintro ⟨q, hq, _, h⟩
          cases hq
          omega
        · show _ = _
          rw [Reaper.natText_toString]
      · right; left
        refine ⟨?_, by simpa using hp, path, rfl, hp, by omega⟩
        simp only [appSocket, if_neg hp, Pool.unixAddr, appPath, if_neg hl]

theorem hostPort_eq (c : HostCli.BridgeConfig) (port : UInt16) : hostPort c port = match c.hostPortOverride with
    | some p => p
    | none => port := by
  unfold hostPort
  cases c.hostPortOverride <;> rfl

theorem entry_server (o : Overflow) (feature : Bool) (c : HostCli.BridgeConfig) (on : Bool) (port : UInt16) (host : String) :
    (entry o feature c on (.server port host) = [.panicked] ∧ Unservable feature c (.server port host)) ∨
    (entry o feature c on (.server port host) = [] ∧ (Unnamed c ∨ ∀ ip : Ipv4, host ≠ ip.text) ∧
      ¬ Unservable feature c (.server port host)) ∨
    (∃ l : Listener, entry o feature c on (.server port host) = [.ingress l.ip l.port l.socket] ∧ ¬ Unnamed c ∧
      Asks c port host l ∧ ¬ Unservable feature c (.server port host)) := by
  have hu : Unservable feature c (.server port host) ↔ TooLong c port ∨
      (¬ Unnamed c ∧ (∃ ip : Ipv4, host = ip.text) ∧ 65534 ≤ (hostPort c port).toNat) := Iff.rfl
  rw [hu]
  have he : entry o feature c on (.server port host) = ingress o c port host := rfl
  rw [he]
  unfold ingress
  rcases appSocket_cases c port with ⟨h1, h2, h3⟩ | ⟨h1, h2, h3⟩ | ⟨a, h1, h2, h3, h4⟩
  · rw [h1]
    exact .inr (.inl ⟨rfl, .inl h2, by rintro (h | h); exacts [h3 h, h.1 h2]⟩)
  · rw [h1]
    exact .inl ⟨rfl, .inl h3⟩
  · rw [h1]
    simp only [ingressTo_eq]
    cases hip : HostCli.parseIpv4 host with
    | none =>
      have hno : ∀ ip : Ipv4, host ≠ ip.text := by
        intro ip hh
        rw [(HostCli.ipv4_exact host ip).mpr hh] at hip
        cases hip
      exact .inr (.inl ⟨rfl, .inr hno, by rintro (h | ⟨_, ⟨ip, h⟩, _⟩); exacts [h3 h, hno ip h]⟩)
    | some ip =>
      have hh := (HostCli.ipv4_exact host ip).mp hip
      by_cases hp : (hostPort c port).toNat < 65534
      · right; right
        refine ⟨⟨ip, hostPort c port, a⟩, by simp only [if_pos hp], h2, ⟨hh, hostPort_eq c port, h4⟩, ?_⟩
        rintro (h | ⟨_, _, h⟩)
        exacts [h3 h, by omega]
      · left
        exact ⟨by simp only [if_neg hp], .inr ⟨h2, ⟨ip, hh⟩, by omega⟩⟩

theorem boolText_eq (b : Bool) : boolText b = toString b := by cases b <;> rfl

theorem egress_cases (feature : Bool) (c : HostCli.BridgeConfig) :
    (egress feature c = [.panicked] ∧ (feature = false ∨ ∃ path, c.socket = .unix path)) ∨
    (∃ l, egress feature c = [.egress l] ∧ Helper c l ∧ ¬ (feature = false ∨ ∃ path, c.socket = .unix path)) := by
  unfold egress
  cases hs : c.socket with
  | unix path => exact .inl ⟨rfl, .inr ⟨path, rfl⟩⟩
  | vsock cid port flags =>
    cases feature with
    | false => exact .inl ⟨rfl, .inl rfl⟩
    | true =>
      refine .inr ⟨_, rfl, ⟨?_, ⟨cid, port, flags, hs, ?_⟩, rfl, rfl⟩, by simp⟩
      · show c.egressBinPath.getD "/qos_egress" = _
        cases c.egressBinPath <;> rfl
      · show ["--egress-host", "--cid", String.ofList (natText cid.toNat), "--vsock-to-host", boolText (decide (flags = 1))] = _
        rw [← Reaper.natText_toString, String.ofList_toList, boolText_eq]
        rfl

/-! ## All entries -/

/-- As `Bridged`, after the egress helper has been started or not. -/
structure Tail (c : HostCli.BridgeConfig) (on : Bool) (bs : List BridgeConfig) (acts : List Act) : Prop where
  alive : .panicked ∉ acts
  listens : ListensFor c bs (listeners acts)
  client : on = false → HasClient bs → ∃ l, helpers acts = [l] ∧ Helper c l
  noClient : on = true ∨ ¬ HasClient bs → helpers acts = []

theorem hasClient_server {port : UInt16} {host : String} {bs : List BridgeConfig} :
    HasClient (.server port host :: bs) ↔ HasClient bs := by
  unfold HasClient
  constructor
  · rintro ⟨p, h, hm⟩
    rcases List.mem_cons.mp hm with hm | hm
    · cases hm
    · exact ⟨p, h, hm⟩
  · rintro ⟨p, h, hm⟩
    exact ⟨p, h, List.mem_cons_of_mem _ hm⟩

theorem hasClient_client (port : UInt16) (host : Option String) (bs : List BridgeConfig) : HasClient (.client port host :: bs) :=
  ⟨port, host, List.mem_cons_self⟩

theorem listeners_append (a b : List Act) : listeners (a ++ b) = listeners a ++ listeners b := List.filterMap_append
theorem helpers_append (a b : List Act) : helpers (a ++ b) = helpers a ++ helpers b := List.filterMap_append

/-- Either nothing panics and everything runs, or some entry cannot be served and everything before it was run. -/
theorem runBridges_cases (o : Overflow) (feature : Bool) (c : HostCli.BridgeConfig) : ∀ (bs : List BridgeConfig) (on : Bool),
    (on = true → feature = true ∧ ∀ path, c.socket ≠ .unix path) →
    ((∀ b ∈ bs, ¬ Unservable feature c b) ∧ Tail c on bs (runBridges o feature c on bs)) ∨
    (∃ pre b post acts, bs = pre ++ b :: post ∧ Unservable feature c b ∧ (∀ x ∈ pre, ¬ Unservable feature c x) ∧
      runBridges o feature c on bs = acts ++ [.panicked] ∧ Tail c on pre acts)
  | [], on, _ => .inl ⟨by simp, by simp [runBridges], .nil, fun _ ⟨_, _, h⟩ => (by simp at h), fun _ => rfl⟩
  | b :: bs, on, hon => by
    -- the first entry alone
    have first : (entry o feature c on b = [.panicked] ∧ Unservable feature c b) ∨
        (.panicked ∉ entry o feature c on b ∧ ¬ Unservable feature c b ∧
          ∀ rest acts, Tail c (on || isClient b) rest acts → Tail c on (b :: rest) (entry o feature c on b ++ acts)) := by
      cases b with
      | server port host =>
        rcases entry_server o feature c on port host with ⟨h1, h2⟩ | ⟨h1, h2, h3⟩ | ⟨l, h1, h2, h3, h4⟩
        · exact .inl ⟨h1, h2⟩
        · refine .inr ⟨by rw [h1]; simp, h3, fun rest acts t => ?_⟩
          rw [h1, List.nil_append]
          have : (on || isClient (.server port host)) = on := by simp [isClient]
          rw [this] at t
          exact ⟨t.alive, .skipped port host h2 t.listens, fun a b => t.client a (hasClient_server.mp b),
            fun h => t.noClient (h.imp_right (hasClient_server.not.mp ·))⟩
        · refine .inr ⟨by rw [h1]; simp, h4, fun rest acts t => ?_⟩
          rw [h1]
          have : (on || isClient (.server port host)) = on := by simp [isClient]
          rw [this] at t
          refine ⟨?_, ?_, fun a b => ?_, fun h => ?_⟩
          · simp only [List.mem_append, List.mem_singleton, not_or]
            exact ⟨by simp, t.alive⟩
          · rw [listeners_append]
            exact .server port host h2 h3 t.listens
          · rw [helpers_append]
            exact t.client a (hasClient_server.mp b)
          · rw [helpers_append]
            exact t.noClient (h.imp_right (hasClient_server.not.mp ·))
      | client port host =>
        cases hb : on with
        | true =>
          subst hb
          obtain ⟨hf, hs⟩ := hon rfl
          refine .inr ⟨by simp [entry], ?_, fun rest acts t => ?_⟩
          · rintro (h | ⟨p, h⟩)
            · rw [hf] at h; cases h
            · exact hs p h
          · simp only [entry, if_true, List.nil_append]
            exact ⟨t.alive, .client port host t.listens, fun h => (nomatch h), fun _ => t.noClient (.inl rfl)⟩
        | false =>
          have he : entry o feature c false (.client port host) = egress feature c := by simp [entry]
          rw [he]
          rcases egress_cases feature c with ⟨h1, h2⟩ | ⟨l, h1, h2, h3⟩
          · exact .inl ⟨h1, h2⟩
          · refine .inr ⟨by rw [h1]; simp, h3, fun rest acts t => ?_⟩
            rw [h1]
            have t' : Tail c true rest acts := t
            refine ⟨?_, ?_, fun _ _ => ⟨l, ?_, h2⟩, fun h => ?_⟩
            · simp only [List.mem_append, List.mem_singleton, not_or]
              exact ⟨by simp, t'.alive⟩
            · rw [listeners_append]
              exact .client port host t'.listens
            · rw [helpers_append, t'.noClient (.inl rfl)]
              rfl
            · rcases h with h | h
              · cases h
              · exact absurd (hasClient_client port host rest) h
    have hnext : (on || isClient b) = true → ¬ Unservable feature c b → feature = true ∧ ∀ path, c.socket ≠ .unix path := by
      intro h hu
      cases b with
      | server port host =>
        simp only [isClient, Bool.or_false] at h
        exact hon h
      | client port host =>
        have : ¬ (feature = false ∨ ∃ path, c.socket = .unix path) := hu
        simp only [not_or, Bool.not_eq_false, not_exists] at this
        exact this
    rcases first with ⟨h1, h2⟩ | ⟨h1, h2, h3⟩
    · refine .inr ⟨[], b, bs, [], rfl, h2, by simp, ?_, by simp, .nil, fun _ ⟨_, _, h⟩ => (by simp at h), fun _ => rfl⟩
      rw [runBridges, if_pos (by rw [h1]; simp), h1]
      rfl
    · have hr : runBridges o feature c on (b :: bs) = entry o feature c on b ++ runBridges o feature c (on || isClient b) bs := by
        rw [runBridges, if_neg h1]
      rw [hr]
      rcases runBridges_cases o feature c bs (on || isClient b) (fun h => hnext h h2) with ⟨k1, k2⟩ |
        ⟨pre, b', post, acts, k1, k2, k3, k4, k5⟩
      · exact .inl ⟨fun x hx => (List.mem_cons.mp hx).elim (fun h => h ▸ h2) (k1 x), h3 _ _ k2⟩
      · refine .inr ⟨b :: pre, b', post, entry o feature c on b ++ acts, by rw [k1]; rfl, k2, ?_, by rw [k4, List.append_assoc], h3 _ _ k5⟩
        exact fun x hx => (List.mem_cons.mp hx).elim (fun h => h ▸ h2) (k3 x)

end Qos.Bridge
