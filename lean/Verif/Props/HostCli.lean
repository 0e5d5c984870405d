import Verif.Lemmas.HostCli
import Verif.Props.Pool
/-!
# C56: host, bridge, egress and proxy do what their command lines say
-/
namespace Qos.HostCli
open Parser
open Pool (Address)

variable {prog : String} {args : List String}

theorem parseBool_iff {s : String} {b : Bool} : parseBool s = some b ↔ (s = "true" ∧ b = true) ∨ (s = "false" ∧ b = false) := by
  unfold parseBool
  by_cases h1 : s = "true"
  · rw [if_pos h1]
    subst h1
    constructor
    · rintro h; cases h; exact .inl ⟨rfl, rfl⟩
    · rintro (⟨-, rfl⟩ | ⟨h, -⟩)
      · rfl
      · exact absurd h (by decide)
  · rw [if_neg h1]
    by_cases h2 : s = "false"
    · rw [if_pos h2]
      constructor
      · rintro h; cases h; exact .inr ⟨h2, rfl⟩
      · rintro (⟨h, -⟩ | ⟨-, rfl⟩)
        · exact absurd h h1
        · rfl
    · rw [if_neg h2]
      simp [h1, h2]

/-- A value read for an option without default. -/
theorem Reads.some_iff {ts : List Token} {items : List Item} {m : TokenMap} (h : Reads ts items m) {n : String} {t : Token}
    (hd : declared ts n = some t) (ht : t.takesValue = true) (hm : t.allowMultiple = false) (h0 : t.default = none) (v : String) :
    single m n = some v ↔ Says items n v := by
  rw [h.1 n t hd ht hm v, h0]
  simp

theorem Reads.none_iff {ts : List Token} {items : List Item} {m : TokenMap} (h : Reads ts items m) {n : String} {t : Token}
    (hd : declared ts n = some t) (ht : t.takesValue = true) (hm : t.allowMultiple = false) (h0 : t.default = none) :
    single m n = none ↔ Silent items n := by
  constructor
  · intro hn v hv
    rw [(h.some_iff hd ht hm h0 v).mpr hv] at hn
    cases hn
  · intro hs
    cases hx : single m n with
    | none => rfl
    | some v => exact absurd ((h.some_iff hd ht hm h0 v).mp hx) (hs v)

theorem Reads.or_iff {ts : List Token} {items : List Item} {m : TokenMap} (h : Reads ts items m) {n d : String} {t : Token}
    (hd : declared ts n = some t) (ht : t.takesValue = true) (hm : t.allowMultiple = false) (h0 : t.default = some d) (v : String) :
    single m n = some v ↔ SaysOr items n d v := by
  rw [h.1 n t hd ht hm v, h0]
  unfold SaysOr
  simp only [Option.some.injEq]
  exact ⟨fun h => h.imp_right fun x => ⟨x.1.symm, x.2⟩, fun h => h.imp_right fun x => ⟨x.1.symm, x.2⟩⟩

theorem Reads.default {ts : List Token} {items : List Item} {m : TokenMap} (h : Reads ts items m) {n d : String} {t : Token}
    (hd : declared ts n = some t) (ht : t.takesValue = true) (hm : t.allowMultiple = false) (h0 : t.default = some d) (v : String) :
    (single m n).getD d = v ↔ SaysOr items n d v := by
  rw [← h.or_iff hd ht hm h0]
  cases hx : single m n with
  | none =>
    exfalso
    by_cases hs : Silent items n
    · rw [(h.or_iff hd ht hm h0 d).mpr (.inr ⟨rfl, hs⟩)] at hx
      cases hx
    · unfold Silent at hs
      simp only [not_forall, not_not] at hs
      obtain ⟨w, hw⟩ := hs
      rw [(h.or_iff hd ht hm h0 w).mpr (.inl hw)] at hx
      cases hx
  | some w => simp

theorem flags_iff {items : List Item} {m : TokenMap} {unset : Bool} {f : UInt8}
    (hsome : ∀ v, single m "vsock-to-host" = some v ↔ Says items "vsock-to-host" v)
    (hnone : single m "vsock-to-host" = none ↔ Silent items "vsock-to-host") :
    toHostFlag unset m = some f ↔ SaysFlags items (flagByte unset) f := by
  unfold toHostFlag SaysFlags
  rw [← hsome, ← hsome, ← hnone]
  cases single m "vsock-to-host" with
  | none => simp [eq_comm]
  | some v =>
    simp only [Option.map_eq_some_iff, Option.some.injEq, reduceCtorEq, false_and, or_false]
    constructor
    · rintro ⟨b, h1, rfl⟩
      rcases parseBool_iff.mp h1 with ⟨rfl, rfl⟩ | ⟨rfl, rfl⟩
      · exact .inl ⟨rfl, rfl⟩
      · exact .inr ⟨rfl, rfl⟩
    · rintro (⟨rfl, rfl⟩ | ⟨rfl, rfl⟩)
      · exact ⟨true, rfl, rfl⟩
      · exact ⟨false, rfl, rfl⟩

/-- The socket options that host and proxy share. -/
theorem socket_iff {items : List Item} {m : TokenMap} {a : Address} {flags : Option UInt8}
    (hc : ∀ v, single m "cid" = some v ↔ Says items "cid" v) (hp : ∀ v, single m "port" = some v ↔ Says items "port" v)
    (hu : ∀ v, single m "usock" = some v ↔ Says items "usock" v)
    (cp : ∀ v, Says items "cid" v → ∃ w, Says items "port" w) (pc : ∀ v, Says items "port" v → ∃ w, Says items "cid" w)
    (ucp : ∀ v w, Says items "usock" v → ¬ Says items "cid" w) :
    (match single m "cid", single m "port", single m "usock" with
      | some c, some p, none => newVsock c p flags
      | none, none, some u => newUnix u
      | _, _, _ => none) = some a ↔
    SaysUnix items a ∨ ∃ cid port f cs ps, a = .vsock cid port f ∧ Says items "cid" cs ∧ Number cs cid.toNat ∧
      Says items "port" ps ∧ Number ps port.toNat ∧ flags = some f := by
  cases xc : single m "cid" with
  | some c =>
    have hc' := (hc c).mp xc
    obtain ⟨p, hp'⟩ := cp c hc'
    have xp := (hp p).mpr hp'
    have xu : single m "usock" = none := by
      cases xu : single m "usock" with
      | none => rfl
      | some u => exact absurd hc' (ucp u c ((hu u).mp xu))
    rw [xp, xu]
    simp only
    rw [newVsock_iff]
    constructor
    · rintro ⟨cid, port, f, h1, h2, h3, h4⟩
      exact .inr ⟨cid, port, f, c, p, h1, hc', h2, hp', h3, h4⟩
    · rintro (⟨u, h1, _⟩ | ⟨cid, port, f, cs, ps, h1, h2, h3, h4, h5, h6⟩)
      · exact absurd hc' (ucp u c h1)
      · have e1 := (hc cs).mpr h2
        have e2 := (hp ps).mpr h4
        rw [xc] at e1
        rw [xp] at e2
        cases e1
        cases e2
        exact ⟨cid, port, f, h1, h3, h5, h6⟩
  | none =>
    have nc : ∀ v, ¬ Says items "cid" v := fun v hv => by rw [(hc v).mpr hv] at xc; cases xc
    have xp : single m "port" = none := by
      cases xp : single m "port" with
      | none => rfl
      | some p =>
        obtain ⟨w, hw⟩ := pc p ((hp p).mp xp)
        exact absurd hw (nc w)
    rw [xp]
    constructor
    · intro h
      cases xu : single m "usock" with
      | none => rw [xu] at h; cases h
      | some u =>
        rw [xu] at h
        obtain ⟨h1, h2⟩ := newUnix_iff.mp h
        exact .inl ⟨u, (hu u).mp xu, h1, h2⟩
    · rintro (⟨u, h1, h2, h3⟩ | ⟨cid, port, f, cs, ps, h1, h2, _⟩)
      · rw [(hu u).mpr h1]
        exact newUnix_iff.mpr ⟨h2, h3⟩
      · exact absurd h2 (nc cs)

theorem given_says {ts : List Token} {items : List Item} (ha : Acceptable ts items) {n : String} {t : Token}
    (hd : declared ts n = some t) (ht : t.takesValue = true) (h0 : t.default = none) (hg : Given items n) : ∃ v, Says items n v := by
  obtain ⟨i, hi, hn⟩ := hg
  cases i with
  | flag k =>
    obtain ⟨t', hd', hf⟩ := ha.fits _ hi
    cases hn
    rw [show declared ts k = some t from hd] at hd'
    cases hd'
    rw [ht] at hf
    cases hf
  | value k w => cases hn; exact ⟨w, hi⟩
  | bare k =>
    obtain ⟨t', hd', _, hf⟩ := ha.fits _ hi
    cases hn
    rw [show declared ts k = some t from hd] at hd'
    cases hd'
    exact absurd h0 hf

theorem says_given {items : List Item} {n v : String} (h : Says items n v) : Given items n := ⟨_, h, rfl⟩

/-- C56: `Ipv4Addr` accepts exactly the usual texts. -/
theorem ipv4_exact (s : String) (i : Ipv4) : parseIpv4 s = some i ↔ s = i.text := parseIpv4_iff

/-- C56: the host is started with a configuration exactly if its arguments are an acceptable command line that asks for it. -/
theorem host_exact (hp : ¬ ['-', '-'] <+: prog.toList) (c : HostConfig) : host (prog :: args) = .runs c ↔
    "--help" ∉ args ∧ "--version" ∉ args ∧ ∃ items, args = words items ∧ Acceptable hostTokens items ∧ HostAsks items c := by
  refine runs_iff hp fun items m ha hr => ?_
  have dc : declared hostTokens "cid" = some { name := "cid", takesValue := true, forbids := ["usock"], requires := some "port" } := by decide +kernel
  have dp : declared hostTokens "port" = some { name := "port", takesValue := true, forbids := ["usock"], requires := some "cid" } := by decide +kernel
  have du : declared hostTokens "usock" = some { name := "usock", takesValue := true, forbids := ["port", "cid"] } := by decide +kernel
  have di : declared hostTokens "host-ip" = some { name := "host-ip", takesValue := true, required := true } := by decide +kernel
  have dhp : declared hostTokens "host-port" = some { name := "host-port", takesValue := true, required := true } := by decide +kernel
  have db : declared hostTokens "endpoint-base-path" = some { name := "endpoint-base-path", takesValue := true } := by decide +kernel
  have dt : declared hostTokens "socket-timeout" = some { name := "socket-timeout", takesValue := true, default := some "20000" } := by decide +kernel
  have df : declared hostTokens "vsock-to-host" = some { name := "vsock-to-host", takesValue := true, forbids := ["usock"] } := by decide +kernel
  have hsock : ∀ a, hostSocket m = some a ↔ SaysUnix items a ∨ ∃ cid port flags cs ps, a = .vsock cid port flags ∧
      Says items "cid" cs ∧ Number cs cid.toNat ∧ Says items "port" ps ∧ Number ps port.toNat ∧ SaysFlags items 0 flags := by
    intro a
    have := socket_iff (a := a) (flags := toHostFlag false m) (hr.some_iff dc rfl rfl rfl) (hr.some_iff dp rfl rfl rfl)
      (hr.some_iff du rfl rfl rfl)
      (fun v hv => given_says ha dp rfl rfl (ha.requires _ _ "port" dc (says_given hv) rfl))
      (fun v hv => given_says ha dc rfl rfl (ha.requires _ _ "cid" dp (says_given hv) rfl))
      (fun v w hv hw => ha.forbids _ _ "cid" du (says_given hv) (by simp) (says_given hw))
    simp only [flags_iff (hr.some_iff df rfl rfl rfl) (hr.none_iff df rfl rfl rfl)] at this
    exact this
  have hto := hr.default dt rfl rfl rfl
  unfold hostConfig
  simp only [Option.bind_eq_some_iff, hr.some_iff di rfl rfl rfl, hr.some_iff dhp rfl rfl rfl]
  constructor
  · rintro ⟨a, h1, t, h2, i, ⟨s, h3, h4⟩, p, ⟨s', h5, h6⟩, h7⟩
    cases h7
    obtain ⟨n1, n2⟩ := parseUnsigned_iff.mp h2
    refine ⟨(hsock a).mp h1, ⟨n2, _, (hto _).mp rfl, n1⟩, ?_, ⟨s', h5, parsePort_iff.mp h6⟩, hr.some_iff db rfl rfl rfl⟩
    rw [← parseIpv4_iff.mp h4]
    exact h3
  · rintro ⟨h1, ⟨h2, s, h3, h4⟩, h5, ⟨s', h6, h7⟩, h8⟩
    refine ⟨c.socket, (hsock _).mpr h1, c.timeoutMs, ?_, c.ip, ⟨_, h5, parseIpv4_iff.mpr rfl⟩, c.port, ⟨s', h6, parsePort_iff.mpr h7⟩, ?_⟩
    · rw [(hto s).mpr h3]
      exact parseUnsigned_iff.mpr ⟨h4, h2⟩
    · have : single m "endpoint-base-path" = c.basePath := Option.ext fun v => by
        rw [hr.some_iff db rfl rfl rfl]
        exact (h8 v).symm
      rw [this]

theorem flag_getD {items : List Item} {m : TokenMap} {n : String} (h : flag m n = some true ↔ .flag n ∈ items) :
    (flag m n).getD false = true ↔ .flag n ∈ items := by
  rw [← h]
  cases flag m n with
  | none => simp
  | some b => simp

theorem bridge_declared :
    declared bridgeTokens "control-url" = some { name := "control-url", takesValue := true } ∧
    declared bridgeTokens "cid" = some { name := "cid", takesValue := true, forbids := ["usock"] } ∧
    declared bridgeTokens "usock" = some { name := "usock", takesValue := true, forbids := ["cid"] } ∧
    declared bridgeTokens "host-port-override" = some { name := "host-port-override", takesValue := true } ∧
    declared bridgeTokens "vsock-to-host" = some { name := "vsock-to-host", takesValue := true, forbids := ["usock"] } ∧
    declared bridgeTokens "egress-host" = some { name := "egress-host" } ∧
    declared bridgeTokens "egress-bin-path" = some { name := "egress-bin-path", takesValue := true } := by decide +kernel

/-- C56: the same for the bridge. -/
theorem bridge_exact (hp : ¬ ['-', '-'] <+: prog.toList) (c : BridgeConfig) : bridge (prog :: args) = .runs c ↔
    "--help" ∉ args ∧ "--version" ∉ args ∧ ∃ items, args = words items ∧ Acceptable bridgeTokens items ∧ BridgeAsks items c := by
  refine runs_iff hp fun items m ha hr => ?_
  obtain ⟨dl, dc, du, dov, df, dh, db⟩ := bridge_declared
  have n3001 : ∀ p : UInt32, Number "3001" p.toNat ↔ p = 3001 := by
    intro p
    have e : parseUnsigned (2 ^ 32) "3001".toList = some 3001 := by decide +kernel
    constructor
    · intro h
      have := parseUnsigned_iff.mpr ⟨h, p.toNat_lt⟩
      rw [e] at this
      exact UInt32.toNat_inj.mp (Option.some.inj this).symm
    · rintro rfl
      exact (parseUnsigned_iff.mp e).1
  have hsock : ∀ a, bridgeSocket m = some a ↔ SaysUnix items a ∨ ∃ cid flags cs, a = .vsock cid 3001 flags ∧ Says items "cid" cs ∧
      Number cs cid.toNat ∧ SaysFlags items 1 flags := by
    intro a
    unfold bridgeSocket
    have hc := hr.some_iff dc rfl rfl rfl
    have hu := hr.some_iff du rfl rfl rfl
    have hf := fun f => flags_iff (unset := true) (f := f) (hr.some_iff df rfl rfl rfl) (hr.none_iff df rfl rfl rfl)
    have ucp : ∀ v w, Says items "usock" v → ¬ Says items "cid" w :=
      fun v w hv hw => ha.forbids _ _ "cid" du (says_given hv) (by simp) (says_given hw)
    cases xc : single m "cid" with
    | some c =>
      have hc' := (hc c).mp xc
      have xu : single m "usock" = none := by
        cases xu : single m "usock" with
        | none => rfl
        | some u => exact absurd hc' (ucp u c ((hu u).mp xu))
      rw [xu]
      simp only
      rw [newVsock_iff]
      constructor
      · rintro ⟨cid, port, f, h1, h2, h3, h4⟩
        rw [n3001] at h3
        subst h3
        exact .inr ⟨cid, f, c, h1, hc', h2, (hf f).mp h4⟩
      · rintro (⟨u, h1, _⟩ | ⟨cid, f, cs, h1, h2, h3, h4⟩)
        · exact absurd hc' (ucp u c h1)
        · have e1 := (hc cs).mpr h2
          rw [xc] at e1
          cases e1
          exact ⟨cid, 3001, f, h1, h3, (n3001 _).mpr rfl, (hf f).mpr h4⟩
    | none =>
      have nc : ∀ v, ¬ Says items "cid" v := fun v hv => by rw [(hc v).mpr hv] at xc; cases xc
      constructor
      · intro h
        cases xu : single m "usock" with
        | none => rw [xu] at h; cases h
        | some u =>
          rw [xu] at h
          obtain ⟨h1, h2⟩ := newUnix_iff.mp h
          exact .inl ⟨u, (hu u).mp xu, h1, h2⟩
      · rintro (⟨u, h1, h2, h3⟩ | ⟨cid, f, cs, h1, h2, _⟩)
        · rw [(hu u).mpr h1]
          exact newUnix_iff.mpr ⟨h2, h3⟩
        · exact absurd h2 (nc cs)
  have hov : ∀ p, (single m "host-port-override").bind parsePort = some p ↔
      ∃ s, Says items "host-port-override" s ∧ Number s p.toNat := by
    intro p
    simp only [Option.bind_eq_some_iff, hr.some_iff dov rfl rfl rfl, parsePort_iff]
  unfold bridgeConfig
  simp only [Option.bind_eq_some_iff, hr.some_iff dl rfl rfl rfl]
  constructor
  · rintro ⟨a, h1, u, h2, h3⟩
    cases h3
    exact ⟨(hsock a).mp h1, h2, hov, hr.some_iff db rfl rfl rfl⟩
  · rintro ⟨h1, h2, h3, h4⟩
    refine ⟨c.socket, (hsock _).mpr h1, c.controlUrl, h2, ?_⟩
    have e1 : (single m "host-port-override").bind parsePort = c.hostPortOverride := Option.ext fun p => by rw [hov]; exact (h3 p).symm
    have e2 : single m "egress-bin-path" = c.egressBinPath := Option.ext fun v => by
      rw [hr.some_iff db rfl rfl rfl]
      exact (h4 v).symm
    rw [e1, e2]

/-- C56: the same for the egress program. -/
theorem egress_exact (hp : ¬ ['-', '-'] <+: prog.toList) (c : EgressConfig) : egress (prog :: args) = .runs c ↔
    "--help" ∉ args ∧ "--version" ∉ args ∧ ∃ items, args = words items ∧ Acceptable bridgeTokens items ∧ EgressAsks items c := by
  refine runs_iff hp fun items m ha hr => ?_
  obtain ⟨dl, dc, du, dov, df, dh, db⟩ := bridge_declared
  have hside := flag_getD (hr.2 _ _ dh rfl)
  unfold egressConfig
  simp only [Option.bind_eq_some_iff, hr.some_iff dc rfl rfl rfl, parseCid_iff,
    flags_iff (hr.some_iff df rfl rfl rfl) (hr.none_iff df rfl rfl rfl)]
  constructor
  · rintro ⟨cid, h1, f, h2, h3⟩
    cases h3
    exact ⟨hside, h1, h2⟩
  · rintro ⟨h1, h2, h3⟩
    refine ⟨c.cid, h2, c.flags, h3, ?_⟩
    have : (flag m "egress-host").getD false = c.hostSide := by
      rw [Bool.eq_iff_iff, hside, h1]
    rw [this]

/-- C56: the same for the proxy; the sockets are then numbered from the first one (C37). -/
theorem proxy_exact (o : NChooseK.Overflow) (hp : ¬ ['-', '-'] <+: prog.toList) (c : ProxyConfig) :
    proxy o (prog :: args) = .runs c ↔
    "--help" ∉ args ∧ "--version" ∉ args ∧ ∃ items, args = words items ∧ Acceptable proxyTokens items ∧
      ∃ first size, ProxyAsks items first size c.maxConnections ∧ Pool.Pool.new o first (UInt8.ofNat size) = .ok c.pool := by
  refine runs_iff hp fun items m ha hr => ?_
  have dc : declared proxyTokens "cid" = some { name := "cid", takesValue := true, forbids := ["usock"], requires := some "port" } := by decide +kernel
  have dp : declared proxyTokens "port" = some { name := "port", takesValue := true, forbids := ["usock"], requires := some "cid" } := by decide +kernel
  have du : declared proxyTokens "usock" = some { name := "usock", takesValue := true, forbids := ["port", "cid"] } := by decide +kernel
  have dm : declared proxyTokens "max-connections" = some { name := "max-connections", takesValue := true, default := some "256" } := by decide +kernel
  have ds : declared proxyTokens "pool-size" = some { name := "pool-size", takesValue := true, forbids := ["port", "cid"], default := some "1" } := by decide +kernel
  have hsock : ∀ a, proxySocket m = some a ↔ SaysUnix items a ∨ ∃ cid port cs ps, a = .vsock cid port 0 ∧
      Says items "cid" cs ∧ Number cs cid.toNat ∧ Says items "port" ps ∧ Number ps port.toNat := by
    intro a
    have := socket_iff (a := a) (flags := some 0) (hr.some_iff dc rfl rfl rfl) (hr.some_iff dp rfl rfl rfl)
      (hr.some_iff du rfl rfl rfl)
      (fun v hv => given_says ha dp rfl rfl (ha.requires _ _ "port" dc (says_given hv) rfl))
      (fun v hv => given_says ha dc rfl rfl (ha.requires _ _ "cid" dp (says_given hv) rfl))
      (fun v w hv hw => ha.forbids _ _ "cid" du (says_given hv) (by simp) (says_given hw))
    refine this.trans (or_congr_right ?_)
    constructor
    · rintro ⟨cid, port, f, cs, ps, h1, h2, h3, h4, h5, h6⟩
      cases h6
      exact ⟨cid, port, cs, ps, h1, h2, h3, h4, h5⟩
    · rintro ⟨cid, port, cs, ps, h1, h2, h3, h4, h5⟩
      exact ⟨cid, port, 0, cs, ps, h1, h2, h3, h4, h5, rfl⟩
  have hmax := hr.default dm rfl rfl rfl
  have hnew : ∀ a size p, newPool o a size = some p ↔ Pool.Pool.new o a (UInt8.ofNat size) = .ok p := by
    intro a size p
    unfold newPool
    cases Pool.Pool.new o a (UInt8.ofNat size) <;> simp
  unfold proxyConfig
  simp only [Option.bind_eq_some_iff, hr.or_iff ds rfl rfl rfl, hnew]
  constructor
  · rintro ⟨size, ⟨s, h1, h2⟩, a, h3, pool, h4, mx, h5, h6⟩
    cases h6
    obtain ⟨n1, n2⟩ := parseUnsigned_iff.mp h2
    obtain ⟨n3, n4⟩ := parseUnsigned_iff.mp h5
    refine ⟨a, size, ⟨(hsock a).mp h3, ⟨?_, n2, s, h1, n1⟩, n4, _, (hmax _).mp rfl, n3⟩, h4⟩
    rcases Nat.eq_zero_or_pos size with rfl | h
    · cases h4
    · exact h
  · rintro ⟨a, size, ⟨h1, ⟨_, h2, s, h3, h4⟩, h5, s', h6, h7⟩, h8⟩
    refine ⟨size, ⟨s, h3, parseUnsigned_iff.mpr ⟨h4, h2⟩⟩, a, (hsock a).mpr h1, c.pool, h8, c.maxConnections, ?_, rfl⟩
    rw [(hmax s').mpr h6]
    exact parseUnsigned_iff.mpr ⟨h7, h5⟩

/-- C56: a vsock proxy has exactly one socket: `--pool-size` cannot be combined with `--cid` and `--port`. -/
theorem vsock_proxy_has_one_socket (o : NChooseK.Overflow) (hp : ¬ ['-', '-'] <+: prog.toList) {c : ProxyConfig}
    (h : proxy o (prog :: args) = .runs c) {cid port : UInt32} {f : UInt8} (hv : c.pool.addresses.head? = some (.vsock cid port f)) :
    c.pool.addresses = [.vsock cid port f] := by
  obtain ⟨_, _, items, _, ha, first, size, hk, hn⟩ := (proxy_exact o hp c).mp h
  generalize c.pool = pool at hn hv ⊢
  have h1 : size = 1 ∨ ∃ u, Says items "usock" u ∧ first = .unix u.toList := by
    rcases hk.socket with ⟨u, h1, _, h2⟩ | ⟨cid, port, cs, ps, _, h2, _⟩
    · exact .inr ⟨u, h1, h2⟩
    · left
      obtain ⟨_, hlt, s, hs, hnum⟩ := hk.size
      rcases hs with hs | ⟨rfl, _⟩
      · have ds : declared proxyTokens "pool-size" = some { name := "pool-size", takesValue := true, forbids := ["port", "cid"], default := some "1" } := by decide +kernel
        exact absurd (says_given h2) (ha.forbids _ _ "cid" ds (says_given hs) (by simp))
      · have e := parseUnsigned_iff.mpr ⟨hnum, hlt⟩
        rw [show parseUnsigned 256 "1".toList = some 1 from by decide +kernel] at e
        exact (Option.some.inj e).symm
  rcases h1 with rfl | ⟨u, _, rfl⟩
  · have e : Pool.Pool.new o first (UInt8.ofNat 1) = .ok ⟨[first], [first]⟩ := rfl
    rw [e] at hn
    cases hn
    simp only [List.head?_cons, Option.some.injEq] at hv
    rw [hv]
  · exfalso
    have key : ∀ (n : Nat) (a : Address) (l : List Address), Pool.addressesFrom o a n = .ok l → l.head? = some a := by
      intro n a l hl
      cases n with
      | zero => cases hl; rfl
      | succ n =>
        unfold Pool.addressesFrom at hl
        split at hl
        · cases hl
        · split at hl
          · cases hl
          · cases hl; rfl
    unfold Pool.Pool.new at hn
    split at hn
    · cases hn
    · split at hn
      · cases hn
      · rename_i l hl
        cases hn
        rw [key _ _ _ hl] at hv
        cases hv

/-! ### Command lines that meet the hypotheses -/

/-- A decidable check of what is started. -/
def started {C : Type} [DecidableEq C] (s : Started C) (c : C) : Bool :=
  match s with
  | .runs c' => decide (c' = c)
  | _ => false

theorem of_started {C : Type} [DecidableEq C] {s : Started C} {c : C} (h : started s c = true) : s = .runs c := by
  cases s <;> simp_all [started]

example : host ["qos_host", "--cid", "6", "--port", "3999", "--host-ip", "0.0.0.0", "--host-port", "3000", "--vsock-to-host", "false"] =
    .runs ⟨.vsock 6 3999 0, 20000, ⟨0, 0, 0, 0⟩, 3000, none⟩ := of_started (by decide +kernel)
example : host ["qos_host", "--usock", "dev.sock", "--host-ip", "127.0.0.1", "--host-port", "+3001", "--endpoint-base-path", "x",
    "--socket-timeout", "5"] = .runs ⟨.unix "dev.sock".toList, 5, ⟨127, 0, 0, 1⟩, 3001, some "x"⟩ := of_started (by decide +kernel)
example : ∃ c, host ["h", "--usock", "s", "--host-ip", "1.2.3.4", "--host-port", "1"] = .runs c := ⟨_, of_started (c := ⟨.unix ['s'], 20000, ⟨1, 2, 3, 4⟩, 1, none⟩) (by decide +kernel)⟩
example : parseIpv4 "1.2.3.04" = none ∧ parseIpv4 "1.2.3" = none ∧ parseIpv4 "256.1.1.1" = none ∧ parseIpv4 "1.2.3.4 " = none ∧
    parseIpv4 "::1" = none := by decide +kernel
example : bridge ["qos_bridge", "--cid", "16", "--control-url", "http://localhost:3001/qos", "--host-port-override", "80"] =
    .runs ⟨.vsock 16 3001 1, "http://localhost:3001/qos", some 80, none⟩ := of_started (by decide +kernel)
/-- An override that is not a port is ignored without notice. -/
example : bridge ["qos_bridge", "--usock", "s", "--control-url", "u", "--host-port-override", "70000"] =
    .runs ⟨.unix ['s'], "u", none, none⟩ := of_started (by decide +kernel)
example : egress ["qos_egress", "--egress-host", "--cid", "16", "--vsock-to-host", "true"] = .runs ⟨true, 16, 1⟩ := of_started (by decide +kernel)
/-- The enclave side is started by the reaper with these arguments. -/
example : egress ["/egress", "--cid", "16", "--vsock-to-host", "false"] = .runs ⟨false, 16, 0⟩ := of_started (by decide +kernel)

/-- The sockets that a proxy is started with. -/
def sockets (s : Started ProxyConfig) : Option (List Address × Nat) :=
  match s with
  | .runs c => some (c.pool.addresses, c.maxConnections)
  | _ => none

example : sockets (proxy .wraps ["qos_net", "--usock", "a", "--pool-size", "3"]) =
    some ([.unix "a".toList, .unix "a_0".toList, .unix "a_1".toList], 256) := by decide +kernel
example : sockets (proxy .wraps ["qos_net", "--cid", "3", "--port", "9", "--max-connections", "2"]) =
    some ([.vsock 3 9 0], 2) := by decide +kernel
example : sockets (proxy .wraps ["qos_net", "--cid", "3", "--port", "9", "--pool-size", "2"]) = none := by decide +kernel

end Qos.HostCli
