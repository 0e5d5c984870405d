import Verif.Lemmas.Proxy
/-!
# C55: the network proxy does exactly what the enclave asked for, and pipes bytes unchanged

All theorems quantify over every run of the proxy: all sessions, requests, splits of the byte streams, resolver answers,
connection outcomes, time-outs and interleavings.

Concrete cases: `Props/ProxyRuns.lean`.
-/
namespace Qos.Proxy
variable {Ip : Type} [DecidableEq Ip] {A : Addresses Ip} {listeners max : Nat} {σ σ' : Sys Ip}

/-- C55: messages are read back as written, and bytes are read as a message only if they are its encoding. -/
theorem message_roundtrip (req : Bytes) (m : Msg) :
    (msgCodec.ok m → Borsh.tryFromSlice msgCodec (msgCodec.enc m) = some m) ∧
    (Borsh.tryFromSlice msgCodec req = some m → req = msgCodec.enc m) :=
  ⟨fun h => Borsh.tryFromSlice_enc lawful_msg h, fun h => (decode_iff.mp h).1⟩

/-- C55: whatever a session has done is explained by the first message on its connection: the DNS query, the TCP
connection, the answer and the bytes in both directions. -/
theorem session_explained (hr : Reachable A (Sys.start listeners max) σ) {s : Session Ip} (hs : s ∈ σ.sessions) :
    Explained A (fun r key => σ.built[r]? = some key) s := by
  obtain ⟨j, hj⟩ := List.mem_iff_getElem?.mp hs
  have h := sysInv_reachable hr
  exact ((h.sessions j s hj).explained).mono fun r k hk => h.built k r hk

/-- C55: the proxy never opens a TCP connection that was not asked for: at most one per session, to exactly the requested
address and port, or to the requested port of the first address that exactly the requested resolvers gave for exactly the
requested name. -/
theorem dials_only_what_was_asked (hr : Reachable A (Sys.start listeners max) σ) {s : Session Ip} (hs : s ∈ σ.sessions) :
    s.dials.length ≤ 1 ∧ ∀ d ∈ s.dials, ∃ req, FirstFrame s.inp req ∧
      ((∃ ip, Encodes req (.connectByIp ip d.port) ∧ A.parse ip = some d.addr) ∨
       ∃ h rs dp ips r more, Encodes req (.connectByName h d.port rs dp) ∧ AllParse A rs ips ∧
         σ.built[r]? = some (ips, dp) ∧ s.queries = [⟨r, h, some (d.addr :: more)⟩]) := by
  rcases session_explained hr hs with h | ⟨req, a, h1, h2, -⟩
  · rw [h.2.1]
    exact ⟨by simp, by simp⟩
  generalize s.queries = qs at *
  generalize s.dials = ds at *
  cases h2 with
  | ipConnected ip p a e1 e2 =>
    refine ⟨by simp, fun d hd => ?_⟩
    cases List.mem_singleton.mp hd
    exact ⟨req, h1, .inl ⟨ip, e1, e2⟩⟩
  | ipRefused ip t p a e1 e2 =>
    refine ⟨by simp, fun d hd => ?_⟩
    cases List.mem_singleton.mp hd
    exact ⟨req, h1, .inl ⟨ip, e1, e2⟩⟩
  | nameConnected hn p rs dp ips r a as e1 e2 e3 =>
    refine ⟨by simp, fun d hd => ?_⟩
    cases List.mem_singleton.mp hd
    exact ⟨req, h1, .inr ⟨hn, rs, dp, ips, r, as, e1, e2, e3, rfl⟩⟩
  | nameRefused hn t p rs dp ips r a as e1 e2 e3 =>
    refine ⟨by simp, fun d hd => ?_⟩
    cases List.mem_singleton.mp hd
    exact ⟨req, h1, .inr ⟨hn, rs, dp, ips, r, as, e1, e2, e3, rfl⟩⟩
  | _ => exact ⟨by simp, by simp⟩

/-- C55: a DNS query is made at most once per session, for exactly the requested name, and only to the requested resolvers. -/
theorem queries_only_what_was_asked (hr : Reachable A (Sys.start listeners max) σ) {s : Session Ip} (hs : s ∈ σ.sessions) :
    s.queries.length ≤ 1 ∧ ∀ q ∈ s.queries, ∃ req port rs dp ips, FirstFrame s.inp req ∧
      Encodes req (.connectByName q.hostname port rs dp) ∧ AllParse A rs ips ∧ σ.built[q.resolver]? = some (ips, dp) := by
  rcases session_explained hr hs with h | ⟨req, a, h1, h2, -⟩
  · rw [h.1]
    exact ⟨by simp, by simp⟩
  generalize s.queries = qs at *
  generalize s.dials = ds at *
  cases h2 with
  | queryFailed hn t p rs dp ips r e1 e2 e3 =>
    refine ⟨by simp, fun q hq => ?_⟩
    cases List.mem_singleton.mp hq
    exact ⟨req, p, rs, dp, ips, h1, e1, e2, e3⟩
  | queryEmpty hn p rs dp ips r e1 e2 e3 =>
    refine ⟨by simp, fun q hq => ?_⟩
    cases List.mem_singleton.mp hq
    exact ⟨req, p, rs, dp, ips, h1, e1, e2, e3⟩
  | queried hn p rs dp ips r a as e1 e2 e3 =>
    refine ⟨by simp, fun q hq => ?_⟩
    cases List.mem_singleton.mp hq
    exact ⟨req, p, rs, dp, ips, h1, e1, e2, e3⟩
  | nameConnected hn p rs dp ips r a as e1 e2 e3 =>
    refine ⟨by simp, fun q hq => ?_⟩
    cases List.mem_singleton.mp hq
    exact ⟨req, p, rs, dp, ips, h1, e1, e2, e3⟩
  | nameRefused hn t p rs dp ips r a as e1 e2 e3 =>
    refine ⟨by simp, fun q hq => ?_⟩
    cases List.mem_singleton.mp hq
    exact ⟨req, p, rs, dp, ips, h1, e1, e2, e3⟩
  | _ => exact ⟨by simp, by simp⟩

/-- The bytes after two equal first frames are the same question. -/
theorem FirstFrame.unique {inp a b : Bytes} (ha : FirstFrame inp a) (hb : FirstFrame inp b) : a = b := by
  obtain ⟨x, hx⟩ := ha.2
  obtain ⟨y, hy⟩ := hb.2
  exact (Net.frame_prefix (x := x) (y := y) ha.1 hb.1 (hx.trans hy.symm)).1

theorem Encodes.unique {req : Bytes} {m m' : Msg} (h : Encodes req m) (h' : Encodes req m') : m = m' := by
  have h1 := decode_iff.mpr h
  rw [decode_iff.mpr h'] at h1
  exact (Option.some.inj h1).symm

/-- C55: what the enclave reads first on its connection is the answer to its request; and it is taken for a connection
exactly if the proxy has made one. If so, everything read after it was sent by the remote host, and everything the remote
host got was written by the enclave after the request, in order and unchanged. -/
theorem answer_exact (hr : Reachable A (Sys.start listeners max) σ) {s : Session Ip} (hs : s ∈ σ.sessions) {resp rest : Bytes}
    (hl : resp.length ≤ 134217728) (hout : s.out = leBytes 8 resp.length ++ resp ++ rest) :
    ∃ req m, FirstFrame s.inp req ∧ Trail A (fun r key => σ.built[r]? = some key) req s.queries s.dials (some m) ∧
      resp = msgCodec.enc m ∧ (∀ ip, readAnswer resp = .ok ip ↔ m = .connectResponse ip) ∧
      (∀ e, readAnswer resp = .error e ↔ m = .proxyError e ∨ (m = .statusResponse 0 ∧ e = .invalidMsg)) ∧
      ((∃ ip, readAnswer resp = .ok ip) ↔ ∃ d ∈ s.dials, d.connected = true) ∧
      (s.tcp = none → rest = []) ∧ ∀ t, s.tcp = some t → rest <+: t.incoming ∧ t.sent <+: afterFrame s.inp req := by
  have hne : s.out ≠ [] := by
    rw [hout]
    intro e
    have := congrArg List.length e
    simp at this
  rcases session_explained hr hs with h | ⟨req, a, h1, h2, h3⟩
  · exact absurd h.2.2.2 hne
  cases a with
  | none => exact absurd h3.1 hne
  | some m =>
    obtain ⟨g1, g0, g2, g3⟩ := h3
    have hlm : (msgCodec.enc m).length ≤ 134217728 := by
      by_contra hc
      exact hne (g0 (by omega))
    have hok := trail_ok h2 hlm
    -- the frame written is the frame of the answer
    have key : ∀ tail, s.out <+: leBytes 8 (msgCodec.enc m).length ++ msgCodec.enc m ++ tail →
        resp = msgCodec.enc m ∧ rest <+: tail := by
      rintro tail ⟨x, hx⟩
      rw [hout, List.append_assoc (leBytes 8 resp.length ++ resp)] at hx
      obtain ⟨e1, e2⟩ := Net.frame_prefix (a := resp) (b := msgCodec.enc m) hl hlm hx
      exact ⟨e1, ⟨x, e2⟩⟩
    have hresp : resp = msgCodec.enc m := by
      cases ht : s.tcp with
      | none => exact (key [] (by rw [List.append_nil]; exact g2 ht)).1
      | some t => exact (key _ (g3 t ht).1).1
    have hread : ∀ ip, readAnswer resp = .ok ip ↔ m = .connectResponse ip := by
      intro ip
      unfold readAnswer
      rw [hresp, Borsh.tryFromSlice_enc lawful_msg hok]
      cases m <;> simp
    refine ⟨req, m, h1, h2, hresp, hread, ?_, ?_, ?_, ?_⟩
    · intro e
      unfold readAnswer
      rw [hresp, Borsh.tryFromSlice_enc lawful_msg hok]
      clear g1 g2 g3 hout hne hread key
      generalize s.queries = qs at *
      generalize s.dials = ds at *
      cases h2 <;> simp [addrParseError, eq_comm]
    · rw [exists_congr hread]
      clear g1 g2 g3 g0 hout hne hread key
      generalize s.queries = qs at *
      generalize s.dials = ds at *
      cases h2 <;> simp [addrParseError]
    · intro ht
      have := (key [] (by rw [List.append_nil]; exact g2 ht)).2
      exact List.prefix_nil.mp this
    · intro t ht
      exact ⟨(key _ (g3 t ht).1).2, (g3 t ht).2⟩

/-- C55: if the pipe was closed normally nothing is missing: the remote host got every byte that the enclave wrote after
the request, and the enclave side got the answer and every byte that the remote host sent. -/
theorem pipe_lossless (hr : Reachable A (Sys.start listeners max) σ) {s : Session Ip} (hs : s ∈ σ.sessions)
    (hc : s.task = .closed true) : Complete A (fun r key => σ.built[r]? = some key) s := by
  obtain ⟨j, hj⟩ := List.mem_iff_getElem?.mp hs
  have h := sysInv_reachable hr
  have := (h.sessions j s hj).2
  rw [hc] at this
  exact (this.2 rfl).mono fun r k hk => h.built k r hk

theorem trail_cached {config : Nat → Key Ip → Prop} {req : Bytes} {qs : List (Query Ip)} {ds : List (Dial Ip)} {a : Option Msg}
    (h : Trail A config req qs ds a) : ∀ q ∈ qs, ∃ k, config q.resolver k := by
  intro q hq
  cases h with
  | queryFailed hn t p rs dp ips r e1 e2 e3 => cases List.mem_singleton.mp hq; exact ⟨_, e3⟩
  | queryEmpty hn p rs dp ips r e1 e2 e3 => cases List.mem_singleton.mp hq; exact ⟨_, e3⟩
  | queried hn p rs dp ips r a as e1 e2 e3 => cases List.mem_singleton.mp hq; exact ⟨_, e3⟩
  | nameConnected hn p rs dp ips r a as e1 e2 e3 => cases List.mem_singleton.mp hq; exact ⟨_, e3⟩
  | nameRefused hn t p rs dp ips r a as e1 e2 e3 => cases List.mem_singleton.mp hq; exact ⟨_, e3⟩
  | _ => cases hq

/-- C55: sessions with the same resolver configuration use the same resolver, however they race for the cache. -/
theorem one_resolver_per_configuration (hr : Reachable A (Sys.start listeners max) σ) {s s' : Session Ip}
    (hs : s ∈ σ.sessions) (hs' : s' ∈ σ.sessions) {q q' : Query Ip} (hq : q ∈ s.queries) (hq' : q' ∈ s'.queries)
    (same : σ.built[q.resolver]? = σ.built[q'.resolver]?) : q.resolver = q'.resolver := by
  have h := sysInv_reachable hr
  have cached : ∀ {s : Session Ip} {q : Query Ip}, s ∈ σ.sessions → q ∈ s.queries → ∃ k, (k, q.resolver) ∈ σ.cache := by
    intro s q hs hq
    obtain ⟨j, hj⟩ := List.mem_iff_getElem?.mp hs
    rcases (h.sessions j s hj).explained with h | ⟨req, a, h1, h2, -⟩
    · rw [h.1] at hq; cases hq
    · exact trail_cached h2 q hq
  obtain ⟨k, hk⟩ := cached hs hq
  obtain ⟨k', hk'⟩ := cached hs' hq'
  have e1 := h.built _ _ hk
  have e2 := h.built _ _ hk'
  rw [← same, e1] at e2
  cases e2
  have := h.keys
  clear h same e1 hq hq' cached
  generalize σ.cache = c at *
  induction c with
  | nil => cases hk
  | cons x c ih =>
    rw [List.map_cons, List.nodup_cons] at this
    rcases List.mem_cons.mp hk with e | m
    · rcases List.mem_cons.mp hk' with e' | m'
      · rw [← e] at e'
        injection e' with _ e'
        exact e'.symm
      · exact absurd (List.mem_map.mpr ⟨_, m', by rw [← e]⟩) this.1
    · rcases List.mem_cons.mp hk' with e' | m'
      · exact absurd (List.mem_map.mpr ⟨_, m, by rw [← e']⟩) this.1
      · exact ih m m' this.2

/-- C55: a listener never serves more sessions than allowed. -/
theorem sessions_bounded (hr : Reachable A (Sys.start listeners max) σ) (l : Nat) (hl : l < listeners) : σ.serving l ≤ max := by
  have hlt : l < σ.gates.length := by rw [gates_length hr]; exact hl
  have := gateInv_reachable hr l _ (List.getElem?_eq_getElem hlt)
  show σ.sessions.countP (servedBy l) ≤ max
  omega

/-- C55: and while its accept loop runs and fewer are served, a waiting connection can be accepted. -/
theorem can_accept (hr : Reachable A (Sys.start listeners max) σ) (l : Nat) (hl : l < listeners) (room : σ.serving l < max)
    (running : ∀ g, σ.gates[l]? = some g → g.running = true) {j : Nat} {s : Session Ip} (hj : σ.sessions[j]? = some s)
    (hsl : s.listener = l) (hq : s.task = .queued) :
    ∃ σ', Reachable A σ σ' ∧ σ'.sessions[j]? = some { s with task := .reading [] } := by
  have hlt : l < σ.gates.length := by rw [gates_length hr]; exact hl
  have hg := List.getElem?_eq_getElem hlt
  generalize σ.gates[l] = g at hg
  have h := gateInv_reachable hr l g hg
  have hrun := running g hg
  have room : σ.sessions.countP (servedBy l) < max := room
  by_cases hh : g.held = true
  · exact ⟨_, .tail .refl (.accept σ l j g s hg hrun hh hj hsl hq), Net.set_get hj⟩
  · have hf : g.held = false := by simpa using hh
    rw [hf] at h
    obtain ⟨n, hn⟩ : ∃ n, g.permits = n + 1 := ⟨g.permits - 1, by simp at h; omega⟩
    have s1 := Step.permit (A := A) σ l n g hg hrun hf hn
    exact ⟨_, .tail (.tail .refl s1) (.accept _ l j ⟨n, true, true⟩ s (Net.set_get hg) rfl rfl hj hsl hq), Net.set_get hj⟩

/-- C55, recorded finding: one failed `accept` ends a listener for good: whoever waits there is never served (the socket
server of the enclave goes on in this case). -/
theorem failed_accept_is_final {l : Nat} {g : Gate} (hg : σ.gates[l]? = some g) (hrun : g.running = false)
    (hr : Reachable A σ σ') :
    (∃ g', σ'.gates[l]? = some g' ∧ g'.running = false) ∧
    ∀ (j : Nat) (s : Session Ip), σ.sessions[j]? = some s → s.listener = l → s.task = .queued →
      ∃ s', σ'.sessions[j]? = some s' ∧ s'.listener = l ∧ s'.task = .queued := by
  induction hr with
  | refl => exact ⟨⟨g, hg, hrun⟩, fun j s h1 h2 h3 => ⟨s, h1, h2, h3⟩⟩
  | @tail σ1 σ2 _ hs ih =>
    obtain ⟨⟨g1, hg1, hr1⟩, ih⟩ := ih
    -- one step
    have gates : ∀ (i : Nat) (g' : Gate), (∀ x, σ1.gates[i]? = some x → x.running = g'.running) →
        ∃ x, (σ1.gates.set i g')[l]? = some x ∧ x.running = false := by
      intro i g' he
      by_cases e : i = l
      · subst e
        exact ⟨_, Net.set_get hg1, by rw [← he g1 hg1]; exact hr1⟩
      · exact ⟨g1, by rw [Net.set_get_ne e]; exact hg1, hr1⟩
    have sess : ∀ (i : Nat) (t t' : Session Ip), σ1.sessions[i]? = some t →
        (t.listener = l → t.task = .queued → t'.listener = l ∧ t'.task = .queued) →
        ∀ (j : Nat) (s : Session Ip), σ1.sessions[j]? = some s → s.listener = l → s.task = .queued →
          ∃ s', (σ1.sessions.set i t')[j]? = some s' ∧ s'.listener = l ∧ s'.task = .queued := by
      intro i t t' hi ht j s hj h1 h2
      by_cases e : i = j
      · subst e
        rw [hi] at hj
        cases hj
        exact ⟨t', Net.set_get hi, (ht h1 h2).1, (ht h1 h2).2⟩
      · exact ⟨s, by rw [Net.set_get_ne e]; exact hj, h1, h2⟩
    have step : (∃ g', σ2.gates[l]? = some g' ∧ g'.running = false) ∧
        ∀ (j : Nat) (s : Session Ip), σ1.sessions[j]? = some s → s.listener = l → s.task = .queued →
          ∃ s', σ2.sessions[j]? = some s' ∧ s'.listener = l ∧ s'.task = .queued := by
      cases hs with
      | connect k => exact ⟨⟨g1, hg1, hr1⟩, fun j s hj h1 h2 => ⟨s, Net.snoc_get hj, h1, h2⟩⟩
      | permit k n g' hk hrk hh hp =>
        exact ⟨gates k _ (fun x hx => by rw [hk] at hx; cases hx; exact hrk), fun j s hj h1 h2 => ⟨s, hj, h1, h2⟩⟩
      | accept k i g' t hk hrk hh hi hl ht =>
        have hne : k ≠ l := by
          rintro rfl
          rw [hg1] at hk
          cases hk
          rw [hr1] at hrk
          cases hrk
        exact ⟨gates k _ (fun x hx => by rw [hk] at hx; cases hx; exact hrk),
          sess i t _ hi fun e => absurd (hl.symm.trans e) hne⟩
      | acceptFailed k g' hk hrk hh =>
        have hne : k ≠ l := by
          rintro rfl
          rw [hg1] at hk
          cases hk
          rw [hr1] at hrk
          cases hrk
        exact ⟨⟨g1, by show (σ1.gates.set k _)[l]? = _; rw [Net.set_get_ne hne]; exact hg1, hr1⟩,
          fun j s hj h1 h2 => ⟨s, hj, h1, h2⟩⟩
      | session i t t' hi hl =>
        exact ⟨⟨g1, hg1, hr1⟩, sess i t t' hi fun e1 e2 => ⟨hl.keeps.1.trans e1, hl.keeps.2.2 e2⟩⟩
      | found i r t hn p key hi ht hc => exact ⟨⟨g1, hg1, hr1⟩, sess i t _ hi fun _ e => by rw [ht] at e; cases e⟩
      | missing i t hn p key hi ht hc => exact ⟨⟨g1, hg1, hr1⟩, sess i t _ hi fun _ e => by rw [ht] at e; cases e⟩
      | insert i t hn p key hi ht =>
        rcases insert_cases σ1 key with ⟨r, hr, e⟩ | ⟨hn, e⟩ <;> rw [e] <;>
          exact ⟨⟨g1, hg1, hr1⟩, sess i t _ hi fun _ e => by rw [ht] at e; cases e⟩
      | finish i t up down g' hi ht hu hd hk =>
        exact ⟨gates _ _ (fun x hx => by rw [hk] at hx; cases hx; rfl), sess i t _ hi fun _ e => by rw [ht] at e; cases e⟩
      | missingConnection i t g' hi ht hh hk =>
        exact ⟨gates _ _ (fun x hx => by rw [hk] at hx; cases hx; rfl), sess i t _ hi fun _ e => by rw [ht] at e; cases e⟩
      | abort i t g' hi ht hk =>
        exact ⟨gates _ _ (fun x hx => by rw [hk] at hx; cases hx; rfl), sess i t _ hi fun _ e => by rw [e] at ht; cases ht⟩
    refine ⟨step.1, fun j s h1 h2 h3 => ?_⟩
    obtain ⟨s1, e1, e2, e3⟩ := ih j s h1 h2 h3
    exact step.2 j s1 e1 e2 e3

end Qos.Proxy
