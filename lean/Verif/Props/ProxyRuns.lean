import Verif.Props.Proxy
/-!
# C55: requests can be served, and connections closed without loss

From every reachable state: what was asked for can happen. These also show that the hypotheses of C55's other theorems are met.
-/
namespace Qos.Proxy
variable {Ip : Type} [DecidableEq Ip] {A : Addresses Ip} {listeners max : Nat} {σ σ' : Sys Ip}

/-- Several steps of one session. -/
inductive Runs (A : Addresses Ip) : Session Ip → Session Ip → Prop
  | refl (s : Session Ip) : Runs A s s
  | tail {s t u : Session Ip} : Runs A s t → Local A t u → Runs A s u

omit [DecidableEq Ip] in
theorem Runs.trans {s t u : Session Ip} (h : Runs A s t) (h' : Runs A t u) : Runs A s u := by
  induction h' with
  | refl => exact h
  | tail _ hs ih => exact ih.tail hs

theorem Reachable.trans {σ0 σ1 σ2 : Sys Ip} (h1 : Reachable A σ0 σ1) (h2 : Reachable A σ1 σ2) : Reachable A σ0 σ2 := by
  induction h2 with
  | refl => exact h1
  | tail _ hs ih => exact ih.tail hs

/-- They are steps of the proxy. -/
theorem Runs.reach {j : Nat} {s t : Session Ip} (h : Runs A s t) (hj : σ.sessions[j]? = some s) :
    Reachable A σ (σ.setSession j t) := by
  induction h with
  | refl =>
    have : σ.setSession j s = σ := by
      unfold Sys.setSession
      have : σ.sessions.set j s = σ.sessions := by
        apply List.ext_getElem?
        intro i
        by_cases e : j = i
        · subst e; rw [Net.set_get hj, hj]
        · rw [Net.set_get_ne e]
      rw [this]
    rw [this]
    exact .refl
  | @tail t u _ hs ih =>
    have : (σ.setSession j t).setSession j u = σ.setSession j u := by simp [Sys.setSession]
    rw [← this]
    exact ih.tail (.session _ j t u (Net.set_get hj) hs)

omit [DecidableEq Ip] in
/-- The request is read. -/
theorem runs_receive {s : Session Ip} {req : Bytes} (ht : s.task = .reading []) (h0 : s.inpRead = 0) (hf : FirstFrame s.inp req) :
    Runs A s { s with inpRead := 8 + req.length, task := .received req } := by
  obtain ⟨tail, htail⟩ := hf.2
  have hlen := hf.length
  have hsmall : req.length ≤ Stream.maxPayloadSize := hf.1
  have p0 : Net.progress [] = .more 8 := by decide
  have t8 : (s.inp.drop s.inpRead).take 8 = leBytes 8 req.length := by
    rw [h0, List.drop_zero, ← htail, List.append_assoc, List.take_append_of_le_length (by simp), List.take_of_length_le (by simp)]
  have s1 := Local.read (A := A) s [] 8 8 ht p0 (Nat.le_refl _) (by omega)
  rw [List.nil_append, t8, h0, Nat.zero_add] at s1
  have p1 : Net.progress (leBytes 8 req.length) = if 0 < req.length then .more req.length else .done [] := by
    unfold Net.progress
    rw [if_neg (by simp), List.take_of_length_le (by simp), Net.small_header hsmall, if_neg (by omega), leBytes_length]
    by_cases h : 0 < req.length
    · rw [if_pos h, if_pos (by omega)]
      congr 1
      omega
    · rw [if_neg h, if_neg (by omega), List.drop_eq_nil_of_le (by simp)]
  by_cases hpos : 0 < req.length
  · rw [if_pos hpos] at p1
    have s2 := Local.read (A := A) { s with inpRead := 8, task := .reading (leBytes 8 req.length) } (leBytes 8 req.length)
      req.length req.length rfl p1 (Nat.le_refl _) hlen
    have t2 : (s.inp.drop 8).take req.length = req := by
      rw [← htail, List.append_assoc, List.drop_append_of_le_length (by simp), List.drop_eq_nil_of_le (by simp),
        List.nil_append, List.take_append_of_le_length (Nat.le_refl _), List.take_length]
    simp only [t2] at s2
    have s3 := Local.receive (A := A) { s with inpRead := 8 + req.length, task := .reading (leBytes 8 req.length ++ req) }
      (leBytes 8 req.length ++ req) req rfl (Net.progress_frame hsmall)
    exact (((Runs.refl s).tail s1).tail s2).tail s3
  · have hnil : req = [] := List.eq_nil_of_length_eq_zero (by omega)
    subst hnil
    have s3 := Local.receive (A := A) { s with inpRead := 8, task := .reading (leBytes 8 0) } (leBytes 8 0) [] rfl p1
    exact ((Runs.refl s).tail s1).tail s3

omit [DecidableEq Ip] in
/-- The TCP connection is made, the answer is written, the pipe begins. -/
theorem runs_connect {s : Session Ip} {text : String} {a : Ip} {port : UInt16} (ht : s.task = .dialing text a port)
    (hl : (msgCodec.enc (.connectResponse text)).length ≤ 134217728) :
    Runs A s { s with dials := s.dials ++ [⟨a, port, true⟩], tcp := some .fresh, held := true,
                      out := s.out ++ Net.encode (msgCodec.enc (.connectResponse text)),
                      task := .piping ⟨[], false, false⟩ ⟨[], false, false⟩ } := by
  have s1 := Local.connected (A := A) s text a port ht
  have s2 := Local.reply (A := A) (s.connected text a port) (.connectResponse text) rfl hl
  have s3 := Local.write (A := A) { s.connected text a port with task := .writing (Net.encode (msgCodec.enc (.connectResponse text))) }
    (Net.encode (msgCodec.enc (.connectResponse text))) (Net.encode (msgCodec.enc (.connectResponse text))).length rfl
  rw [List.take_length, List.drop_length] at s3
  have s4 := Local.answered (A := A) { s.connected text a port with
    out := s.out ++ Net.encode (msgCodec.enc (.connectResponse text)), task := .writing [] } rfl rfl
  exact ((((Runs.refl s).tail s1).tail s2).tail s3).tail s4

/-- C55: an accepted session that has sent a request for an address can get its connection: exactly that one, and with the
pipe open. -/
theorem address_can_be_reached (hr : Reachable A (Sys.start listeners max) σ) {j : Nat} {s : Session Ip}
    (hj : σ.sessions[j]? = some s) (ht : s.task = .reading []) {req : Bytes} (h0 : s.inpRead = 0) (hf : FirstFrame s.inp req)
    {ip : String} {port : UInt16} (he : Encodes req (.connectByIp ip port)) {a : Ip} (hp : A.parse ip = some a) :
    ∃ σ' s', Reachable A σ σ' ∧ σ'.sessions[j]? = some s' ∧ s'.dials = [⟨a, port, true⟩] ∧ s'.inp = s.inp ∧
      s'.out = Net.encode (msgCodec.enc (.connectResponse ip)) ∧ s'.tcp = some .fresh ∧ s'.clientOpen = s.clientOpen ∧
      s'.listener = s.listener ∧ σ'.gates = σ.gates ∧ ∃ up down, s'.task = .piping up down := by
  have hst := ((sysInv_reachable hr).sessions j s hj).2
  rw [ht] at hst
  obtain ⟨hb1, hb2, hb3, hb4, hb5⟩ := hst.1
  have hl : (msgCodec.enc (.connectResponse ip)).length ≤ 134217728 := by
    have h1 := hf.1
    rw [he.1] at h1
    have e1 : msgCodec.enc (.connectByIp ip port) = 4 :: (Borsh.string.enc ip ++ Borsh.u16.enc port) := rfl
    have e2 : msgCodec.enc (.connectResponse ip) = 5 :: Borsh.string.enc ip := rfl
    rw [e1, List.length_cons, List.length_append] at h1
    rw [e2, List.length_cons]
    omega
  have hdisp : (dispatch A req).next = .dialing ip a port := by
    unfold dispatch
    rw [if_neg hf.readable, decode_iff.mpr he]
    show (byIp A ip port).next = _
    unfold byIp
    rw [hp]
    rfl
  have r1 := (runs_receive (A := A) ht h0 hf)
  have s2 := Local.dispatch (A := A) { s with inpRead := 8 + req.length, task := .received req } req rfl
  rw [hdisp] at s2
  have r3 := runs_connect (A := A) (s := { s with inpRead := 8 + req.length, task := .dialing ip a port }) rfl hl
  have r := (r1.tail s2).trans r3
  refine ⟨_, _, r.reach hj, Net.set_get hj, ?_, rfl, ?_, rfl, rfl, rfl, rfl, _, _, rfl⟩
  · show s.dials ++ _ = _
    rw [hb2]
    rfl
  · show s.out ++ _ = _
    rw [hb5]
    rfl

/-- C55: the same by name: the requested resolvers are asked, and the first address they give is dialled. -/
theorem name_can_be_reached (hr : Reachable A (Sys.start listeners max) σ) {j : Nat} {s : Session Ip}
    (hj : σ.sessions[j]? = some s) (ht : s.task = .reading []) {req : Bytes} (h0 : s.inpRead = 0) (hf : FirstFrame s.inp req)
    {hostname : String} {port dp : UInt16} {rs : List String} (he : Encodes req (.connectByName hostname port rs dp))
    {ips : List Ip} (hp : AllParse A rs ips) (a : Ip) (more : List Ip)
    (hl : (msgCodec.enc (.connectResponse (A.text a))).length ≤ 134217728) :
    ∃ σ' s' r, Reachable A σ σ' ∧ σ'.sessions[j]? = some s' ∧ σ'.built[r]? = some (ips, dp) ∧
      s'.queries = [⟨r, hostname, some (a :: more)⟩] ∧ s'.dials = [⟨a, port, true⟩] ∧ s'.inp = s.inp ∧
      s'.out = Net.encode (msgCodec.enc (.connectResponse (A.text a))) ∧ ∃ up down, s'.task = .piping up down := by
  have hst := ((sysInv_reachable hr).sessions j s hj).2
  rw [ht] at hst
  obtain ⟨hb1, hb2, hb3, hb4, hb5⟩ := hst.1
  have hdisp : (dispatch A req).next = .seeking hostname port (ips, dp) := by
    unfold dispatch
    rw [if_neg hf.readable, decode_iff.mpr he]
    show (byName A hostname port rs dp).next = _
    unfold byName
    rw [mapM_parse_some.mpr hp]
    rfl
  have r1 := (runs_receive (A := A) ht h0 hf)
  have s2 := Local.dispatch (A := A) { s with inpRead := 8 + req.length, task := .received req } req rfl
  rw [hdisp] at s2
  have reach1 := (r1.tail s2).reach (σ := σ) hj
  -- a resolver is found or built
  have hres : ∃ σ2 r, Reachable A σ σ2 ∧ σ2.sessions[j]? = some { s with inpRead := 8 + req.length, task := .querying hostname port r } := by
    cases hc : σ.cache.lookup ((ips, dp) : Key Ip) with
    | some r =>
      exact ⟨_, r, reach1.tail (.found _ j r _ hostname port (ips, dp) (Net.set_get hj) rfl hc),
        Net.set_get (Net.set_get hj)⟩
    | none =>
      have m1 := Step.missing (A := A) (σ.setSession j { s with inpRead := 8 + req.length, task := Task.seeking hostname port (ips, dp) }) j
        { s with inpRead := 8 + req.length, task := Task.seeking hostname port (ips, dp) } hostname port (ips, dp) (Net.set_get hj) rfl hc
      have reach2 := reach1.tail m1
      have g : ((σ.setSession j { s with inpRead := 8 + req.length, task := Task.seeking hostname port (ips, dp) }).setSession j
          { s with inpRead := 8 + req.length, task := Task.building hostname port (ips, dp) }).sessions[j]? = some
          { s with inpRead := 8 + req.length, task := Task.building hostname port (ips, dp) } := Net.set_get (Net.set_get hj)
      have m2 := Step.insert (A := A) ((σ.setSession j { s with inpRead := 8 + req.length, task := Task.seeking hostname port (ips, dp) }).setSession j
          { s with inpRead := 8 + req.length, task := Task.building hostname port (ips, dp) }) j
          { s with inpRead := 8 + req.length, task := Task.building hostname port (ips, dp) } hostname port (ips, dp) g rfl
      refine ⟨_, _, reach2.tail m2, Net.set_get (a := { s with inpRead := 8 + req.length, task := .querying hostname port _ }) (b := { s with inpRead := 8 + req.length, task := Task.building hostname port (ips, dp) }) ?_⟩
      rcases insert_cases ((σ.setSession j { s with inpRead := 8 + req.length, task := Task.seeking hostname port (ips, dp) }).setSession j
          { s with inpRead := 8 + req.length, task := Task.building hostname port (ips, dp) }) (ips, dp) with ⟨r, -, e⟩ | ⟨-, e⟩ <;>
        rw [e] <;> exact g
  obtain ⟨σ2, r, reach2, hj2⟩ := hres
  have s4 := Local.query (A := A) { s with inpRead := 8 + req.length, task := .querying hostname port r } hostname "" port r
    (some (a :: more)) rfl
  have r5 := runs_connect (A := A) (s := { s with inpRead := 8 + req.length, queries := s.queries ++ [⟨r, hostname, some (a :: more)⟩],
                                                  task := .dialing (A.text a) a port }) rfl hl
  have rr := ((Runs.refl _).tail s4).trans r5
  have reach3 := reach2.trans (rr.reach hj2)
  have hmem := Net.set_get (a := ({ s with
      inpRead := 8 + req.length, queries := s.queries ++ [⟨r, hostname, some (a :: more)⟩],
      dials := s.dials ++ [⟨a, port, true⟩], tcp := some .fresh, held := true,
      out := s.out ++ Net.encode (msgCodec.enc (.connectResponse (A.text a))),
      task := .piping ⟨[], false, false⟩ ⟨[], false, false⟩ } : Session Ip)) hj2
  have hq := (queries_only_what_was_asked (hr.trans reach3) (List.mem_of_getElem? hmem)).2 ⟨r, hostname, some (a :: more)⟩
    (List.mem_append_right _ (List.mem_singleton.mpr rfl))
  obtain ⟨req', port', rs', dp', ips', f1, f2, f3, f4⟩ := hq
  have e1 := FirstFrame.unique f1 hf
  subst e1
  have e2 := Encodes.unique f2 he
  cases e2
  have e3 : ips' = ips := by
    have := f3.symm.trans hp
    exact List.map_injective_iff.mpr (Option.some_injective _) this
  subst e3
  refine ⟨_, _, r, reach3, hmem, f4, ?_, ?_, rfl, ?_, _, _, rfl⟩
  · show s.queries ++ _ = _
    rw [hb1]
    rfl
  · show s.dials ++ _ = _
    rw [hb2]
    rfl
  · show s.out ++ _ = _
    rw [hb5]
    rfl

/-- C55: once both ends have closed, the pipe can finish; so by `pipe_lossless` with nothing missing. -/
theorem pipe_can_finish (hr : Reachable A (Sys.start listeners max) σ) {j : Nat} {s : Session Ip} {t : Tcp} {up down : Half}
    (hj : σ.sessions[j]? = some s) (ht : s.task = .piping up down) (htcp : s.tcp = some t) (hc : s.clientOpen = false)
    (hro : t.remoteOpen = false) {g : Gate} (hg : σ.gates[s.listener]? = some g) :
    ∃ σ' s', Reachable A σ σ' ∧ σ'.sessions[j]? = some s' ∧ s'.task = .closed true ∧ s'.inp = s.inp ∧ s'.dials = s.dials ∧
      ∃ t', s'.tcp = some t' ∧ t'.incoming = t.incoming := by
  obtain ⟨h0, hst⟩ := (sysInv_reachable hr).sessions j s hj
  rw [ht] at hst
  obtain ⟨req, m, t', h2, h3, h4, h5, h6, ⟨h7, h8, h9⟩, h10, h11, h12, h13⟩ := hst
  rw [htcp] at h6
  cases h6
  -- everything from the enclave is read
  have step1 : ∃ s1 : Session Ip, ∃ p1, Runs A s s1 ∧ s1.task = .piping ⟨p1, up.eof, up.done⟩ down ∧ s1.inpRead = s1.inp.length ∧
      s1.inp = s.inp ∧ s1.dials = s.dials ∧ s1.tcp = s.tcp ∧ s1.clientOpen = false ∧ s1.listener = s.listener := by
    cases hu : up.eof with
    | true => exact ⟨s, up.pending, .refl s, by rw [ht, ← hu], (h8 hu).2, rfl, rfl, rfl, hc, rfl⟩
    | false =>
      have := Local.upRead (A := A) s up down (s.inp.length - s.inpRead) ht hu (by omega)
      exact ⟨_, _, (Runs.refl s).tail this, by rw [hu], by
        show s.inpRead + (s.inp.length - s.inpRead) = s.inp.length
        omega, rfl, rfl, rfl, hc, rfl⟩
  obtain ⟨s1, p1, r1, t1, i1, e1, d1, c1, o1, l1⟩ := step1
  have st2 := Local.upEof (A := A) s1 _ down t1 o1 i1
  have st3 := Local.upWrite (A := A) { s1 with task := .piping ⟨p1, true, up.done⟩ down } ⟨p1, true, up.done⟩ down t p1.length rfl
    (c1.trans htcp)
  rw [List.take_length, List.drop_length] at st3
  have st4 := Local.upDone (A := A) { s1 with tcp := some { t with sent := t.sent ++ p1 }, task := .piping ⟨[], true, up.done⟩ down }
    ⟨[], true, up.done⟩ down { t with sent := t.sent ++ p1 } rfl rfl rfl rfl
  -- everything from the remote host is read
  have step5 : ∃ s2 : Session Ip, ∃ p2 t2, Runs A s1 s2 ∧ s2.task = .piping ⟨[], true, true⟩ ⟨p2, down.eof, down.done⟩ ∧ s2.tcp = some t2 ∧
      t2.taken = t2.incoming.length ∧ t2.remoteOpen = false ∧ t2.incoming = t.incoming ∧ s2.inp = s1.inp ∧ s2.dials = s1.dials ∧ s2.listener = s1.listener := by
    have base := (((Runs.refl s1).tail st2).tail st3).tail st4
    cases hd : down.eof with
    | true =>
      refine ⟨_, down.pending, { t with sent := t.sent ++ p1, shut := true }, base, ?_, rfl, ?_, hro, rfl, rfl, rfl, rfl⟩
      · rw [← hd]
      · exact (h12 hd).2
    | false =>
      have := Local.downRead (A := A) { s1 with tcp := some { t with sent := t.sent ++ p1, shut := true }, task := .piping ⟨[], true, true⟩ down }
        ⟨[], true, true⟩ down { t with sent := t.sent ++ p1, shut := true } (t.incoming.length - t.taken) rfl hd rfl
        (by show t.taken + _ ≤ t.incoming.length; omega)
      refine ⟨_, down.pending ++ (t.incoming.drop t.taken).take (t.incoming.length - t.taken), { t with sent := t.sent ++ p1, shut := true, taken := t.taken + (t.incoming.length - t.taken) }, base.tail this, ?_, rfl, ?_, hro, rfl, rfl, rfl, rfl⟩
      · rw [← hd]
      · show t.taken + (t.incoming.length - t.taken) = t.incoming.length
        omega
  obtain ⟨s2, p2, t2, r2, tk2, tc2, n2, ro2, in2, e2, d2, l2⟩ := step5
  have st6 := Local.downEof (A := A) s2 _ _ t2 tk2 tc2 ro2 n2
  have st7 := Local.downWrite (A := A) { s2 with task := .piping ⟨[], true, true⟩ ⟨p2, true, down.done⟩ } ⟨[], true, true⟩
    ⟨p2, true, down.done⟩ p2.length rfl
  rw [List.take_length, List.drop_length] at st7
  have st8 := Local.downDone (A := A) { s2 with out := s2.out ++ p2, task := .piping ⟨[], true, true⟩ ⟨[], true, down.done⟩ }
    ⟨[], true, true⟩ ⟨[], true, down.done⟩ rfl rfl rfl
  have rr := ((((r1.trans r2).tail st6).tail st7).tail st8)
  have hl : ({ s2 with out := s2.out ++ p2, outShut := true, task := .piping ⟨[], true, true⟩ ⟨[], true, true⟩ } : Session Ip).listener =
      s.listener := l2.trans l1
  have fin := Step.finish (A := A) (σ.setSession j { s2 with out := s2.out ++ p2, outShut := true, task := .piping ⟨[], true, true⟩ ⟨[], true, true⟩ }) j
    { s2 with out := s2.out ++ p2, outShut := true, task := .piping ⟨[], true, true⟩ ⟨[], true, true⟩ }
    ⟨[], true, true⟩ ⟨[], true, true⟩ g (Net.set_get hj) rfl rfl rfl (by
    show σ.gates[_]? = _
    rw [hl]
    exact hg)
  exact ⟨_, _, (rr.reach hj).tail fin, Net.set_get (Net.set_get hj), rfl, e2.trans e1, d2.trans d1, t2, tc2, in2⟩

/-! ## A concrete session -/

/-- Addresses are numbers; one text is one. -/
def toyAddresses : Addresses Nat where
  parse s := if s = "1.2.3.4" then some 7 else none
  text _ := "1.2.3.4"

/-- A session that asks for port 443 of that address and writes `[1, 2, 3]` is connected, gets `[9, 9]` back and ends
normally; the remote host has got exactly `[1, 2, 3]`. -/
theorem toy_session : ∃ σ : Sys Nat, ∃ s, Reachable toyAddresses (Sys.start 1 1) σ ∧ s ∈ σ.sessions ∧ s.task = .closed true ∧
    s.dials = [⟨7, 443, true⟩] ∧ (∃ t, s.tcp = some t ∧ t.sent = [1, 2, 3] ∧ t.incoming = [9, 9]) ∧
    s.out = Net.encode (msgCodec.enc (.connectResponse "1.2.3.4")) ++ [9, 9] := by
  obtain ⟨req, hreq⟩ : ∃ req, req = ipRequest "1.2.3.4" 443 := ⟨_, rfl⟩
  have he : Encodes req (.connectByIp "1.2.3.4" 443) := ⟨hreq, by
    show (utf8 "1.2.3.4").length < 2 ^ 32 ∧ (443 : UInt16).toNat < 256 ^ 2
    decide⟩
  have hlen : req.length = 14 := by rw [hreq]; decide
  obtain ⟨inp, hinp⟩ : ∃ inp, inp = leBytes 8 req.length ++ req ++ [1, 2, 3] := ⟨_, rfl⟩
  have hf : FirstFrame inp req := ⟨by omega, [1, 2, 3], hinp.symm⟩
  have haf : afterFrame inp req = [1, 2, 3] := by
    unfold afterFrame
    rw [hinp, List.drop_append_of_le_length (by simp), List.drop_eq_nil_of_le (by simp)]
    rfl
  -- connect, write, accept
  have a1 := Step.connect (A := toyAddresses) (Sys.start 1 1) 0
  have a2 := Step.session (A := toyAddresses) { Sys.start (Ip := Nat) 1 1 with sessions := [.fresh 0] } 0 (.fresh 0)
    _ rfl (.clientWrite (.fresh 0) inp rfl)
  have a3 := Step.permit (A := toyAddresses) { Sys.start (Ip := Nat) 1 1 with sessions := [{ Session.fresh 0 with inp := inp }] } 0 0
    ⟨1, false, true⟩ rfl rfl rfl rfl
  have a4 := Step.accept (A := toyAddresses) ⟨[{ Session.fresh 0 with inp := inp }], [⟨0, true, true⟩], [], []⟩ 0 0 ⟨0, true, true⟩
    { Session.fresh 0 with inp := inp } rfl rfl rfl rfl rfl rfl
  have r0 : Reachable toyAddresses (Sys.start 1 1) ⟨[{ Session.fresh 0 with inp := inp, task := .reading [] }], [⟨0, false, true⟩], [], []⟩ :=
    (((Reachable.refl.tail a1).tail a2).tail a3).tail a4
  obtain ⟨σ1, s1, r1, g1, d1, i1, -, c1, -, l1, w1, up, down, t1⟩ := address_can_be_reached r0 (j := 0) rfl rfl rfl hf he
    (a := 7) rfl
  have r1 := r0.trans r1
  -- the remote host sends, both close
  have st1 := Local.remoteSend (A := toyAddresses) s1 .fresh [9, 9] c1 rfl
  have st2 := Local.remoteClose (A := toyAddresses) { s1 with tcp := some ⟨[], false, [9, 9], 0, true⟩ } ⟨[], false, [9, 9], 0, true⟩ rfl
  have st3 := Local.clientClose (A := toyAddresses) { s1 with tcp := some ⟨[], false, [9, 9], 0, false⟩ }
  have r2 := r1.trans ((((Runs.refl s1).tail st1).tail st2 |>.tail st3).reach g1)
  obtain ⟨σ3, s3, r3, g3, t3, i3, d3, t, tc3, in3⟩ := pipe_can_finish r2 (j := 0)
    (s := { s1 with tcp := some ⟨[], false, [9, 9], 0, false⟩, clientOpen := false }) (t := ⟨[], false, [9, 9], 0, false⟩)
    (Net.set_get g1) t1 rfl rfl rfl (g := ⟨0, false, true⟩) (by
      show σ1.gates[s1.listener]? = _
      rw [w1, l1]
      rfl)
  have r3 := r2.trans r3
  obtain ⟨req', m, t', f1, f2, f3, -, -, f4, -, f5⟩ := pipe_lossless r3 (List.mem_of_getElem? g3) t3
  have e0 : s3.inp = inp := i3.trans i1
  rw [e0] at f1 f4
  have e1 := FirstFrame.unique f1 hf
  subst e1
  rw [tc3] at f3
  cases f3
  have e2 : s3.dials = [⟨7, 443, true⟩] := d3.trans d1
  rw [e2] at f2
  have e3 : m = .connectResponse "1.2.3.4" := by
    generalize s3.queries = qs at f2
    generalize hd : [(⟨7, 443, true⟩ : Dial Nat)] = ds at f2
    generalize hm : some m = om at f2
    cases f2 with
    | ipConnected ip port a he' _ =>
      have := Encodes.unique he' he
      cases this
      exact Option.some.inj hm
    | nameConnected h port rs dp ips r a as he' =>
      exact nomatch Encodes.unique he' he
    | _ => simp at hd
  subst e3
  refine ⟨σ3, s3, r3, List.mem_of_getElem? g3, t3, e2, ⟨t, tc3, f4.trans haf, in3⟩, ?_⟩
  rw [f5, in3]
  rfl

end Qos.Proxy
