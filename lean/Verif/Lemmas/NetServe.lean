import Verif.Lemmas.Net
/-!
# Lemmas: what the server reads, processes and writes on each connection
-/
namespace Qos.Net
open Stream (frame wire maxPayloadSize)

variable {S : Type}

theorem onConn_append (a b : List Entry) (j : Nat) : onConn (a ++ b) j = onConn a j ++ onConn b j := by
  simp [onConn]

/-- Requests and responses of entries. -/
abbrev reqs (es : List Entry) : List Bytes := es.map (·.req)
abbrev resps (es : List Entry) : List Bytes := es.map (·.resp)

theorem resps_append (a b : List Entry) : resps (a ++ b) = resps a ++ resps b := List.map_append

/-- Facts about one connection, by the place of its task. -/
inductive ServeOk (es : List Entry) : Conn S → Prop
  | queued {c : Conn S} : c.serve = .queued → c.inpRead = 0 → c.out = [] → es = [] → ServeOk es c
  | reading {c : Conn S} (buf : Bytes) : c.serve = .reading buf → Fits buf → c.inpRead ≤ c.inp.length →
      c.inp.take c.inpRead = wire (reqs es) ++ buf → c.out = wire (resps es) → Small (reqs es) → Small (resps es) →
      ServeOk es c
  | received {c : Conn S} (req : Bytes) : (c.serve = .received req ∨ ∃ resp s', c.serve = .handling req resp s') →
      c.inpRead ≤ c.inp.length → c.inp.take c.inpRead = wire (reqs es ++ [req]) → c.out = wire (resps es) →
      Small (reqs es ++ [req]) → Small (resps es) → ServeOk es c
  | replying {c : Conn S} (es0 : List Entry) (e : Entry) : c.serve = .replying e.resp → c.inpRead ≤ c.inp.length →
      es = es0 ++ [e] → c.inp.take c.inpRead = wire (reqs es) → c.out = wire (resps es0) → Small (reqs es) →
      Small (resps es0) → ServeOk es c
  | writing {c : Conn S} (rest : Bytes) : c.serve = .writing rest → c.inpRead ≤ c.inp.length →
      c.inp.take c.inpRead = wire (reqs es) → c.out ++ rest = wire (resps es) → Small (reqs es) → Small (resps es) →
      ServeOk es c
  | closed {c : Conn S} (n : Nat) : c.serve = .closed → c.inpRead ≤ c.inp.length →
      wire (reqs es) <+: c.inp.take c.inpRead → c.out <+: wire ((resps es).take n) → Small (reqs es) →
      Small ((resps es).take n) → ServeOk es c

/-- What holds at every place. -/
theorem ServeOk.facts {es : List Entry} {c : Conn S} (h : ServeOk es c) :
    wire (reqs es) <+: c.inp ∧ Small (reqs es) ∧ ∃ n, c.out <+: wire ((resps es).take n) ∧ Small ((resps es).take n) := by
  have tp : c.inp.take c.inpRead <+: c.inp := List.take_prefix _ _
  have all : ∀ {l : List Bytes}, l.take l.length = l := List.take_length
  cases h with
  | queued h1 h2 h3 h4 =>
    subst h4
    exact ⟨List.nil_prefix, by intro m hm; simp at hm, 0, by rw [h3]; exact List.nil_prefix, by intro m hm; simp at hm⟩
  | reading buf h1 h2 h3 h4 h5 h6 h7 =>
    refine ⟨(List.prefix_append _ _).trans (h4 ▸ tp), h6, (resps es).length, ?_, ?_⟩
    · rw [all, h5]; exact List.prefix_rfl
    · rw [all]; exact h7
  | received req h1 h2 h3 h4 h5 h6 =>
    rw [wire_append] at h3
    refine ⟨(List.prefix_append _ _).trans (h3 ▸ tp), fun m hm => h5 m (by simp only [List.mem_append]; exact .inl hm),
      (resps es).length, ?_, ?_⟩
    · rw [all, h4]; exact List.prefix_rfl
    · rw [all]; exact h6
  | replying es0 e h1 h2 h3 h4 h5 h6 h7 =>
    refine ⟨h4 ▸ tp, h6, (resps es0).length, ?_, ?_⟩
    · subst h3
      rw [h5, resps_append, List.take_append_of_le_length (by simp), all]
      exact List.prefix_rfl
    · subst h3
      rw [resps_append, List.take_append_of_le_length (by simp), all]
      exact h7
  | writing rest h1 h2 h3 h4 h5 h6 =>
    refine ⟨h3 ▸ tp, h5, (resps es).length, ?_, ?_⟩
    · rw [all, ← h4]; exact List.prefix_append _ _
    · rw [all]; exact h6
  | closed n h1 h2 h3 h4 h5 h6 => exact ⟨h3.trans tp, h5, n, h4, h6⟩

theorem take_append_le {a b : Bytes} {n : Nat} (h : n ≤ a.length) : (a ++ b).take n = a.take n :=
  List.take_append_of_le_length h

/-- The facts survive each change. -/
theorem ServeOk.change {P : Processor S} {j : Nat} {es new : List Entry} {d d' : Conn S} (h : ServeOk es d)
    (hc : ConnChange P j d d' new) : ServeOk (es ++ new) d' := by
  cases hc with
  | input bytes =>
    rw [List.append_nil]
    cases h with
    | queued h1 h2 h3 h4 => exact .queued h1 h2 h3 h4
    | reading buf h1 h2 h3 h4 h5 h6 h7 =>
      exact .reading buf h1 h2 (by simp; omega) (by simp only; rw [take_append_le h3]; exact h4) h5 h6 h7
    | received req h1 h2 h3 h4 h5 h6 =>
      exact .received req h1 (by simp; omega) (by simp only; rw [take_append_le h2]; exact h3) h4 h5 h6
    | replying es0 e h1 h2 h3 h4 h5 h6 h7 =>
      exact .replying es0 e h1 (by simp; omega) h3 (by simp only; rw [take_append_le h2]; exact h4) h5 h6 h7
    | writing rest h1 h2 h3 h4 h5 h6 =>
      exact .writing rest h1 (by simp; omega) (by simp only; rw [take_append_le h2]; exact h3) h4 h5 h6
    | closed n h1 h2 h3 h4 h5 h6 =>
      exact .closed n h1 (by simp; omega) (by simp only; rw [take_append_le h2]; exact h3) h4 h5 h6
  | output n =>
    rw [List.append_nil]
    cases h with
    | queued h1 h2 h3 h4 => exact .queued h1 h2 h3 h4
    | reading buf h1 h2 h3 h4 h5 h6 h7 => exact .reading buf h1 h2 h3 h4 h5 h6 h7
    | received req h1 h2 h3 h4 h5 h6 => exact .received req h1 h2 h3 h4 h5 h6
    | replying es0 e h1 h2 h3 h4 h5 h6 h7 => exact .replying es0 e h1 h2 h3 h4 h5 h6 h7
    | writing rest h1 h2 h3 h4 h5 h6 => exact .writing rest h1 h2 h3 h4 h5 h6
    | closed n h1 h2 h3 h4 h5 h6 => exact .closed n h1 h2 h3 h4 h5 h6
  | close b =>
    rw [List.append_nil]
    cases h with
    | queued h1 h2 h3 h4 => exact .queued h1 h2 h3 h4
    | reading buf h1 h2 h3 h4 h5 h6 h7 => exact .reading buf h1 h2 h3 h4 h5 h6 h7
    | received req h1 h2 h3 h4 h5 h6 => exact .received req h1 h2 h3 h4 h5 h6
    | replying es0 e h1 h2 h3 h4 h5 h6 h7 => exact .replying es0 e h1 h2 h3 h4 h5 h6 h7
    | writing rest h1 h2 h3 h4 h5 h6 => exact .writing rest h1 h2 h3 h4 h5 h6
    | closed n h1 h2 h3 h4 h5 h6 => exact .closed n h1 h2 h3 h4 h5 h6
  | accept hq =>
    rw [List.append_nil]
    cases h with
    | queued h1 h2 h3 h4 =>
      subst h4
      exact .reading [] rfl fits_nil (by simp [h2]) (by simp [h2, wire]) (by simp [h3, wire]) (by intro m hm; simp at hm)
        (by intro m hm; simp at hm)
    | reading buf h1 => rw [hq] at h1; cases h1
    | received req h1 => rw [hq] at h1; rcases h1 with h1 | ⟨_, _, h1⟩ <;> cases h1
    | replying es0 e h1 => rw [hq] at h1; cases h1
    | writing rest h1 => rw [hq] at h1; cases h1
    | closed n h1 => rw [hq] at h1; cases h1
  | read n m buf hr hp hn hb =>
    rw [List.append_nil]
    cases h with
    | queued h1 => rw [hr] at h1; cases h1
    | reading buf' h1 h2 h3 h4 h5 h6 h7 =>
      rw [hr] at h1
      injection h1 with h1
      subst h1
      refine .reading _ rfl (fits_more hp (by rw [List.length_take]; omega)) (by simpa using hb) ?_ h5 h6 h7
      simp only
      rw [← List.append_assoc, ← h4, List.take_add]
    | received req h1 => rw [hr] at h1; rcases h1 with h1 | ⟨_, _, h1⟩ <;> cases h1
    | replying es0 e h1 => rw [hr] at h1; cases h1
    | writing rest h1 => rw [hr] at h1; cases h1
    | closed n h1 => rw [hr] at h1; cases h1
  | received buf req hr hp =>
    rw [List.append_nil]
    cases h with
    | queued h1 => rw [hr] at h1; cases h1
    | reading buf' h1 h2 h3 h4 h5 h6 h7 =>
      rw [hr] at h1
      injection h1 with h1
      subst h1
      obtain ⟨rfl, hs⟩ := progress_done h2 hp
      refine .received req (.inl rfl) h3 ?_ h5 ?_ h7
      · simp only
        rw [h4, wire_append, wire_single]
      · intro m hm
        rcases List.mem_append.1 hm with hm | hm
        · exact h6 m hm
        · rw [List.mem_singleton] at hm; rw [hm]; exact hs
    | received req h1 => rw [hr] at h1; rcases h1 with h1 | ⟨_, _, h1⟩ <;> cases h1
    | replying es0 e h1 => rw [hr] at h1; cases h1
    | writing rest h1 => rw [hr] at h1; cases h1
    | closed n h1 => rw [hr] at h1; cases h1
  | lock req resp s' hr =>
    rw [List.append_nil]
    cases h with
    | queued h1 => rw [hr] at h1; cases h1
    | reading buf' h1 => rw [hr] at h1; cases h1
    | received req' h1 h2 h3 h4 h5 h6 =>
      rw [hr] at h1
      rcases h1 with h1 | ⟨_, _, h1⟩
      · injection h1 with h1
        subst h1
        exact .received req (.inr ⟨resp, s', rfl⟩) h2 h3 h4 h5 h6
      · cases h1
    | replying es0 e h1 => rw [hr] at h1; cases h1
    | writing rest h1 => rw [hr] at h1; cases h1
    | closed n h1 => rw [hr] at h1; cases h1
  | answer req resp hr =>
    cases h with
    | queued h1 => rcases hr with hr | ⟨_, hr⟩ <;> rw [hr] at h1 <;> cases h1
    | reading buf' h1 => rcases hr with hr | ⟨_, hr⟩ <;> rw [hr] at h1 <;> cases h1
    | received req' h1 h2 h3 h4 h5 h6 =>
      have : req' = req := by
        rcases hr with hr | ⟨_, hr⟩ <;> rw [hr] at h1 <;> rcases h1 with h1 | ⟨_, _, h1⟩ <;> cases h1 <;> rfl
      subst this
      exact .replying es ⟨j, req', resp⟩ rfl h2 rfl (by simp only [List.map_append, List.map_cons, List.map_nil]; exact h3)
        h4 (by simpa using h5) h6
    | replying es0 e h1 => rcases hr with hr | ⟨_, hr⟩ <;> rw [hr] at h1 <;> cases h1
    | writing rest h1 => rcases hr with hr | ⟨_, hr⟩ <;> rw [hr] at h1 <;> cases h1
    | closed n h1 => rcases hr with hr | ⟨_, hr⟩ <;> rw [hr] at h1 <;> cases h1
  | begin resp hr hs =>
    rw [List.append_nil]
    cases h with
    | queued h1 => rw [hr] at h1; cases h1
    | reading buf' h1 => rw [hr] at h1; cases h1
    | received req h1 => rw [hr] at h1; rcases h1 with h1 | ⟨_, _, h1⟩ <;> cases h1
    | replying es0 e h1 h2 h3 h4 h5 h6 h7 =>
      rw [hr] at h1
      injection h1 with h1
      subst h1
      subst h3
      refine .writing (encode e.resp) rfl h2 h4 ?_ h6 ?_
      · simp only
        rw [h5, encode_eq, resps_append, wire_append]
        show _ = wire _ ++ wire [e.resp]
        rw [wire_single]
      · intro m hm
        rw [resps_append] at hm
        rcases List.mem_append.1 hm with hm | hm
        · exact h7 m hm
        · simp at hm; rw [hm]; exact hs
    | writing rest h1 => rw [hr] at h1; cases h1
    | closed n h1 => rw [hr] at h1; cases h1
  | write n rest hr =>
    rw [List.append_nil]
    cases h with
    | queued h1 => rw [hr] at h1; cases h1
    | reading buf' h1 => rw [hr] at h1; cases h1
    | received req h1 => rw [hr] at h1; rcases h1 with h1 | ⟨_, _, h1⟩ <;> cases h1
    | replying es0 e h1 => rw [hr] at h1; cases h1
    | writing rest' h1 h2 h3 h4 h5 h6 =>
      rw [hr] at h1
      injection h1 with h1
      subst h1
      refine .writing (rest.drop n) rfl h2 h3 ?_ h5 h6
      simp only
      rw [List.append_assoc, List.take_append_drop, h4]
    | closed n h1 => rw [hr] at h1; cases h1
  | next hr =>
    rw [List.append_nil]
    cases h with
    | queued h1 => rw [hr] at h1; cases h1
    | reading buf' h1 => rw [hr] at h1; cases h1
    | received req h1 => rw [hr] at h1; rcases h1 with h1 | ⟨_, _, h1⟩ <;> cases h1
    | replying es0 e h1 => rw [hr] at h1; cases h1
    | writing rest' h1 h2 h3 h4 h5 h6 =>
      rw [hr] at h1
      injection h1 with h1
      subst h1
      refine .reading [] rfl fits_nil h2 (by simp only; rw [h3, List.append_nil]) ?_ h5 h6
      simpa using h4
    | closed n h1 => rw [hr] at h1; cases h1
  | finish hr =>
    rw [List.append_nil]
    have all : ∀ {l : List Bytes}, l.take l.length = l := List.take_length
    cases h with
    | queued h1 => rw [h1] at hr; rcases hr with ⟨_, hr⟩ | ⟨_, hr⟩ | ⟨_, hr⟩ <;> cases hr
    | reading buf' h1 h2 h3 h4 h5 h6 h7 =>
      refine .closed (resps es).length rfl h3 (by simp only; rw [h4]; exact List.prefix_append _ _) ?_ h6 (by rw [all]; exact h7)
      rw [all]; simp only; rw [h5]; exact List.prefix_rfl
    | received req h1 =>
      rcases h1 with h1 | ⟨_, _, h1⟩ <;> rw [h1] at hr <;> rcases hr with ⟨_, hr⟩ | ⟨_, hr⟩ | ⟨_, hr⟩ <;> cases hr
    | replying es0 e h1 h2 h3 h4 h5 h6 h7 =>
      subst h3
      refine .closed (resps es0).length rfl h2 (by simp only; rw [h4]; exact List.prefix_rfl) ?_ h6 ?_
      · rw [resps_append, List.take_append_of_le_length (by simp), all]
        simp only; rw [h5]; exact List.prefix_rfl
      · rw [resps_append, List.take_append_of_le_length (by simp), all]; exact h7
    | writing rest' h1 h2 h3 h4 h5 h6 =>
      refine .closed (resps es).length rfl h2 (by simp only; rw [h3]; exact List.prefix_rfl) ?_ h5 (by rw [all]; exact h6)
      rw [all, ← h4]; exact List.prefix_append _ _
    | closed n h1 => rw [h1] at hr; rcases hr with ⟨_, hr⟩ | ⟨_, hr⟩ | ⟨_, hr⟩ <;> cases hr

/-- The server-side invariant: every connection is as its log entries say, and entries belong to connections. -/
structure ServerInv (cs : List (Conn S)) (log : List Entry) : Prop where
  conn : ∀ j c, cs[j]? = some c → ServeOk (onConn log j) c
  known : ∀ e ∈ log, e.conn < cs.length

theorem connChange_entries {P : Processor S} {j : Nat} {d d' : Conn S} {es : List Entry} (h : ConnChange P j d d' es) :
    ∀ e ∈ es, e.conn = j := by
  cases h <;> simp

theorem ServerInv.step {P : Processor S} {cs cs' : List (Conn S)} {log es : List Entry} (h : ServerInv cs log)
    (hc : ConnsChange P cs cs' es) : ServerInv cs' (log ++ es) := by
  cases hc with
  | same => rw [List.append_nil]; exact h
  | added l o =>
    rw [List.append_nil]
    constructor
    · intro j c hj
      rcases get_snoc hj with hj | ⟨rfl, rfl⟩
      · exact h.conn j c hj
      · refine .queued rfl rfl rfl ?_
        unfold onConn
        rw [List.filter_eq_nil_iff]
        intro e he
        have := h.known e he
        simp; omega
    · intro e he
      have := h.known e he
      simp; omega
  | changed j d d' es hd hch =>
    have hent := connChange_entries hch
    constructor
    · intro i c hi
      rw [onConn_append]
      rcases get_set hi with ⟨rfl, rfl⟩ | ⟨hne, hi⟩
      · have : onConn es j = es := by
          unfold onConn
          rw [List.filter_eq_self]
          intro e he; simp [hent e he]
        rw [this]
        exact (h.conn j d hd).change hch
      · have : onConn es i = [] := by
          unfold onConn
          rw [List.filter_eq_nil_iff]
          intro e he; simp [hent e he, hne]
        rw [this, List.append_nil]
        exact h.conn i c hi
    · intro e he
      rw [List.length_set]
      rcases List.mem_append.1 he with he | he
      · exact h.known e he
      · rw [hent e he]; exact get_lt hd

theorem serverInv_reachable {P : Processor S} {σ0 σ : Sys S} (h0 : ServerInv σ0.conns σ0.log)
    (h : Reachable P σ0 σ) : ServerInv σ.conns σ.log := by
  induction h with
  | refl => exact h0
  | tail _ hs ih =>
    obtain ⟨es, h1, h2⟩ := step_conns hs
    rw [h2]
    exact ih.step h1

end Qos.Net
