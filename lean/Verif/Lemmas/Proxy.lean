import Verif.Spec.Proxy
import Verif.Lemmas.NetSeq
import Verif.Lemmas.WireBorsh
/-!
# Lemmas: the proxy
-/
namespace Qos

/-! ## Enums in Borsh, both ways -/

/-- Bytes that a variant reads are those it writes. -/
def BVariant.BackAt {α : Type} (v : BVariant α) : Prop := ∀ bs a r, v.dec bs = some (a, r) → bs = v.enc a ++ r ∧ v.ok a

theorem BVariant.unit_backAt {α : Type} {a : α} : (BVariant.unit a).BackAt := by
  intro bs b r h
  cases h
  exact ⟨rfl, trivial⟩

theorem BVariant.data_backAt {α β : Type} {c : Borsh.Codec β} {inj : β → α} {proj : α → Option β} (hc : Borsh.Lawful c)
    (hp : ∀ b, proj (inj b) = some b) : (BVariant.data c inj proj).BackAt := by
  intro bs a r h
  simp only [BVariant.data] at h ⊢
  cases hd : c.dec bs with
  | none => rw [hd] at h; cases h
  | some x =>
    obtain ⟨b, r'⟩ := x
    rw [hd] at h
    simp only [Option.some.injEq, Prod.mk.injEq] at h
    obtain ⟨rfl, rfl⟩ := h
    rw [hp]
    exact hc.enc_dec bs b r' hd

theorem Borsh.lawful_enum {α : Type} {tag : α → Nat} {vs : List (BVariant α)} (hlen : vs.length ≤ 256)
    (hl : ∀ a v, vs[tag a]? = some v → v.LawAt a)
    (hb : ∀ (i : Nat) (v : BVariant α), vs[i]? = some v → v.BackAt ∧ v.Reads tag i) : Borsh.Lawful (Borsh.enum tag vs) where
  dec_enc := Borsh.fwd_enum hlen hl
  enc_dec bs a r h := by
    simp only [Borsh.enum] at h ⊢
    cases bs with
    | nil => cases h
    | cons t bs =>
      simp only at h
      cases hv : vs[t.toNat]? with
      | none => rw [hv] at h; cases h
      | some v =>
        rw [hv] at h
        obtain ⟨h1, h2⟩ := hb _ v hv
        have ht := h2 bs a r h
        obtain ⟨h3, h4⟩ := h1 bs a r h
        rw [ht, hv]
        refine ⟨?_, h4⟩
        rw [List.cons_append, ← h3, UInt8.ofNat_toNat]

namespace Proxy
variable {Ip : Type}

theorem lawful_netError : Borsh.Lawful netErrorCodec := by
  refine Borsh.lawful_enum (by decide) ?_ ?_
  · intro a v h
    cases a <;> cases h <;>
      first
        | exact BVariant.unit_lawAt
        | exact BVariant.data_lawAt Borsh.lawful_string.fwd rfl rfl
        | exact BVariant.data_lawAt (Borsh.lawful_le 8).fwd rfl rfl
        | exact BVariant.data_lawAt (Borsh.lawful_pair (Borsh.lawful_le 8) (Borsh.lawful_le 8)).fwd rfl rfl
  · intro i v h
    match i, h with
    | 0, h => cases h; exact ⟨BVariant.data_backAt Borsh.lawful_string (fun _ => rfl), BVariant.data_reads (fun _ => rfl)⟩
    | 1, h => cases h; exact ⟨BVariant.unit_backAt, BVariant.unit_reads rfl⟩
    | 2, h => cases h; exact ⟨BVariant.unit_backAt, BVariant.unit_reads rfl⟩
    | 3, h => cases h; exact ⟨BVariant.unit_backAt, BVariant.unit_reads rfl⟩
    | 4, h => cases h; exact ⟨BVariant.data_backAt Borsh.lawful_string (fun _ => rfl), BVariant.data_reads (fun _ => rfl)⟩
    | 5, h => cases h; exact ⟨BVariant.data_backAt Borsh.lawful_string (fun _ => rfl), BVariant.data_reads (fun _ => rfl)⟩
    | 6, h =>
      cases h
      exact ⟨BVariant.data_backAt (Borsh.lawful_pair (Borsh.lawful_le 8) (Borsh.lawful_le 8)) (fun _ => rfl),
        BVariant.data_reads (fun _ => rfl)⟩
    | 7, h => cases h; exact ⟨BVariant.data_backAt (Borsh.lawful_le 8) (fun _ => rfl), BVariant.data_reads (fun _ => rfl)⟩
    | i + 8, h => simp [NetError.variants] at h

theorem lawful_msg : Borsh.Lawful msgCodec := by
  have hname := Borsh.lawful_pair Borsh.lawful_string (Borsh.lawful_pair Borsh.lawful_u16
    (Borsh.lawful_pair (Borsh.lawful_vec Borsh.lawful_string) Borsh.lawful_u16))
  have hip := Borsh.lawful_pair Borsh.lawful_string Borsh.lawful_u16
  refine Borsh.lawful_enum (by decide) ?_ ?_
  · intro a v h
    cases a <;> cases h <;>
      first
        | exact BVariant.unit_lawAt
        | exact BVariant.data_lawAt lawful_netError.fwd rfl rfl
        | exact BVariant.data_lawAt Borsh.lawful_string.fwd rfl rfl
        | exact BVariant.data_lawAt (Borsh.lawful_le 8).fwd rfl rfl
        | exact BVariant.data_lawAt hname.fwd rfl rfl
        | exact BVariant.data_lawAt hip.fwd rfl rfl
  · intro i v h
    match i, h with
    | 0, h => cases h; exact ⟨BVariant.data_backAt lawful_netError (fun _ => rfl), BVariant.data_reads (fun _ => rfl)⟩
    | 1, h => cases h; exact ⟨BVariant.unit_backAt, BVariant.unit_reads rfl⟩
    | 2, h => cases h; exact ⟨BVariant.data_backAt (Borsh.lawful_le 8) (fun _ => rfl), BVariant.data_reads (fun _ => rfl)⟩
    | 3, h => cases h; exact ⟨BVariant.data_backAt hname (fun _ => rfl), BVariant.data_reads (fun _ => rfl)⟩
    | 4, h => cases h; exact ⟨BVariant.data_backAt hip (fun _ => rfl), BVariant.data_reads (fun _ => rfl)⟩
    | 5, h => cases h; exact ⟨BVariant.data_backAt Borsh.lawful_string (fun _ => rfl), BVariant.data_reads (fun _ => rfl)⟩
    | i + 6, h => simp [Msg.variants] at h

theorem decode_iff {req : Bytes} {m : Msg} : Borsh.tryFromSlice msgCodec req = some m ↔ Encodes req m := by
  constructor
  · intro h
    obtain ⟨h1, h2⟩ := Borsh.tryFromSlice_some lawful_msg h
    exact ⟨h1, h2⟩
  · rintro ⟨rfl, h⟩
    exact Borsh.tryFromSlice_enc lawful_msg h

/-! ## One session -/

section Session
variable {A : Addresses Ip} {config config' : Nat → Key Ip → Prop}

/-- Nothing done. -/
def Blank (s : Session Ip) : Prop := s.queries = [] ∧ s.dials = [] ∧ s.tcp = none ∧ s.held = false ∧ s.out = []

/-- Exactly the request has been read. -/
def Head (s : Session Ip) (req : Bytes) : Prop := FirstFrame s.inp req ∧ s.inpRead = 8 + req.length

/-- The TCP connection is there if one was made. -/
def Linked (s : Session Ip) : Prop :=
  (s.held = true ↔ ∃ d ∈ s.dials, d.connected = true) ∧ (s.tcp.isSome ↔ ∃ d ∈ s.dials, d.connected = true) 

/-- Nothing has gone through it yet. -/
def Untouched (s : Session Ip) : Prop := ∀ t, s.tcp = some t → t.sent = [] ∧ t.taken = 0

/-- What holds at each point of a session. -/
def StageAt (A : Addresses Ip) (config : Nat → Key Ip → Prop) (s : Session Ip) : Task Ip → Prop
  | .queued => Blank s ∧ s.inpRead = 0
  | .reading buf => Blank s ∧ buf = s.inp.take s.inpRead ∧ Net.Fits buf
  | .received req => Blank s ∧ Head s req
  | .seeking h p key => Blank s ∧ ∃ req rs, Head s req ∧ Encodes req (.connectByName h p rs key.2) ∧ AllParse A rs key.1
  | .building h p key => Blank s ∧ ∃ req rs, Head s req ∧ Encodes req (.connectByName h p rs key.2) ∧ AllParse A rs key.1
  | .querying h p r => Blank s ∧ ∃ req rs key, Head s req ∧ Encodes req (.connectByName h p rs key.2) ∧
      AllParse A rs key.1 ∧ config r key
  | .dialing text a p => s.dials = [] ∧ s.tcp = none ∧ s.held = false ∧ s.out = [] ∧ ∃ req, Head s req ∧
      Trail A config req s.queries [] none ∧ Trail A config req s.queries [⟨a, p, true⟩] (some (.connectResponse text)) ∧
      ∀ e, Trail A config req s.queries [⟨a, p, false⟩] (some (.proxyError (.qosIoError e)))
  | .replying m => s.out = [] ∧ ∃ req, Head s req ∧ Trail A config req s.queries s.dials (some m) ∧ Linked s ∧ Untouched s
  | .writing rest => ∃ req m, Head s req ∧ Trail A config req s.queries s.dials (some m) ∧ Linked s ∧ Untouched s ∧
      (msgCodec.enc m).length ≤ 134217728 ∧ s.out ++ rest = Net.encode (msgCodec.enc m)
  | .piping up down => ∃ req m t, FirstFrame s.inp req ∧ (8 + req.length ≤ s.inpRead ∧ (msgCodec.enc m).length ≤ 134217728) ∧
      Trail A config req s.queries s.dials (some m) ∧ Linked s ∧ s.tcp = some t ∧
      (t.sent ++ up.pending = (s.inp.take s.inpRead).drop (8 + req.length) ∧
        (up.eof = true → s.clientOpen = false ∧ s.inpRead = s.inp.length) ∧ (up.done = true → up.eof = true ∧ up.pending = [])) ∧
      (t.taken ≤ t.incoming.length ∧ s.out ++ down.pending = Net.encode (msgCodec.enc m) ++ t.incoming.take t.taken ∧
        (down.eof = true → t.remoteOpen = false ∧ t.taken = t.incoming.length) ∧
        (down.done = true → down.eof = true ∧ down.pending = []))
  | .closed ok => Explained A config s ∧ (ok = true → Complete A config s)

/-- The invariant of a session. -/
def Stage (A : Addresses Ip) (config : Nat → Key Ip → Prop) (s : Session Ip) : Prop :=
  s.inpRead ≤ s.inp.length ∧ StageAt A config s s.task

theorem Trail.mono (hc : ∀ r k, config r k → config' r k) {req : Bytes} {qs : List (Query Ip)} {ds : List (Dial Ip)}
    {a : Option Msg} (h : Trail A config req qs ds a) : Trail A config' req qs ds a := by
  cases h with
  | nothing => exact .nothing
  | unreadable h => exact .unreadable h
  | status h => exact .status h
  | echo e h => exact .echo e h
  | notRequest m h1 h2 => exact .notRequest m h1 h2
  | badIp ip p h1 h2 => exact .badIp ip p h1 h2
  | ipConnected ip p a h1 h2 => exact .ipConnected ip p a h1 h2
  | ipRefused ip t p a h1 h2 => exact .ipRefused ip t p a h1 h2
  | badResolver h p rs dp h1 h2 => exact .badResolver h p rs dp h1 h2
  | noResolver h t p rs dp ips h1 h2 => exact .noResolver h t p rs dp ips h1 h2
  | queryFailed h t p rs dp ips r h1 h2 h3 => exact .queryFailed h t p rs dp ips r h1 h2 (hc _ _ h3)
  | queryEmpty h p rs dp ips r h1 h2 h3 => exact .queryEmpty h p rs dp ips r h1 h2 (hc _ _ h3)
  | queried h p rs dp ips r a as h1 h2 h3 => exact .queried h p rs dp ips r a as h1 h2 (hc _ _ h3)
  | nameConnected h p rs dp ips r a as h1 h2 h3 => exact .nameConnected h p rs dp ips r a as h1 h2 (hc _ _ h3)
  | nameRefused h t p rs dp ips r a as h1 h2 h3 => exact .nameRefused h t p rs dp ips r a as h1 h2 (hc _ _ h3)

theorem Explained.mono (hc : ∀ r k, config r k → config' r k) {s : Session Ip} (h : Explained A config s) :
    Explained A config' s := by
  rcases h with h | ⟨req, a, h1, h2, h3⟩
  · exact .inl h
  · exact .inr ⟨req, a, h1, h2.mono hc, h3⟩

theorem Complete.mono (hc : ∀ r k, config r k → config' r k) {s : Session Ip} (h : Complete A config s) :
    Complete A config' s := by
  obtain ⟨req, m, t, h1, h2, h3⟩ := h
  exact ⟨req, m, t, h1, h2.mono hc, h3⟩

theorem Stage.mono (hc : ∀ r k, config r k → config' r k) {s : Session Ip} (h : Stage A config s) : Stage A config' s := by
  obtain ⟨h0, h⟩ := h
  refine ⟨h0, ?_⟩
  cases ht : s.task with
  | querying hn p r =>
    rw [ht] at h
    obtain ⟨h1, req, rs, key, h2, h3, h4, h5⟩ := h
    exact ⟨h1, req, rs, key, h2, h3, h4, hc _ _ h5⟩
  | dialing t a p =>
    rw [ht] at h
    obtain ⟨h1, h2, h3, h4, req, h5, h6, h7, h8⟩ := h
    exact ⟨h1, h2, h3, h4, req, h5, h6.mono hc, h7.mono hc, fun e => (h8 e).mono hc⟩
  | replying m =>
    rw [ht] at h
    obtain ⟨h1, req, h2, h3, h4⟩ := h
    exact ⟨h1, req, h2, h3.mono hc, h4⟩
  | writing r =>
    rw [ht] at h
    obtain ⟨req, m, h2, h3, h4⟩ := h
    exact ⟨req, m, h2, h3.mono hc, h4⟩
  | piping u d =>
    rw [ht] at h
    obtain ⟨req, m, t, h2, h3, h4, h5⟩ := h
    exact ⟨req, m, t, h2, h3, h4.mono hc, h5⟩
  | closed ok =>
    rw [ht] at h
    exact ⟨h.1.mono hc, fun e => (h.2 e).mono hc⟩
  | _ => rw [ht] at h; exact h

theorem FirstFrame.append {inp req : Bytes} (bytes : Bytes) (h : FirstFrame inp req) : FirstFrame (inp ++ bytes) req :=
  ⟨h.1, h.2.trans (List.prefix_append _ _)⟩

theorem FirstFrame.length {inp req : Bytes} (h : FirstFrame inp req) : 8 + req.length ≤ inp.length := by
  have := h.2.length_le
  simpa using this

theorem afterFrame_append {inp req : Bytes} (bytes : Bytes) (h : FirstFrame inp req) :
    afterFrame (inp ++ bytes) req = afterFrame inp req ++ bytes := by
  unfold afterFrame
  rw [List.drop_append_of_le_length h.length]

theorem Explained.clientWrite {s : Session Ip} (bytes : Bytes) (h : Explained A config s) :
    Explained A config { s with inp := s.inp ++ bytes } := by
  rcases h with h | ⟨req, a, h1, h2, h3⟩
  · exact .inl h
  · refine .inr ⟨req, a, h1.append bytes, h2, ?_⟩
    cases a with
    | none => exact h3
    | some m =>
      obtain ⟨g1, g0, g2, g3⟩ := h3
      refine ⟨g1, g0, g2, fun t ht => ⟨(g3 t ht).1, ?_⟩⟩
      show t.sent <+: afterFrame (s.inp ++ bytes) req
      rw [afterFrame_append bytes h1]
      exact (g3 t ht).2.trans (List.prefix_append _ _)

theorem Explained.remote {s : Session Ip} {t t' : Tcp} (h : Explained A config s) (ht : s.tcp = some t)
    (hs : t'.sent = t.sent) (hi : t.incoming <+: t'.incoming) : Explained A config { s with tcp := some t' } := by
  rcases h with h | ⟨req, a, h1, h2, h3⟩
  · rw [h.2.2.1] at ht; cases ht
  · refine .inr ⟨req, a, h1, h2, ?_⟩
    cases a with
    | none => rw [h3.2] at ht; cases ht
    | some m =>
      obtain ⟨g1, g0, -, g3⟩ := h3
      refine ⟨?_, g0, (fun hn => nomatch hn), fun t'' e => ?_⟩
      · rw [← g1, ht]
        exact Iff.rfl
      · cases e
        obtain ⟨a1, a2⟩ := g3 t ht
        exact ⟨a1.trans ((List.prefix_append_right_inj _).mpr hi), by rw [hs]; exact a2⟩

theorem Head.clientWrite {s : Session Ip} {req : Bytes} (bytes : Bytes) (h : Head s req) :
    Head { s with inp := s.inp ++ bytes } req := ⟨h.1.append bytes, h.2⟩

theorem Stage.clientWrite {s : Session Ip} (bytes : Bytes) (ho : s.clientOpen = true) (h : Stage A config s) :
    Stage A config { s with inp := s.inp ++ bytes } := by
  obtain ⟨h0, h⟩ := h
  refine ⟨by simp; omega, ?_⟩
  show StageAt A config _ s.task
  cases ht : s.task with
  | queued => rw [ht] at h; exact h
  | reading buf =>
    rw [ht] at h
    obtain ⟨h1, h2, h3⟩ := h
    refine ⟨h1, ?_, h3⟩
    show buf = (s.inp ++ bytes).take s.inpRead
    rw [List.take_append_of_le_length h0]
    exact h2
  | received req => rw [ht] at h; exact ⟨h.1, h.2.clientWrite bytes⟩
  | seeking hn p k =>
    rw [ht] at h
    obtain ⟨h1, req, rs, h2, h3⟩ := h
    exact ⟨h1, req, rs, h2.clientWrite bytes, h3⟩
  | building hn p k =>
    rw [ht] at h
    obtain ⟨h1, req, rs, h2, h3⟩ := h
    exact ⟨h1, req, rs, h2.clientWrite bytes, h3⟩
  | querying hn p r =>
    rw [ht] at h
    obtain ⟨h1, req, rs, key, h2, h3⟩ := h
    exact ⟨h1, req, rs, key, h2.clientWrite bytes, h3⟩
  | dialing t a p =>
    rw [ht] at h
    obtain ⟨h1, h2, h3, h4, req, h5, h6⟩ := h
    exact ⟨h1, h2, h3, h4, req, h5.clientWrite bytes, h6⟩
  | replying m =>
    rw [ht] at h
    obtain ⟨h1, req, h2, h3⟩ := h
    exact ⟨h1, req, h2.clientWrite bytes, h3⟩
  | writing r =>
    rw [ht] at h
    obtain ⟨req, m, h2, h3⟩ := h
    exact ⟨req, m, h2.clientWrite bytes, h3⟩
  | piping u d =>
    rw [ht] at h
    obtain ⟨req, m, t, h2, h3, h4, h5, h6, ⟨h7, h8, h9⟩, h10⟩ := h
    refine ⟨req, m, t, h2.append bytes, h3, h4, h5, h6, ⟨?_, ?_, h9⟩, h10⟩
    · show _ = ((s.inp ++ bytes).take s.inpRead).drop _
      rw [List.take_append_of_le_length h0]
      exact h7
    · intro he
      rw [(h8 he).1] at ho
      cases ho
  | closed ok =>
    rw [ht] at h
    refine ⟨h.1.clientWrite bytes, fun e => ?_⟩
    obtain ⟨req, m, t, -, -, -, -, hc, -⟩ := h.2 e
    rw [hc] at ho
    cases ho

theorem Stage.clientClose {s : Session Ip} (h : Stage A config s) : Stage A config { s with clientOpen := false } := by
  obtain ⟨h0, h⟩ := h
  refine ⟨h0, ?_⟩
  show StageAt A config _ s.task
  cases ht : s.task with
  | piping u d =>
    rw [ht] at h
    obtain ⟨req, m, t, h2, h3, h4, h5, h6, ⟨h7, h8, h9⟩, h10⟩ := h
    exact ⟨req, m, t, h2, h3, h4, h5, h6, ⟨h7, fun e => ⟨rfl, (h8 e).2⟩, h9⟩, h10⟩
  | closed ok =>
    rw [ht] at h
    refine ⟨h.1, fun e => ?_⟩
    obtain ⟨req, m, t, h1, h2, h3, h4, h5, h6⟩ := h.2 e
    exact ⟨req, m, t, h1, h2, h3, h4, rfl, h6⟩
  | _ => rw [ht] at h; exact h

/-- The remote host sends (while it has not closed), or closes. -/
theorem Stage.remote {s : Session Ip} {t : Tcp} (bytes : Bytes) (open' : Bool) (htcp : s.tcp = some t)
    (hopen : t.remoteOpen = false → bytes = [] ∧ open' = false) (h : Stage A config s) :
    Stage A config { s with tcp := some { t with incoming := t.incoming ++ bytes, remoteOpen := open' } } := by
  obtain ⟨h0, h⟩ := h
  refine ⟨h0, ?_⟩
  show StageAt A config _ s.task
  have blank : Blank s → False := fun h => by rw [h.2.2.1] at htcp; cases htcp
  have linked : Linked s → Linked { s with tcp := some { t with incoming := t.incoming ++ bytes, remoteOpen := open' } } := by
    rintro ⟨a, b⟩
    refine ⟨a, ?_⟩
    rw [htcp] at b
    exact b
  have untouched : Untouched s → Untouched { s with tcp := some { t with incoming := t.incoming ++ bytes, remoteOpen := open' } } := by
    intro hu t' e
    cases e
    exact hu t htcp
  cases ht : s.task with
  | queued => rw [ht] at h; exact (blank h.1).elim
  | reading buf => rw [ht] at h; exact (blank h.1).elim
  | received req => rw [ht] at h; exact (blank h.1).elim
  | seeking hn p k => rw [ht] at h; exact (blank h.1).elim
  | building hn p k => rw [ht] at h; exact (blank h.1).elim
  | querying hn p r => rw [ht] at h; exact (blank h.1).elim
  | dialing tx a p => rw [ht] at h; rw [h.2.1] at htcp; cases htcp
  | replying m =>
    rw [ht] at h
    obtain ⟨h1, req, h2, h3, h4, h5⟩ := h
    exact ⟨h1, req, h2, h3, linked h4, untouched h5⟩
  | writing r =>
    rw [ht] at h
    obtain ⟨req, m, h2, h3, h4, h5, h6⟩ := h
    exact ⟨req, m, h2, h3, linked h4, untouched h5, h6⟩
  | piping u d =>
    rw [ht] at h
    obtain ⟨req, m, t0, h2, h3, h4, h5, h6, h7, h8, h9, h10, h11⟩ := h
    rw [htcp] at h6
    cases h6
    refine ⟨req, m, _, h2, h3, h4, linked h5, rfl, h7, by simp; omega, ?_, ?_, h11⟩
    · show _ = _ ++ (t.incoming ++ bytes).take t.taken
      rw [List.take_append_of_le_length h8]
      exact h9
    · intro he
      obtain ⟨a1, a2⟩ := h10 he
      obtain ⟨rfl, rfl⟩ := hopen a1
      exact ⟨rfl, by simpa using a2⟩
  | closed ok =>
    rw [ht] at h
    refine ⟨h.1.remote htcp rfl (List.prefix_append _ _), fun e => ?_⟩
    obtain ⟨req, m, t0, h1, h2, h3, h4, h5, h6, h7, h8⟩ := h.2 e
    rw [htcp] at h3
    cases h3
    obtain ⟨rfl, rfl⟩ := hopen h7
    exact ⟨req, m, _, h1, h2, rfl, h4, h5, h6, rfl, by rw [List.append_nil]; exact h8⟩

theorem mapM_parse_some {texts : List String} {ips : List Ip} : texts.mapM A.parse = some ips ↔ AllParse A texts ips := by
  unfold AllParse
  induction texts generalizing ips with
  | nil => cases ips <;> simp
  | cons x xs ih =>
    simp only [List.mapM_cons, List.map_cons]
    cases hx : A.parse x with
    | none => cases ips <;> simp
    | some a =>
      cases ips with
      | nil => cases hm : xs.mapM A.parse <;> simp
      | cons i is =>
        cases hm : xs.mapM A.parse with
        | none =>
          have := ih (ips := is)
          rw [hm] at this
          simp at this ⊢
          exact fun _ => this
        | some l =>
          have := ih (ips := is)
          rw [hm] at this
          simp at this ⊢
          exact fun _ => this

theorem mapM_parse_none {texts : List String} (h : texts.mapM A.parse = none) : ∃ r ∈ texts, A.parse r = none := by
  induction texts with
  | nil => simp at h
  | cons x xs ih =>
    cases hx : A.parse x with
    | none => exact ⟨x, List.mem_cons_self .., hx⟩
    | some a =>
      rw [List.mapM_cons, hx] at h
      cases hm : xs.mapM A.parse with
      | none =>
        obtain ⟨r, h1, h2⟩ := ih hm
        exact ⟨r, List.mem_cons_of_mem _ h1, h2⟩
      | some l => rw [hm] at h; simp at h

theorem linked_blank {s : Session Ip} (h : Blank s) : Linked s := by
  obtain ⟨h1, h2, h3, h4, h5⟩ := h
  unfold Linked
  rw [h2, h3, h4]
  simp

theorem untouched_blank {s : Session Ip} (h : Blank s) : Untouched s := by
  intro t ht
  rw [h.2.2.1] at ht
  cases ht

theorem FirstFrame.readable {inp req : Bytes} (h : FirstFrame inp req) : ¬ req.length > maxEncodedMsgLen := by
  have := h.1
  have : maxEncodedMsgLen = 134217728 := rfl
  omega

/-- The request is dispatched. -/
theorem Stage.dispatch {s : Session Ip} {req : Bytes} (hb : Blank s) (hh : Head s req) :
    StageAt A config { s with task := (dispatch A req).next } (Proxy.dispatch A req).next := by
  have lk : Linked { s with task := (Proxy.dispatch A req).next } := linked_blank (s := { s with task := _ }) hb
  have un : Untouched { s with task := (Proxy.dispatch A req).next } := untouched_blank (s := { s with task := _ }) hb
  have hq := hb.1
  have hd := hb.2.1
  have answer : ∀ m, Trail A config req [] [] (some m) →
      StageAt A config { s with task := (Proxy.dispatch A req).next } (Action.answer m).next := by
    intro m htr
    refine ⟨hb.2.2.2.2, req, hh, ?_, lk, un⟩
    show Trail A config req s.queries s.dials _
    rw [hq, hd]
    exact htr
  have goal : ∀ a, Proxy.dispatch A req = a → StageAt A config { s with task := (Proxy.dispatch A req).next } a.next := by
    intro a ha
    unfold Proxy.dispatch at ha
    rw [if_neg hh.1.readable] at ha
    cases hm : Borsh.tryFromSlice msgCodec req with
    | none =>
      rw [hm] at ha
      subst ha
      refine answer _ (.unreadable fun m he => ?_)
      rw [decode_iff.mpr he] at hm
      cases hm
    | some m =>
      rw [hm] at ha
      have he := decode_iff.mp hm
      simp only at ha
      subst ha
      cases m with
      | proxyError e => exact answer _ (.echo e he)
      | statusRequest => exact answer _ (.status he)
      | statusResponse n => exact answer _ (.notRequest _ he (.inl ⟨n, rfl⟩))
      | connectResponse ip => exact answer _ (.notRequest _ he (.inr ⟨ip, rfl⟩))
      | connectByIp ip p =>
        show StageAt A config _ (byIp A ip p).next
        unfold byIp
        cases hp : A.parse ip with
        | none => exact answer _ (.badIp ip p he hp)
        | some a =>
          refine ⟨hd, hb.2.2.1, hb.2.2.2.1, hb.2.2.2.2, req, hh, ?_⟩
          show Trail A config req s.queries [] none ∧ _
          rw [hq]
          exact ⟨.nothing, .ipConnected ip p a he hp, fun e => .ipRefused ip e p a he hp⟩
      | connectByName hn p rs dp =>
        show StageAt A config _ (byName A hn p rs dp).next
        unfold byName
        cases hp : rs.mapM A.parse with
        | none => exact answer _ (.badResolver hn p rs dp he (mapM_parse_none hp))
        | some ips => exact ⟨hb, req, rs, hh, he, mapM_parse_some.mp hp⟩
  exact goal _ rfl

/-- A step of a session keeps its invariant. -/
theorem Stage.step {s s' : Session Ip} (h : Stage A config s) (hs : Local A s s') : Stage A config s' := by
  cases hs with
  | clientWrite bytes ho => exact h.clientWrite bytes ho
  | clientClose => exact h.clientClose
  | read buf n m ht hp hn hl =>
    obtain ⟨h0, h⟩ := h
    rw [ht] at h
    obtain ⟨h1, h2, h3⟩ := h
    refine ⟨hl, h1, ?_, Net.fits_more hp (by simp; omega)⟩
    show _ = s.inp.take (s.inpRead + n)
    rw [List.take_add, h2]
  | receive buf req ht hp =>
    obtain ⟨h0, h⟩ := h
    rw [ht] at h
    obtain ⟨h1, h2, h3⟩ := h
    obtain ⟨h4, h5⟩ := Net.progress_done h3 hp
    have hlen : s.inpRead = 8 + req.length := by
      have := congrArg List.length h2
      rw [h4, Net.frame_length, List.length_take] at this
      omega
    refine ⟨h0, h1, ⟨h5, ?_⟩, hlen⟩
    show Stream.frame req <+: s.inp
    rw [← h4, h2]
    exact List.take_prefix ..
  | dispatch req ht =>
    obtain ⟨h0, h⟩ := h
    rw [ht] at h
    exact ⟨h0, Stage.dispatch h.1 h.2⟩
  | buildFailed hn text p key ht =>
    obtain ⟨h0, h⟩ := h
    rw [ht] at h
    obtain ⟨h1, req, rs, h2, h3, h4⟩ := h
    refine ⟨h0, h1.2.2.2.2, req, h2, ?_, linked_blank (s := { s with task := _ }) h1, untouched_blank (s := { s with task := _ }) h1⟩
    show Trail A config req s.queries s.dials _
    rw [h1.1, h1.2.1]
    exact .noResolver hn text p rs key.2 key.1 h3 h4
  | query hn text p r answer ht =>
    obtain ⟨h0, h⟩ := h
    rw [ht] at h
    obtain ⟨h1, req, rs, key, h2, h3, h4, h5⟩ := h
    refine ⟨h0, ?_⟩
    have lk : Linked { s with queries := s.queries ++ [⟨r, hn, answer⟩], task := afterQuery A hn p text answer } :=
      linked_blank (s := s) h1
    have un : Untouched { s with queries := s.queries ++ [⟨r, hn, answer⟩], task := afterQuery A hn p text answer } :=
      untouched_blank (s := s) h1
    show StageAt A config { s with queries := s.queries ++ [⟨r, hn, answer⟩], task := afterQuery A hn p text answer }
      (afterQuery A hn p text answer)
    match answer with
    | none =>
      refine ⟨h1.2.2.2.2, req, h2, ?_, lk, un⟩
      show Trail A config req (s.queries ++ _) s.dials _
      rw [h1.1, h1.2.1]
      exact .queryFailed hn text p rs key.2 key.1 r h3 h4 h5
    | some [] =>
      refine ⟨h1.2.2.2.2, req, h2, ?_, lk, un⟩
      show Trail A config req (s.queries ++ _) s.dials _
      rw [h1.1, h1.2.1]
      exact .queryEmpty hn p rs key.2 key.1 r h3 h4 h5
    | some (a :: as) =>
      refine ⟨h1.2.1, h1.2.2.1, h1.2.2.2.1, h1.2.2.2.2, req, h2, ?_⟩
      show Trail A config req (s.queries ++ _) [] none ∧ _
      rw [h1.1]
      exact ⟨.queried hn p rs key.2 key.1 r a as h3 h4 h5, .nameConnected hn p rs key.2 key.1 r a as h3 h4 h5,
        fun e => .nameRefused hn e p rs key.2 key.1 r a as h3 h4 h5⟩
  | connected text a p ht =>
    obtain ⟨h0, h⟩ := h
    rw [ht] at h
    obtain ⟨h1, h2, h3, h4, req, h5, h6, h7, h8⟩ := h
    refine ⟨h0, h4, req, h5, ?_, ?_, ?_⟩
    · show Trail A config req s.queries (s.dials ++ _) _
      rw [h1]
      exact h7
    · unfold Linked
      simp [Session.connected]
    · intro t e
      cases e
      exact ⟨rfl, rfl⟩
  | refused text err a p ht =>
    obtain ⟨h0, h⟩ := h
    rw [ht] at h
    obtain ⟨h1, h2, h3, h4, req, h5, h6, h7, h8⟩ := h
    refine ⟨h0, h4, req, h5, ?_, ?_, ?_⟩
    · show Trail A config req s.queries (s.dials ++ _) _
      rw [h1]
      exact h8 err
    · unfold Linked
      simp [Session.refused, h1, h2, h3]
    · intro t e
      have e : s.tcp = some t := e
      rw [h2] at e
      cases e
  | reply m ht hl =>
    obtain ⟨h0, h⟩ := h
    rw [ht] at h
    obtain ⟨h1, req, h2, h3, h4, h5⟩ := h
    refine ⟨h0, req, m, h2, h3, h4, h5, hl, ?_⟩
    show s.out ++ _ = _
    rw [h1, List.nil_append]
  | write rest n ht =>
    obtain ⟨h0, h⟩ := h
    rw [ht] at h
    obtain ⟨req, m, h2, h3, h4, h5, hl, h6⟩ := h
    refine ⟨h0, req, m, h2, h3, h4, h5, hl, ?_⟩
    show s.out ++ rest.take n ++ rest.drop n = _
    rw [List.append_assoc, List.take_append_drop]
    exact h6
  | answered ht hheld =>
    obtain ⟨h0, h⟩ := h
    rw [ht] at h
    obtain ⟨req, m, h2, h3, h4, h5, hl, h6⟩ := h
    have hsome := h4.2.mpr (h4.1.mp hheld)
    obtain ⟨t, htcp⟩ := Option.isSome_iff_exists.mp hsome
    obtain ⟨u1, u2⟩ := h5 t htcp
    refine ⟨h0, req, m, t, h2.1, ⟨Nat.le_of_eq h2.2.symm, hl⟩, h3, h4, htcp, ⟨?_, (fun e => nomatch e), (fun e => nomatch e)⟩, ?_, ?_,
      (fun e => nomatch e), (fun e => nomatch e)⟩
    · show t.sent ++ [] = (s.inp.take s.inpRead).drop _
      rw [u1, h2.2, List.drop_eq_nil_of_le (by rw [List.length_take]; omega)]
      rfl
    · omega
    · show s.out ++ [] = _
      rw [u2, List.take_zero, h6, List.append_nil]
  | remoteSend t bytes ht ho =>
    have := h.remote bytes t.remoteOpen ht (fun hc => by rw [hc] at ho; cases ho)
    exact this
  | remoteClose t ht =>
    have := h.remote [] false ht (fun _ => ⟨rfl, rfl⟩)
    simp only [List.append_nil] at this
    exact this
  | upRead up down n ht he hl =>
    obtain ⟨h0, h⟩ := h
    rw [ht] at h
    obtain ⟨req, m, t, h2, h3, h4, h5, h6, ⟨h7, h8, h9⟩, h10⟩ := h
    refine ⟨hl, req, m, t, h2, ⟨by show _ ≤ s.inpRead + n; omega, h3.2⟩, h4, h5, h6, ⟨?_, ?_, ?_⟩, h10⟩
    · show t.sent ++ (up.pending ++ _) = (s.inp.take (s.inpRead + n)).drop _
      rw [← List.append_assoc, h7, List.take_add, List.drop_append_of_le_length (by simp; omega)]
    · intro e
      have e : up.eof = true := e
      rw [he] at e
      cases e
    · intro e
      have := (h9 e).1
      rw [he] at this
      cases this
  | upWrite up down t n ht htcp =>
    obtain ⟨h0, h⟩ := h
    rw [ht] at h
    obtain ⟨req, m, t0, h2, h3, h4, h5, h6, ⟨h7, h8, h9⟩, h10⟩ := h
    rw [htcp] at h6
    cases h6
    have lk := h5.2
    rw [htcp] at lk
    refine ⟨h0, req, m, _, h2, h3, h4, ⟨h5.1, lk⟩, rfl, ⟨?_, h8, ?_⟩, h10⟩
    · show t.sent ++ up.pending.take n ++ up.pending.drop n = _
      rw [List.append_assoc, List.take_append_drop]
      exact h7
    · intro e
      obtain ⟨a1, a2⟩ := h9 e
      refine ⟨a1, ?_⟩
      show up.pending.drop n = []
      rw [a2, List.drop_nil]
  | upEof up down ht hc hr =>
    obtain ⟨h0, h⟩ := h
    rw [ht] at h
    obtain ⟨req, m, t, h2, h3, h4, h5, h6, ⟨h7, h8, h9⟩, h10⟩ := h
    exact ⟨h0, req, m, t, h2, h3, h4, h5, h6, ⟨h7, fun _ => ⟨hc, hr⟩, fun e => ⟨rfl, (h9 e).2⟩⟩, h10⟩
  | upDone up down t ht he hp htcp =>
    obtain ⟨h0, h⟩ := h
    rw [ht] at h
    obtain ⟨req, m, t0, h2, h3, h4, h5, h6, ⟨h7, h8, h9⟩, h10⟩ := h
    rw [htcp] at h6
    cases h6
    have lk := h5.2
    rw [htcp] at lk
    exact ⟨h0, req, m, _, h2, h3, h4, ⟨h5.1, lk⟩, rfl, ⟨h7, h8, fun _ => ⟨he, hp⟩⟩, h10⟩
  | downRead up down t n ht he htcp hl =>
    obtain ⟨h0, h⟩ := h
    rw [ht] at h
    obtain ⟨req, m, t0, h2, h3, h4, h5, h6, h7, h8, h9, h10, h11⟩ := h
    rw [htcp] at h6
    cases h6
    have lk := h5.2
    rw [htcp] at lk
    refine ⟨h0, req, m, _, h2, h3, h4, ⟨h5.1, lk⟩, rfl, h7, hl, ?_, ?_, ?_⟩
    · show s.out ++ (down.pending ++ _) = _ ++ t.incoming.take (t.taken + n)
      rw [← List.append_assoc, h9, List.take_add, List.append_assoc]
    · intro e
      have e : down.eof = true := e
      rw [he] at e
      cases e
    · intro e
      have := (h11 e).1
      rw [he] at this
      cases this
  | downWrite up down n ht =>
    obtain ⟨h0, h⟩ := h
    rw [ht] at h
    obtain ⟨req, m, t, h2, h3, h4, h5, h6, h7, h8, h9, h10, h11⟩ := h
    refine ⟨h0, req, m, t, h2, h3, h4, h5, h6, h7, h8, ?_, h10, ?_⟩
    · show s.out ++ down.pending.take n ++ down.pending.drop n = _
      rw [List.append_assoc, List.take_append_drop]
      exact h9
    · intro e
      obtain ⟨a1, a2⟩ := h11 e
      refine ⟨a1, ?_⟩
      show down.pending.drop n = []
      rw [a2, List.drop_nil]
  | downEof up down t ht htcp ho hr =>
    obtain ⟨h0, h⟩ := h
    rw [ht] at h
    obtain ⟨req, m, t0, h2, h3, h4, h5, h6, h7, h8, h9, h10, h11⟩ := h
    rw [htcp] at h6
    cases h6
    exact ⟨h0, req, m, t, h2, h3, h4, h5, htcp, h7, h8, h9, fun _ => ⟨ho, hr⟩, fun e => ⟨rfl, (h11 e).2⟩⟩
  | downDone up down ht he hp =>
    obtain ⟨h0, h⟩ := h
    rw [ht] at h
    obtain ⟨req, m, t, h2, h3, h4, h5, h6, h7, h8, h9, h10, h11⟩ := h
    exact ⟨h0, req, m, t, h2, h3, h4, h5, h6, h7, h8, h9, h10, fun _ => ⟨he, hp⟩⟩

/-- Everything a session has done is explained by its request. -/
theorem Stage.explained {s : Session Ip} (h : Stage A config s) : Explained A config s := by
  obtain ⟨h0, h⟩ := h
  have blank : Blank s → Explained A config s := fun h => .inl ⟨h.1, h.2.1, h.2.2.1, h.2.2.2.2⟩
  have early : ∀ {req m}, Head s req → Trail A config req s.queries s.dials (some m) → Linked s → Untouched s →
      s.out <+: Net.encode (msgCodec.enc m) → (134217728 < (msgCodec.enc m).length → s.out = []) → Explained A config s := by
    intro req m hh htr hl hu ho hlen
    refine .inr ⟨req, some m, hh.1, htr, hl.2, hlen, fun _ => ho, fun t ht => ⟨ho.trans (List.prefix_append _ _), ?_⟩⟩
    rw [(hu t ht).1]
    exact List.nil_prefix
  cases ht : s.task with
  | queued => rw [ht] at h; exact blank h.1
  | reading buf => rw [ht] at h; exact blank h.1
  | received req => rw [ht] at h; exact blank h.1
  | seeking hn p k => rw [ht] at h; exact blank h.1
  | building hn p k => rw [ht] at h; exact blank h.1
  | querying hn p r => rw [ht] at h; exact blank h.1
  | dialing tx a p =>
    rw [ht] at h
    obtain ⟨h1, h2, h3, h4, req, h5, h6, -⟩ := h
    exact .inr ⟨req, none, h5.1, by rw [h1]; exact h6, h4, h2⟩
  | replying m =>
    rw [ht] at h
    obtain ⟨h1, req, h2, h3, h4, h5⟩ := h
    exact early h2 h3 h4 h5 (by rw [h1]; exact List.nil_prefix) (fun _ => h1)
  | writing r =>
    rw [ht] at h
    obtain ⟨req, m, h2, h3, h4, h5, hl, h6⟩ := h
    exact early h2 h3 h4 h5 (by rw [← h6]; exact List.prefix_append _ _) (fun hc => by omega)
  | piping u d =>
    rw [ht] at h
    obtain ⟨req, m, t, h2, h3, h4, h5, h6, ⟨h7, -⟩, h8, h9, -⟩ := h
    refine .inr ⟨req, some m, h2, h4, h5.2, (fun hc => by have := h3.2; omega), (fun hn => by rw [h6] at hn; cases hn), fun t' e => ?_⟩
    rw [h6] at e
    cases e
    constructor
    · refine (List.prefix_append s.out d.pending).trans ?_
      rw [h9]
      exact (List.prefix_append_right_inj _).mpr (List.take_prefix ..)
    · refine (List.prefix_append t.sent u.pending).trans ?_
      rw [h7]
      exact (List.take_prefix ..).drop _
  | closed ok => rw [ht] at h; exact h.1

theorem Explained.ended {s : Session Ip} (ok : Bool) (h : Explained A config s) : Explained A config (s.end ok) := h

/-- Answers short enough for a frame can be read back. -/
theorem string_ok {s : String} (h : (Borsh.string.enc s).length ≤ 134217728) : Borsh.string.ok s := by
  show (utf8 s).length < 2 ^ 32
  simp only [Borsh.string, Borsh.bytes, List.length_append] at h
  omega

theorem trail_ok {req : Bytes} {qs : List (Query Ip)} {ds : List (Dial Ip)} {m : Msg} (h : Trail A config req qs ds (some m))
    (hl : (msgCodec.enc m).length ≤ 134217728) : msgCodec.ok m := by
  have text : ∀ ip, (msgCodec.enc (.connectResponse ip)).length ≤ 134217728 → msgCodec.ok (.connectResponse ip) := by
    intro ip h
    have h : ((5 : UInt8) :: Borsh.string.enc ip).length ≤ 134217728 := h
    exact string_ok (by simp only [List.length_cons] at h; omega)
  have io : ∀ t, (msgCodec.enc (.proxyError (.qosIoError t))).length ≤ 134217728 → msgCodec.ok (.proxyError (.qosIoError t)) := by
    intro ip h
    have h : ((0 : UInt8) :: (0 : UInt8) :: Borsh.string.enc ip).length ≤ 134217728 := h
    exact string_ok (by simp only [List.length_cons] at h; omega)
  have dns : ∀ t, (msgCodec.enc (.proxyError (.dnsResolutionError t))).length ≤ 134217728 →
      msgCodec.ok (.proxyError (.dnsResolutionError t)) := by
    intro ip h
    have h : ((0 : UInt8) :: (5 : UInt8) :: Borsh.string.enc ip).length ≤ 134217728 := h
    exact string_ok (by simp only [List.length_cons] at h; omega)
  have invalid : msgCodec.ok (.proxyError .invalidMsg) := trivial
  have parse : msgCodec.ok (.proxyError addrParseError) := by
    show (utf8 "AddrParseError(Ip)").length < 2 ^ 32
    decide
  cases h with
  | unreadable _ => exact invalid
  | status _ => exact (by decide : 0 < 256 ^ 8)
  | echo e he => exact he.2
  | notRequest _ _ _ => exact invalid
  | badIp _ _ _ _ => exact parse
  | badResolver _ _ _ _ _ _ => exact parse
  | ipConnected _ _ _ _ _ => exact text _ hl
  | ipRefused _ _ _ _ _ _ => exact io _ hl
  | noResolver _ _ _ _ _ _ _ _ => exact dns _ hl
  | queryFailed _ _ _ _ _ _ _ _ _ _ => exact dns _ hl
  | queryEmpty _ _ _ _ _ _ _ _ _ => exact dns _ hl
  | nameConnected _ _ _ _ _ _ _ _ _ _ _ => exact text _ hl
  | nameRefused _ _ _ _ _ _ _ _ _ _ _ _ => exact io _ hl

/-- The pipe is closed on both sides. -/
theorem Stage.complete {s : Session Ip} {up down : Half} (h : Stage A config s) (ht : s.task = .piping up down)
    (hu : up.done = true) (hd : down.done = true) : Complete A config s := by
  obtain ⟨h0, h⟩ := h
  rw [ht] at h
  obtain ⟨req, m, t, h2, h3, h4, h5, h6, ⟨h7, h8, h9⟩, h10, h11, h12, h13⟩ := h
  obtain ⟨a1, a2⟩ := h9 hu
  obtain ⟨b1, b2⟩ := h13 hd
  obtain ⟨c1, c2⟩ := h8 a1
  obtain ⟨d1, d2⟩ := h12 b1
  refine ⟨req, m, t, h2, h4, h6, h5.2.mp (by rw [h6]; rfl), c1, ?_, d1, ?_⟩
  · rw [a2, List.append_nil, c2, List.take_length] at h7
    exact h7
  · rw [b2, List.append_nil, d2, List.take_length] at h11
    exact h11

end Session

/-! ## The whole proxy -/

section System
variable [DecidableEq Ip] {A : Addresses Ip} {σ σ' : Sys Ip} {listeners max : Nat}

/-- The resolvers in the cache. -/
def Sys.cached (σ : Sys Ip) (r : Nat) (key : Key Ip) : Prop := (key, r) ∈ σ.cache

/-- The invariant of the proxy. -/
structure SysInv (A : Addresses Ip) (σ : Sys Ip) : Prop where
  sessions : ∀ (j : Nat) (s : Session Ip), σ.sessions[j]? = some s → Stage A σ.cached s
  built : ∀ key r, (key, r) ∈ σ.cache → σ.built[r]? = some key
  keys : (σ.cache.map Prod.fst).Nodup

theorem lookup_mem {key : Key Ip} {r : Nat} : ∀ {c : List (Key Ip × Nat)}, c.lookup key = some r → (key, r) ∈ c
  | [], h => by cases h
  | (k, x) :: c, h => by
    rw [List.lookup_cons] at h
    by_cases hk : key = k
    · subst hk
      simp at h
      subst h
      exact List.mem_cons_self ..
    · rw [beq_false_of_ne hk] at h
      exact List.mem_cons_of_mem _ (lookup_mem h)

theorem lookup_not_mem {key : Key Ip} : ∀ {c : List (Key Ip × Nat)}, c.lookup key = none → key ∉ c.map Prod.fst
  | [], _ => by simp
  | (k, x) :: c, h => by
    rw [List.lookup_cons] at h
    by_cases hk : key = k
    · subst hk
      simp at h
    · rw [beq_false_of_ne hk] at h
      have := lookup_not_mem h
      simp only [List.map_cons, List.mem_cons, not_or]
      exact ⟨hk, this⟩

theorem SysInv.setSession (h : SysInv A σ) {j : Nat} {s' : Session Ip} (hs : Stage A σ.cached s') :
    SysInv A (σ.setSession j s') where
  sessions i t hi := by
    rcases Net.get_set hi with ⟨rfl, rfl⟩ | ⟨_, hi⟩
    · exact hs
    · exact h.sessions i t hi
  built := h.built
  keys := h.keys

theorem SysInv.setGate (h : SysInv A σ) (l : Nat) (g : Gate) : SysInv A (σ.setGate l g) := ⟨h.sessions, h.built, h.keys⟩

theorem insert_cases (σ : Sys Ip) (key : Key Ip) :
    (∃ r, (key, r) ∈ σ.cache ∧ σ.insertResolver key = ({ σ with built := σ.built ++ [key] }, r)) ∨
    (key ∉ σ.cache.map Prod.fst ∧ σ.insertResolver key =
      ({ σ with built := σ.built ++ [key], cache := σ.cache ++ [(key, σ.built.length)] }, σ.built.length)) := by
  unfold Sys.insertResolver
  cases h : σ.cache.lookup key with
  | some r => exact .inl ⟨r, lookup_mem h, rfl⟩
  | none => exact .inr ⟨lookup_not_mem h, rfl⟩

theorem SysInv.insert (h : SysInv A σ) (key : Key Ip) : SysInv A (σ.insertResolver key).1 ∧
    (σ.insertResolver key).1.cached (σ.insertResolver key).2 key ∧ (σ.insertResolver key).1.sessions = σ.sessions ∧
    ∀ r k, σ.cached r k → (σ.insertResolver key).1.cached r k := by
  rcases insert_cases σ key with ⟨r, hr, e⟩ | ⟨hn, e⟩
  · rw [e]
    refine ⟨⟨h.sessions, fun k x hx => ?_, h.keys⟩, hr, rfl, fun r k hk => hk⟩
    exact Net.snoc_get (h.built k x hx)
  · rw [e]
    have mono : ∀ r k, σ.cached r k → Sys.cached { σ with built := σ.built ++ [key], cache := σ.cache ++ [(key, σ.built.length)] } r k :=
      fun r k hk => List.mem_append_left _ hk
    refine ⟨⟨fun j s hj => (h.sessions j s hj).mono mono, fun k x hx => ?_, ?_⟩, ?_, rfl, mono⟩
    · rcases List.mem_append.mp hx with hx | hx
      · exact Net.snoc_get (h.built k x hx)
      · cases List.mem_singleton.mp hx
        exact List.getElem?_concat_length
    · show ((σ.cache ++ [(key, σ.built.length)]).map Prod.fst).Nodup
      rw [List.map_append, List.nodup_append]
      refine ⟨h.keys, by simp, ?_⟩
      rintro a ha b hb rfl
      rw [List.map_singleton, List.mem_singleton] at hb
      subst hb
      exact hn ha
    · exact List.mem_append_right _ (List.mem_singleton.mpr rfl)

theorem SysInv.step (h : SysInv A σ) (hs : Step A σ σ') : SysInv A σ' := by
  cases hs with
  | connect l =>
    refine ⟨fun j s hj => ?_, h.built, h.keys⟩
    rcases Net.get_snoc hj with hj | ⟨_, rfl⟩
    · exact h.sessions j s hj
    · exact ⟨Nat.le_refl _, ⟨rfl, rfl, rfl, rfl, rfl⟩, rfl⟩
  | permit l n g _ _ _ _ => exact h.setGate _ _
  | accept l j g s hg hr hh hj hl ht =>
    refine SysInv.setSession (h.setGate _ _) ?_
    obtain ⟨h0, h1⟩ := h.sessions j s hj
    rw [ht] at h1
    refine ⟨h0, h1.1, ?_, Net.fits_nil⟩
    show [] = s.inp.take s.inpRead
    rw [h1.2, List.take_zero]
  | acceptFailed l g _ _ _ => exact h.setGate _ _
  | session j s s' hj hl => exact h.setSession ((h.sessions j s hj).step hl)
  | found j r s hn p key hj ht hc =>
    refine h.setSession ?_
    obtain ⟨h0, h1⟩ := h.sessions j s hj
    rw [ht] at h1
    obtain ⟨h1, req, rs, h2, h3, h4⟩ := h1
    exact ⟨h0, h1, req, rs, key, h2, h3, h4, lookup_mem hc⟩
  | missing j s hn p key hj ht hc =>
    refine h.setSession ?_
    obtain ⟨h0, h1⟩ := h.sessions j s hj
    rw [ht] at h1
    exact ⟨h0, h1⟩
  | insert j s hn p key hj ht =>
    obtain ⟨i1, i2, i3, i4⟩ := h.insert key
    refine i1.setSession ?_
    obtain ⟨h0, h1⟩ := h.sessions j s hj
    rw [ht] at h1
    obtain ⟨h1, req, rs, h2, h3, h4⟩ := h1
    exact ⟨h0, h1, req, rs, key, h2, h3, h4, i2⟩
  | finish j s up down g hj ht hu hd hg =>
    refine SysInv.setGate ?_ _ _
    refine h.setSession ⟨(h.sessions j s hj).1, ?_, fun _ => ?_⟩
    · exact (h.sessions j s hj).explained
    · exact (h.sessions j s hj).complete ht hu hd
  | missingConnection j s g hj ht hh hg =>
    refine SysInv.setGate ?_ _ _
    exact h.setSession ⟨(h.sessions j s hj).1, (h.sessions j s hj).explained, (fun e => nomatch e)⟩
  | abort j s g hj ht hg =>
    refine SysInv.setGate ?_ _ _
    exact h.setSession ⟨(h.sessions j s hj).1, (h.sessions j s hj).explained, (fun e => nomatch e)⟩

theorem sysInv_start : SysInv A (Sys.start listeners max) :=
  ⟨fun j s hj => by simp [Sys.start] at hj, fun k r h => by simp [Sys.start] at h, by simp [Sys.start]⟩

theorem sysInv_reachable (hr : Reachable A (Sys.start listeners max) σ) : SysInv A σ := by
  induction hr with
  | refl => exact sysInv_start
  | tail _ hs ih => exact ih.step hs

/-! ### Permits -/

theorem Action.next_active (a : Action Ip) : a.next.active = true := by cases a <;> rfl

theorem Local.keeps {s s' : Session Ip} (h : Local A s s') : s'.listener = s.listener ∧ s'.task.active = s.task.active ∧
    (s.task = .queued → s'.task = .queued) := by
  cases h with
  | query hn text p r answer ht =>
    refine ⟨rfl, ?_, (fun e => by rw [ht] at e; cases e)⟩
    rw [ht]
    match answer with
    | none => rfl
    | some [] => rfl
    | some (a :: as) => rfl
  | dispatch req ht => exact ⟨rfl, by rw [ht]; exact Action.next_active _, (fun e => by rw [ht] at e; cases e)⟩
  | clientWrite bytes ho => exact ⟨rfl, rfl, id⟩
  | clientClose => exact ⟨rfl, rfl, id⟩
  | remoteSend => exact ⟨rfl, rfl, id⟩
  | remoteClose => exact ⟨rfl, rfl, id⟩
  | read buf n m ht => exact ⟨rfl, by rw [ht]; rfl, (fun e => by rw [ht] at e; cases e)⟩
  | receive buf req ht => exact ⟨rfl, by rw [ht]; rfl, (fun e => by rw [ht] at e; cases e)⟩
  | buildFailed hn t p k ht => exact ⟨rfl, by rw [ht]; rfl, (fun e => by rw [ht] at e; cases e)⟩
  | connected t a p ht => exact ⟨rfl, by rw [ht]; rfl, (fun e => by rw [ht] at e; cases e)⟩
  | refused t e a p ht => exact ⟨rfl, by rw [ht]; rfl, (fun e => by rw [ht] at e; cases e)⟩
  | reply m ht => exact ⟨rfl, by rw [ht]; rfl, (fun e => by rw [ht] at e; cases e)⟩
  | write r n ht => exact ⟨rfl, by rw [ht]; rfl, (fun e => by rw [ht] at e; cases e)⟩
  | answered ht => exact ⟨rfl, by rw [ht]; rfl, (fun e => by rw [ht] at e; cases e)⟩
  | upRead u d n ht => exact ⟨rfl, by rw [ht]; rfl, (fun e => by rw [ht] at e; cases e)⟩
  | upWrite u d t n ht => exact ⟨rfl, by rw [ht]; rfl, (fun e => by rw [ht] at e; cases e)⟩
  | upEof u d ht => exact ⟨rfl, by rw [ht]; rfl, (fun e => by rw [ht] at e; cases e)⟩
  | upDone u d t ht => exact ⟨rfl, by rw [ht]; rfl, (fun e => by rw [ht] at e; cases e)⟩
  | downRead u d t n ht => exact ⟨rfl, by rw [ht]; rfl, (fun e => by rw [ht] at e; cases e)⟩
  | downWrite u d n ht => exact ⟨rfl, by rw [ht]; rfl, (fun e => by rw [ht] at e; cases e)⟩
  | downEof u d t ht => exact ⟨rfl, by rw [ht]; rfl, (fun e => by rw [ht] at e; cases e)⟩
  | downDone u d ht => exact ⟨rfl, by rw [ht]; rfl, (fun e => by rw [ht] at e; cases e)⟩

/-- Served by a listener. -/
def servedBy (l : Nat) (s : Session Ip) : Bool := s.listener = l && s.task.active

/-- The semaphores add up. -/
def GateInv (max : Nat) (σ : Sys Ip) : Prop :=
  ∀ (l : Nat) (g : Gate), σ.gates[l]? = some g → g.permits + g.held.toNat + σ.sessions.countP (servedBy l) = max

theorem GateInv.same (h : GateInv max σ) {j : Nat} {s s' : Session Ip} (hj : σ.sessions[j]? = some s)
    (h1 : s'.listener = s.listener) (h2 : s'.task.active = s.task.active) : GateInv max (σ.setSession j s') := by
  intro l g hg
  have hc := Net.countP_set (servedBy l) σ.sessions j s' s hj
  have : servedBy l s' = servedBy l s := by unfold servedBy; rw [h1, h2]
  rw [this] at hc
  have := h l g hg
  show _ + _ + (σ.sessions.set j s').countP (servedBy l) = max
  omega

theorem GateInv.ended (h : GateInv max σ) {j : Nat} {s : Session Ip} (ok : Bool) {g : Gate} (hj : σ.sessions[j]? = some s)
    (ht : s.task.active = true) (hg : σ.gates[s.listener]? = some g) :
    GateInv max ((σ.setSession j (s.end ok)).setGate s.listener { g with permits := g.permits + 1 }) := by
  intro l g' hg'
  have hc := Net.countP_set (servedBy l) σ.sessions j (s.end ok) s hj
  have e0 : servedBy l (s.end ok) = false := by simp [servedBy, Session.end, Task.active]
  rw [e0] at hc
  show _ + _ + (σ.sessions.set j (s.end ok)).countP (servedBy l) = max
  rcases Net.get_set hg' with ⟨rfl, rfl⟩ | ⟨hne, hg'⟩
  · have e1 : servedBy s.listener s = true := by simp [servedBy, ht]
    rw [e1] at hc
    have := h _ g hg
    simp only [Bool.toNat_true, Bool.toNat_false] at hc ⊢
    omega
  · have e1 : servedBy l s = false := by simp [servedBy, hne]
    rw [e1] at hc
    have := h l g' hg'
    simp only [Bool.toNat_false] at hc
    omega

theorem GateInv.step (h : GateInv max σ) (hs : Step A σ σ') : GateInv max σ' := by
  cases hs with
  | connect l =>
    intro l' g hg
    have := h l' g hg
    simp only [List.countP_append]
    have e : servedBy l' (Session.fresh l : Session Ip) = false := by simp [servedBy, Session.fresh, Task.active]
    simpa [e] using this
  | permit l n g hg hr hh hp =>
    intro l' g' hg'
    rcases Net.get_set hg' with ⟨rfl, rfl⟩ | ⟨hne, hg'⟩
    · have := h _ g hg
      rw [hh, hp] at this
      simp at this ⊢
      show n + 1 + σ.sessions.countP (servedBy l) = max
      omega
    · exact h l' g' hg'
  | accept l j g s hg hr hh hj hl ht =>
    intro l' g' hg'
    have hc := Net.countP_set (servedBy l') σ.sessions j { s with task := .reading [] } s hj
    have e0 : servedBy l' s = false := by simp [servedBy, ht, Task.active]
    rw [e0] at hc
    show _ + _ + (σ.sessions.set j { s with task := .reading [] }).countP (servedBy l') = max
    rcases Net.get_set hg' with ⟨rfl, rfl⟩ | ⟨hne, hg'⟩
    · have e1 : servedBy l { s with task := .reading [] } = true := by simp [servedBy, hl, Task.active]
      rw [e1] at hc
      have := h _ g hg
      rw [hh] at this
      simp only [Bool.toNat_true, Bool.toNat_false] at hc this ⊢
      omega
    · have e1 : servedBy l' { s with task := .reading [] } = false := by simp [servedBy, hl, hne]
      rw [e1] at hc
      have := h l' g' hg'
      simp only [Bool.toNat_false] at hc
      omega
  | acceptFailed l g hg hr hh =>
    intro l' g' hg'
    rcases Net.get_set hg' with ⟨rfl, rfl⟩ | ⟨hne, hg'⟩
    · have := h _ g hg
      rw [hh] at this
      simp at this ⊢
      show g.permits + 1 + σ.sessions.countP (servedBy l) = max
      omega
    · exact h l' g' hg'
  | session j s s' hj hl => exact h.same hj hl.keeps.1 hl.keeps.2.1
  | found j r s hn p key hj ht hc => exact h.same hj rfl (by rw [ht]; rfl)
  | missing j s hn p key hj ht hc => exact h.same hj rfl (by rw [ht]; rfl)
  | insert j s hn p key hj ht =>
    have : GateInv max (σ.insertResolver key).1 ∧ (σ.insertResolver key).1.sessions[j]? = some s := by
      rcases insert_cases σ key with ⟨r, hr, e⟩ | ⟨hn, e⟩ <;> rw [e] <;> exact ⟨h, hj⟩
    exact this.1.same this.2 rfl (by rw [ht]; rfl)
  | finish j s up down g hj ht hu hd hg => exact h.ended true hj (by rw [ht]; rfl) hg
  | missingConnection j s g hj ht hh hg => exact h.ended false hj (by rw [ht]; rfl) hg
  | abort j s g hj ht hg => exact h.ended false hj ht hg

theorem gateInv_reachable (hr : Reachable A (Sys.start listeners max) σ) : GateInv max σ := by
  induction hr with
  | refl =>
    intro l g hg
    simp only [Sys.start, List.getElem?_replicate] at hg
    split at hg
    · cases hg
      simp [Sys.start]
    · cases hg
  | tail _ hs ih => exact ih.step hs

theorem step_gates_length (hs : Step A σ σ') : σ'.gates.length = σ.gates.length := by
  cases hs with
  | insert j s hn p key hj ht =>
    rcases insert_cases σ key with ⟨r, hr, e⟩ | ⟨hn, e⟩ <;> rw [e] <;> rfl
  | _ => simp [Sys.setGate, Sys.setSession]

theorem gates_length (hr : Reachable A (Sys.start listeners max) σ) : σ.gates.length = listeners := by
  induction hr with
  | refl => simp [Sys.start]
  | tail _ hs ih => rw [step_gates_length hs, ih]

end System

end Proxy
end Qos
