import Verif.Lemmas.NetSeq
/-!
# Lemmas: calls and their connections
-/
namespace Qos.Net
open Stream (frame wire maxPayloadSize)

variable {S : Type}

/-- Call `k` has not opened a connection. -/
def NoConn (cs : List (Conn S)) (k : Nat) : Prop := ∀ (j : Nat) (d : Conn S), cs[j]? = some d → d.opener ≠ some k

/-- Call `k` has opened connection `j` and no other, and `Q` holds of it. -/
structure Own (cs : List (Conn S)) (k j : Nat) (Q : Conn S → Prop) : Prop where
  it : ∃ d : Conn S, cs[j]? = some d ∧ d.opener = some k ∧ Q d
  only : ∀ (j' : Nat) (d' : Conn S), cs[j']? = some d' → d'.opener = some k → j' = j

/-- Call `k` holds stream `i`. -/
def Holds (hs : List Handle) (i k : Nat) (inner : Option Nat) : Prop := ∃ a, hs[i]? = some ⟨a, some k, inner⟩

/-- What holds of a call. -/
def CallOk (hs : List Handle) (cs : List (Conn S)) (k : Nat) (req : Bytes) : CallSt → Prop
  | .waiting => NoConn cs k
  | .got i => Holds hs i k none ∧ NoConn cs k
  | .ready i j => Holds hs i k (some j) ∧ Own cs k j fun d => d.inp = [] ∧ d.outRead = 0
  | .sending i j rest => Holds hs i k (some j) ∧ req.length ≤ maxPayloadSize ∧
      Own cs k j fun d => d.inp ++ rest = frame req ∧ d.outRead = 0
  | .receiving i j buf => Holds hs i k (some j) ∧ req.length ≤ maxPayloadSize ∧ Fits buf ∧
      Own cs k j fun d => d.inp = frame req ∧ d.outRead ≤ d.out.length ∧ d.out.take d.outRead = buf
  | .finished none => NoConn cs k ∨ ∃ j, Own cs k j fun d => d.inp = [] ∨ (req.length ≤ maxPayloadSize ∧ d.inp <+: frame req)
  | .finished (some resp) => req.length ≤ maxPayloadSize ∧ resp.length ≤ maxPayloadSize ∧
      ∃ j, Own cs k j fun d => d.inp = frame req ∧ frame resp <+: d.out

/-- For call `k` nothing has changed, except that the server may have written more. -/
structure Compat (k : Nat) (cs cs' : List (Conn S)) : Prop where
  fwd : ∀ (j : Nat) (d : Conn S), cs[j]? = some d → d.opener = some k →
    ∃ d' : Conn S, cs'[j]? = some d' ∧ d'.opener = some k ∧ d'.inp = d.inp ∧ d'.outRead = d.outRead ∧ d.out <+: d'.out
  bwd : ∀ (j : Nat) (d' : Conn S), cs'[j]? = some d' → d'.opener = some k → ∃ d : Conn S, cs[j]? = some d ∧ d.opener = some k

theorem Compat.refl (k : Nat) (cs : List (Conn S)) : Compat k cs cs :=
  ⟨fun _ d h1 h2 => ⟨d, h1, h2, rfl, rfl, List.prefix_rfl⟩, fun _ d' h1 h2 => ⟨d', h1, h2⟩⟩

theorem Compat.set {k : Nat} {cs : List (Conn S)} {j : Nat} {d d' : Conn S} (hd : cs[j]? = some d)
    (ho : d'.opener = d.opener)
    (h : d.opener = some k → d'.inp = d.inp ∧ d'.outRead = d.outRead ∧ d.out <+: d'.out) : Compat k cs (cs.set j d') := by
  constructor
  · intro i e hi he
    by_cases hij : j = i
    · subst hij
      rw [hd] at hi
      injection hi with hi
      subst hi
      exact ⟨d', set_get hd, ho ▸ he, h he⟩
    · exact ⟨e, by rw [set_get_ne hij]; exact hi, he, rfl, rfl, List.prefix_rfl⟩
  · intro i e hi he
    rcases get_set hi with ⟨rfl, rfl⟩ | ⟨_, hi⟩
    · exact ⟨d, hd, ho ▸ he⟩
    · exact ⟨e, hi, he⟩

theorem Compat.snoc {k : Nat} {cs : List (Conn S)} {l : Nat} {o : Option Nat} (ho : o ≠ some k) :
    Compat k cs (cs ++ [.fresh l o]) := by
  constructor
  · intro i e hi he
    exact ⟨e, snoc_get hi, he, rfl, rfl, List.prefix_rfl⟩
  · intro i e hi he
    rcases get_snoc hi with hi | ⟨rfl, rfl⟩
    · exact ⟨e, hi, he⟩
    · exact absurd he ho

theorem NoConn.compat {k : Nat} {cs cs' : List (Conn S)} (h : NoConn cs k) (hc : Compat k cs cs') : NoConn cs' k := by
  intro j d' hj hd
  obtain ⟨d, h1, h2⟩ := hc.bwd j d' hj hd
  exact h j d h1 h2

theorem Own.compat {k j : Nat} {cs cs' : List (Conn S)} {Q Q' : Conn S → Prop} (h : Own cs k j Q) (hc : Compat k cs cs')
    (hq : ∀ d d', d'.inp = d.inp → d'.outRead = d.outRead → d.out <+: d'.out → Q d → Q' d') : Own cs' k j Q' := by
  constructor
  · obtain ⟨d, h1, h2, h3⟩ := h.it
    obtain ⟨d', g1, g2, g3, g4, g5⟩ := hc.fwd j d h1 h2
    exact ⟨d', g1, g2, hq d d' g3 g4 g5 h3⟩
  · intro i d' hi hd
    obtain ⟨d, h1, h2⟩ := hc.bwd i d' hi hd
    exact h.only i d h1 h2

theorem Own.weaken {k j : Nat} {cs : List (Conn S)} {Q Q' : Conn S → Prop} (h : Own cs k j Q) (hq : ∀ d, Q d → Q' d) :
    Own cs k j Q' := ⟨h.it.imp fun d hd => ⟨hd.1, hd.2.1, hq d hd.2.2⟩, h.only⟩

/-- The streams that call `k` holds are as before. -/
def HSame (k : Nat) (hs hs' : List Handle) : Prop := ∀ (i : Nat) (h : Handle), hs[i]? = some h → h.holder = some k → hs'[i]? = some h

theorem HSame.refl (k : Nat) (hs : List Handle) : HSame k hs hs := fun _ _ h _ => h

theorem HSame.set {k : Nat} {hs : List Handle} {i : Nat} {h h' : Handle} (hi : hs[i]? = some h) (hh : h.holder ≠ some k) :
    HSame k hs (hs.set i h') := by
  intro j g hj hg
  by_cases hij : i = j
  · subst hij
    rw [hi] at hj
    injection hj with hj
    subst hj
    exact absurd hg hh
  · rw [set_get_ne hij]; exact hj

theorem Holds.same {hs hs' : List Handle} {i k : Nat} {o : Option Nat} (h : Holds hs i k o) (hc : HSame k hs hs') :
    Holds hs' i k o := h.imp fun _ ha => hc i _ ha rfl

theorem CallOk.stable {hs hs' : List Handle} {cs cs' : List (Conn S)} {k : Nat} {req : Bytes} {st : CallSt}
    (h : CallOk hs cs k req st) (h1 : HSame k hs hs') (h2 : Compat k cs cs') : CallOk hs' cs' k req st := by
  cases st with
  | waiting => exact NoConn.compat h h2
  | got i => exact ⟨h.1.same h1, h.2.compat h2⟩
  | ready i j => exact ⟨h.1.same h1, h.2.compat h2 fun d d' a b _ q => by rw [a, b]; exact q⟩
  | sending i j rest => exact ⟨h.1.same h1, h.2.1, h.2.2.compat h2 fun d d' a b _ q => by rw [a, b]; exact q⟩
  | receiving i j buf =>
    refine ⟨h.1.same h1, h.2.1, h.2.2.1, h.2.2.2.compat h2 fun d d' a b c q => ?_⟩
    obtain ⟨q1, q2, q3⟩ := q
    refine ⟨by rw [a]; exact q1, ?_, ?_⟩
    · rw [b]; exact Nat.le_trans q2 c.length_le
    · obtain ⟨x, hx⟩ := c
      rw [b, ← hx, List.take_append_of_le_length q2, q3]
  | finished r =>
    cases r with
    | none =>
      rcases h with h | ⟨j, h⟩
      · exact .inl (h.compat h2)
      · exact .inr ⟨j, h.compat h2 fun d d' a _ _ q => by rw [a]; exact q⟩
    | some resp =>
      obtain ⟨g1, g2, j, g3⟩ := h
      exact ⟨g1, g2, j, g3.compat h2 fun d d' a _ c q => ⟨a ▸ q.1, q.2.trans c⟩⟩

/-- Clients: free streams are disconnected, held streams belong to a call, every call is fine. -/
structure ClientInv (σ : Sys S) : Prop where
  free : ∀ (i : Nat) (h : Handle), σ.handles[i]? = some h → h.holder = none → h.inner = none
  held : ∀ (i : Nat) (h : Handle) (k : Nat), σ.handles[i]? = some h → h.holder = some k → ∃ c : Call, σ.calls[k]? = some c ∧ c.st.stream = some i
  openers : ∀ (j : Nat) (d : Conn S) (k : Nat), σ.conns[j]? = some d → d.opener = some k → k < σ.calls.length
  ok : ∀ (k : Nat) (c : Call), σ.calls[k]? = some c → CallOk σ.handles σ.conns k c.req c.st

/-- Steps of the server and of other clients. -/
theorem ClientInv.server {σ σ' : Sys S} (h : ClientInv σ) (h1 : σ'.handles = σ.handles) (h2 : σ'.calls = σ.calls)
    (h3 : ∀ k, Compat k σ.conns σ'.conns) : ClientInv σ' := by
  constructor
  · rw [h1]; exact h.free
  · rw [h1, h2]; exact h.held
  · intro j d k hj hd
    obtain ⟨e, g1, g2⟩ := (h3 k).bwd j d hj hd
    rw [h2]
    exact h.openers j e k g1 g2
  · intro k c hk
    rw [h2] at hk
    rw [h1]
    exact (h.ok k c hk).stable (HSame.refl _ _) (h3 k)

/-- Steps of a call. -/
theorem ClientInv.update {σ : Sys S} (h : ClientInv σ) {hs' : List Handle} {cs' : List (Conn S)} {k : Nat} {c : Call}
    {st' : CallSt} {σ' : Sys S} (e1 : σ'.handles = hs') (e2 : σ'.conns = cs') (e3 : σ'.calls = σ.calls.set k { c with st := st' })
    (hk : σ.calls[k]? = some c) (hh : ∀ k', k' ≠ k → HSame k' σ.handles hs')
    (hc : ∀ k', k' ≠ k → Compat k' σ.conns cs')
    (free : ∀ (i : Nat) (g : Handle), hs'[i]? = some g → g.holder = none → g.inner = none)
    (held : ∀ (i : Nat) (g : Handle) (k' : Nat), hs'[i]? = some g → g.holder = some k' →
      (k' = k ∧ st'.stream = some i) ∨ (k' ≠ k ∧ ∃ g' : Handle, σ.handles[i]? = some g' ∧ g'.holder = some k'))
    (ok : CallOk hs' cs' k c.req st') : ClientInv σ' := by
  subst e1 e2
  constructor
  · exact free
  · intro i g k' hi hg
    rw [e3]
    rcases held i g k' hi hg with ⟨rfl, hs⟩ | ⟨hne, g', g1, g2⟩
    · exact ⟨_, set_get hk, hs⟩
    · obtain ⟨c', h1, h2⟩ := h.held i g' k' g1 g2
      exact ⟨c', by rw [set_get_ne (Ne.symm hne)]; exact h1, h2⟩
  · intro j d k' hj hd
    rw [e3, List.length_set]
    by_cases hkk : k' = k
    · subst hkk; exact get_lt hk
    · obtain ⟨e, g1, g2⟩ := (hc k' hkk).bwd j d hj hd
      exact h.openers j e k' g1 g2
  · intro k' c' hk'
    rw [e3] at hk'
    rcases get_set hk' with ⟨rfl, rfl⟩ | ⟨hne, hk'⟩
    · exact ok
    · exact (h.ok k' c' hk').stable (hh k' (Ne.symm hne)) (hc k' (Ne.symm hne))

/-- Steps of a call that keep the streams. -/
theorem ClientInv.advance {σ : Sys S} (h : ClientInv σ) {cs' : List (Conn S)} {k : Nat} {c : Call} {st' : CallSt}
    {σ' : Sys S} (e1 : σ'.handles = σ.handles) (e2 : σ'.conns = cs')
    (e3 : σ'.calls = σ.calls.set k { c with st := st' }) (hk : σ.calls[k]? = some c) (hst : st'.stream = c.st.stream)
    (hc : ∀ k', k' ≠ k → Compat k' σ.conns cs') (ok : CallOk σ.handles cs' k c.req st') : ClientInv σ' := by
  refine h.update e1 e2 e3 hk (fun _ _ => HSame.refl _ _) hc h.free ?_ ok
  intro i g k' hi hg
  by_cases hkk : k' = k
  · subst hkk
    obtain ⟨c', h1, h2⟩ := h.held i g k' hi hg
    rw [hk] at h1
    injection h1 with h1
    subst h1
    exact .inl ⟨rfl, hst ▸ h2⟩
  · exact .inr ⟨hkk, g, hi, hg⟩

/-- `release`: the stream, if any, is free again. -/
theorem release_spec {σ : Sys S} (h : ClientInv σ) {k : Nat} {c : Call} (hk : σ.calls[k]? = some c) :
    (∀ k', k' ≠ k → HSame k' σ.handles (σ.release c.st).handles) ∧ (∀ k', Compat k' σ.conns (σ.release c.st).conns) ∧
    (∀ (i : Nat) (g : Handle), (σ.release c.st).handles[i]? = some g → g.holder = none → g.inner = none) ∧
    (∀ (i : Nat) (g : Handle) (k' : Nat), (σ.release c.st).handles[i]? = some g → g.holder = some k' → k' ≠ k ∧ σ.handles[i]? = some g) := by
  have ok := h.ok k c hk
  have nostream : c.st.stream = none → ∀ (i : Nat) (g : Handle) (k' : Nat), σ.handles[i]? = some g → g.holder = some k' → k' ≠ k ∧ σ.handles[i]? = some g := by
    intro hn i g k' hi hg
    refine ⟨?_, hi⟩
    rintro rfl
    obtain ⟨c', h1, h2⟩ := h.held i g k' hi hg
    rw [hk] at h1
    injection h1 with h1
    subst h1
    rw [hn] at h2
    cases h2
  have hold : ∀ i, c.st.stream = some i → ∃ o, Holds σ.handles i k o := by
    intro i hi
    cases hs : c.st with
    | waiting => rw [hs] at hi; cases hi
    | got i' => rw [hs] at hi ok; cases hi; exact ⟨_, ok.1⟩
    | ready i' j => rw [hs] at hi ok; cases hi; exact ⟨_, ok.1⟩
    | sending i' j r => rw [hs] at hi ok; cases hi; exact ⟨_, ok.1⟩
    | receiving i' j r => rw [hs] at hi ok; cases hi; exact ⟨_, ok.1⟩
    | finished r => rw [hs] at hi; cases hi
  unfold Sys.release
  split
  · rename_i hn
    exact ⟨fun _ _ => HSame.refl _ _, fun _ => Compat.refl _ _, h.free, nostream hn⟩
  · rename_i i hi
    obtain ⟨o, a, ha⟩ := hold i hi
    rw [ha]
    simp only
    have hs : ((σ.setHandle i (Handle.dropGuard ⟨a, some k, o⟩)).closeIfDropped ⟨a, some k, o⟩ (Handle.dropGuard ⟨a, some k, o⟩)).handles =
        σ.handles.set i ⟨a, none, none⟩ := by
      unfold Sys.closeIfDropped
      split
      · rfl
      · split
        · rfl
        · split <;> rfl
    rw [hs]
    refine ⟨fun k' hne => HSame.set ha (by simp only [ne_eq, Option.some.injEq]; exact Ne.symm hne), ?_, ?_, ?_⟩
    · intro k'
      unfold Sys.closeIfDropped
      split
      · exact Compat.refl _ _
      · split
        · exact Compat.refl _ _
        · split
          · exact Compat.refl _ _
          · rename_i d hd
            exact Compat.set hd rfl fun _ => ⟨rfl, rfl, List.prefix_rfl⟩
    · intro i' g hi' hg
      rcases get_set hi' with ⟨rfl, rfl⟩ | ⟨_, hi'⟩
      · rfl
      · exact h.free i' g hi' hg
    · intro i' g k' hi' hg
      rcases get_set hi' with ⟨rfl, rfl⟩ | ⟨hne, hi'⟩
      · cases hg
      · refine ⟨?_, hi'⟩
        rintro rfl
        obtain ⟨c', h1, h2⟩ := h.held i' g k' hi' hg
        rw [hk] at h1
        injection h1 with h1
        subst h1
        rw [hi] at h2
        injection h2 with h2
        exact hne h2

/-- A call ends. -/
theorem ClientInv.ends {σ : Sys S} (h : ClientInv σ) {k : Nat} {c : Call} (hk : σ.calls[k]? = some c) (r : Option Bytes)
    (ok : CallOk (σ.release c.st).handles σ.conns k c.req (.finished r)) :
    ClientInv ((σ.release c.st).setCall k c (.finished r)) := by
  obtain ⟨r1, r2, r3, r4⟩ := release_spec h hk
  have hcalls : (σ.release c.st).calls = σ.calls := by
    unfold Sys.release
    split
    · rfl
    · split
      · rfl
      · unfold Sys.closeIfDropped
        split
        · rfl
        · split
          · rfl
          · split <;> rfl
  refine h.update rfl rfl (by simp only [Sys.setCall, hcalls]) hk r1 (fun k' _ => r2 k') r3 ?_
    (ok.stable (HSame.refl _ _) (r2 k))
  intro i g k' hi hg
  obtain ⟨h1, h2⟩ := r4 i g k' hi hg
  exact .inr ⟨h1, g, h2, hg⟩

theorem ClientInv.step {P : Processor S} {σ σ' : Sys S} (h : ClientInv σ) (hs : Step P σ σ') : ClientInv σ' := by
  have srv : ∀ {j : Nat} {d d' : Conn S}, σ.conns[j]? = some d → d'.opener = d.opener → d'.inp = d.inp →
      d'.outRead = d.outRead → d.out <+: d'.out → ∀ k, Compat k σ.conns (σ.conns.set j d') :=
    fun hd h1 h2 h3 h4 k => Compat.set hd h1 fun _ => ⟨h2, h3, h4⟩
  have pr : ∀ {d : Conn S}, d.out <+: d.out := List.prefix_rfl
  cases hs with
  | call req =>
    constructor
    · exact h.free
    · intro i g k hi hg
      obtain ⟨c, h1, h2⟩ := h.held i g k hi hg
      exact ⟨c, snoc_get h1, h2⟩
    · intro j d k hj hd
      have := h.openers j d k hj hd
      simp; omega
    · intro k c hk
      rcases get_snoc hk with hk | ⟨rfl, rfl⟩
      · exact h.ok k c hk
      · intro j d hj hd
        have := h.openers j d _ hj hd
        omega
  | get k i c g hk hw hi hg =>
    have ok := h.ok k c hk
    rw [hw] at ok
    obtain ⟨a, o, inn⟩ := g
    simp only at hg
    subst hg
    have hn : inn = none := h.free i _ hi rfl
    subst hn
    refine h.update (hs' := σ.handles.set i ⟨a, some k, none⟩) (cs' := σ.conns) rfl rfl rfl hk ?_
      (fun _ _ => Compat.refl _ _) ?_ ?_ ⟨⟨a, set_get hi⟩, ok⟩
    · intro k' _
      exact HSame.set hi (by simp)
    · intro i' g hi' hg
      rcases get_set hi' with ⟨rfl, rfl⟩ | ⟨_, hi'⟩
      · cases hg
      · exact h.free i' g hi' hg
    · intro i' g k' hi' hg
      rcases get_set hi' with ⟨rfl, rfl⟩ | ⟨_, ho⟩
      · simp only [Option.some.injEq] at hg
        exact .inl ⟨hg.symm, rfl⟩
      · refine .inr ⟨?_, g, ho, hg⟩
        rintro rfl
        obtain ⟨c', h1, h2⟩ := h.held i' g k' ho hg
        rw [hk] at h1
        injection h1 with h1
        subst h1
        rw [hw] at h2
        cases h2
  | connect k i c g hk hst hi =>
    have ok := h.ok k c hk
    rw [hst] at ok
    obtain ⟨⟨a, ha⟩, hno⟩ := ok
    rw [hi] at ha
    injection ha with ha
    subst ha
    unfold Sys.connectCall
    simp only
    have hlen : ∀ (j' : Nat) (d' : Conn S), (σ.conns ++ [.fresh a (some k)])[j']? = some d' → d'.opener = some k → j' = σ.conns.length := by
      intro j' d' hj hd
      rcases get_snoc hj with hj | ⟨rfl, _⟩
      · exact absurd hd (hno j' d' hj)
      · rfl
    refine h.update (hs' := σ.handles.set i ⟨a, some k, some σ.conns.length⟩) (cs' := σ.conns ++ [.fresh a (some k)])
      rfl rfl rfl hk ?_ ?_ ?_ ?_ ⟨⟨a, set_get hi⟩, ⟨_, snoc_get_last _ _, rfl, rfl, rfl⟩, hlen⟩
    · intro k' hne
      exact HSame.set hi (by simp only [ne_eq, Option.some.injEq]; exact Ne.symm hne)
    · intro k' hne
      exact Compat.snoc (by simp only [ne_eq, Option.some.injEq]; exact Ne.symm hne)
    · intro i' g hi' hg
      rcases get_set hi' with ⟨rfl, rfl⟩ | ⟨_, hi'⟩
      · cases hg
      · exact h.free i' g hi' hg
    · intro i' g k' hi' hg
      rcases get_set hi' with ⟨rfl, rfl⟩ | ⟨hne, ho⟩
      · simp only [Option.some.injEq] at hg
        exact .inl ⟨hg.symm, rfl⟩
      · refine .inr ⟨?_, g, ho, hg⟩
        rintro rfl
        obtain ⟨c', h1, h2⟩ := h.held i' g k' ho hg
        rw [hk] at h1
        injection h1 with h1
        subst h1
        rw [hst] at h2
        injection h2 with h2
        exact hne h2
  | begin k i j c hk hst hlen =>
    have ok := h.ok k c hk
    rw [hst] at ok
    refine h.advance rfl rfl rfl hk (by rw [hst]; rfl) (fun _ _ => Compat.refl _ _) ⟨ok.1, hlen, ok.2.weaken ?_⟩
    intro d q
    rw [q.1, encode_eq]
    exact ⟨rfl, q.2⟩
  | write k i j n c d rest hk hst hd =>
    have ok := h.ok k c hk
    rw [hst] at ok
    obtain ⟨o1, o2, ⟨d0, o3, o4, o5, o6⟩, o7⟩ := ok
    rw [hd] at o3
    injection o3 with o3
    subst o3
    refine h.advance (cs' := σ.conns.set j { d with inp := d.inp ++ rest.take n }) rfl rfl rfl hk (by rw [hst]; rfl) ?_
      ⟨o1, o2, ⟨_, set_get hd, o4, ?_, o6⟩, ?_⟩
    · intro k' hne
      refine Compat.set hd rfl fun he => ?_
      rw [o4] at he
      injection he with he
      exact absurd he.symm hne
    · rw [List.append_assoc, List.take_append_drop]; exact o5
    · intro j' d' hj hd'
      rcases get_set hj with ⟨rfl, _⟩ | ⟨_, hj⟩
      · rfl
      · exact o7 j' d' hj hd'
  | await k i j c hk hst =>
    have ok := h.ok k c hk
    rw [hst] at ok
    refine h.advance rfl rfl rfl hk (by rw [hst]; rfl) (fun _ _ => Compat.refl _ _)
      ⟨ok.1, ok.2.1, fits_nil, ok.2.2.weaken ?_⟩
    intro d q
    refine ⟨by rw [← q.1, List.append_nil], by rw [q.2]; exact Nat.zero_le _, by rw [q.2]; rfl⟩
  | read k i j n m c d buf hk hst hd hp hn hle =>
    have ok := h.ok k c hk
    rw [hst] at ok
    obtain ⟨o1, o2, o3, ⟨d0, o4, o5, o6, o7, o8⟩, o9⟩ := ok
    rw [hd] at o4
    injection o4 with o4
    subst o4
    refine h.advance (cs' := σ.conns.set j { d with outRead := d.outRead + n }) rfl rfl rfl hk (by rw [hst]; rfl) ?_
      ⟨o1, o2, fits_more hp (by simp; omega), ⟨_, set_get hd, o5, o6, hle, ?_⟩, ?_⟩
    · intro k' hne
      refine Compat.set hd rfl fun he => ?_
      rw [o5] at he
      injection he with he
      exact absurd he.symm hne
    · show d.out.take (d.outRead + n) = _
      rw [List.take_add, o8]
    · intro j' d' hj hd'
      rcases get_set hj with ⟨rfl, _⟩ | ⟨_, hj⟩
      · rfl
      · exact o9 j' d' hj hd'
  | finish k i j c buf resp hk hst hp =>
    have ok := h.ok k c hk
    rw [hst] at ok
    obtain ⟨o1, o2, o3, o4⟩ := ok
    obtain ⟨hb, hl⟩ := progress_done o3 hp
    refine h.ends hk (some resp) ⟨o2, hl, j, o4.weaken ?_⟩
    intro d q
    refine ⟨q.1, ?_⟩
    rw [← hb, ← q.2.2]
    exact List.take_prefix _ _
  | abort k c hk hf =>
    have ok := h.ok k c hk
    refine h.ends hk none ?_
    cases hst : c.st with
    | waiting => rw [hst] at ok; exact .inl ok
    | got i => rw [hst] at ok; exact .inl ok.2
    | ready i j => rw [hst] at ok; exact .inr ⟨j, ok.2.weaken fun d q => .inl q.1⟩
    | sending i j rest =>
      rw [hst] at ok
      exact .inr ⟨j, ok.2.2.weaken fun d q => .inr ⟨ok.2.1, ⟨rest, q.1⟩⟩⟩
    | receiving i j buf =>
      rw [hst] at ok
      exact .inr ⟨j, ok.2.2.2.weaken fun d q => .inr ⟨ok.2.1, by rw [q.1]; exact List.prefix_rfl⟩⟩
    | finished r => rw [hst] at hf; cases hf
  | expand a hf =>
    constructor
    · intro i g hi hg
      rcases get_snoc hi with hi | ⟨_, rfl⟩
      · exact h.free i g hi hg
      · rfl
    · intro i g k hi hg
      rcases get_snoc hi with hi | ⟨_, rfl⟩
      · exact h.held i g k hi hg
      · cases hg
    · exact h.openers
    · intro k c hk
      exact (h.ok k c hk).stable (fun i g hi _ => snoc_get hi) (Compat.refl _ _)
  | openOther l => exact h.server rfl rfl fun k => Compat.snoc (by simp)
  | writeOther j d bytes hd ho _ =>
    exact h.server rfl rfl fun k => Compat.set hd rfl fun he => by rw [ho] at he; cases he
  | readOther j n d hd ho _ =>
    exact h.server rfl rfl fun k => Compat.set hd rfl fun he => by rw [ho] at he; cases he
  | closeOther j d hd ho => exact h.server rfl rfl (srv hd rfl rfl rfl pr)
  | permit l g n _ _ _ => exact h.server rfl rfl fun k => Compat.refl _ _
  | accept l j g d _ _ hd _ hq => exact h.server rfl rfl (srv hd rfl rfl rfl pr)
  | acceptFailed l g _ _ => exact h.server rfl rfl fun k => Compat.refl _ _
  | serverRead j n m d buf hd h1 h2 h3 h4 => exact h.server rfl rfl (srv hd rfl rfl rfl pr)
  | serverReceived j d buf req hd h1 h2 => exact h.server rfl rfl (srv hd rfl rfl rfl pr)
  | answerDirect j d req resp hd h1 h2 => exact h.server rfl rfl (srv hd rfl rfl rfl pr)
  | lock j d req hd h1 h2 h3 => exact h.server rfl rfl (srv hd rfl rfl rfl pr)
  | unlock j d req resp s' hd h1 => exact h.server rfl rfl (srv hd rfl rfl rfl pr)
  | replyBegin j d resp hd h1 h2 => exact h.server rfl rfl (srv hd rfl rfl rfl pr)
  | serverWrite j n d rest hd h1 => exact h.server rfl rfl (srv hd rfl rfl rfl (List.prefix_append _ _))
  | serverNext j d hd h1 => exact h.server rfl rfl (srv hd rfl rfl rfl pr)
  | serverClose j d g hd h1 h2 => exact h.server rfl rfl (srv hd rfl rfl rfl pr)

theorem clientInv_reachable {P : Processor S} {σ0 σ : Sys S} (h0 : ClientInv σ0) (h : Reachable P σ0 σ) : ClientInv σ := by
  induction h with
  | refl => exact h0
  | tail _ hs ih => exact ih.step hs

end Qos.Net
