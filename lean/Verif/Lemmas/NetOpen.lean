import Verif.Lemmas.NetWork
/-!
# Lemmas: which connections of the pool are open, and where they go
-/
namespace Qos.Net
open Stream (frame wire maxPayloadSize)

variable {S : Type} {P : Processor S} {σ σ' : Sys S}

/-- A connection of the pool is open on the client's side exactly while its call is under way. -/
def OpenInv (σ : Sys S) : Prop := ∀ (j : Nat) (d : Conn S) (k : Nat) (c : Call), σ.conns[j]? = some d → d.opener = some k →
  σ.calls[k]? = some c → d.clientOpen = !c.st.isFinished

/-- And it goes to the address of a stream of the pool. -/
def AddrInv (σ : Sys S) : Prop := ∀ (j : Nat) (d : Conn S) (k : Nat), σ.conns[j]? = some d → d.opener = some k →
  ∃ (i : Nat) (h : Handle), σ.handles[i]? = some h ∧ h.address = d.listener

theorem release_held {st : CallSt} {i k j a : Nat} {d : Conn S} (h1 : st.stream = some i)
    (h2 : σ.handles[i]? = some ⟨a, some k, some j⟩) (h3 : σ.conns[j]? = some d) :
    (σ.release st).conns = σ.conns.set j { d with clientOpen := false } := by
  simp only [Sys.release, h1, h2, Handle.dropGuard, Sys.closeIfDropped, Sys.setHandle, h3, Sys.setConn]
  rfl

theorem release_free {st : CallSt} {i k a : Nat} (h1 : st.stream = some i)
    (h2 : σ.handles[i]? = some ⟨a, some k, none⟩) : (σ.release st).conns = σ.conns := by
  simp only [Sys.release, h1, h2, Handle.dropGuard, Sys.closeIfDropped, Sys.setHandle]

/-- What the end of a call does to the connections. -/
theorem release_open (h : ClientInv σ) {k : Nat} {c : Call} (hk : σ.calls[k]? = some c) (hf : c.st.isFinished = false)
    {j : Nat} {d' : Conn S} (hj : (σ.release c.st).conns[j]? = some d') :
    ∃ d, σ.conns[j]? = some d ∧ d' = { d with clientOpen := d'.clientOpen } ∧
      (d.opener ≠ some k → d'.clientOpen = d.clientOpen) ∧ (d.opener = some k → d'.clientOpen = false) := by
  have ok := h.ok k c hk
  have none : (σ.release c.st).conns = σ.conns → NoConn σ.conns k → _ := fun he hn =>
    (⟨d', he ▸ hj, rfl, fun _ => rfl, fun ho => absurd ho (hn j d' (he ▸ hj))⟩ : ∃ d, σ.conns[j]? = some d ∧
      d' = { d with clientOpen := d'.clientOpen } ∧
      (d.opener ≠ some k → d'.clientOpen = d.clientOpen) ∧ (d.opener = some k → d'.clientOpen = false))
  have one : ∀ {i j0 : Nat} {Q : Conn S → Prop}, c.st.stream = some i → Holds σ.handles i k (some j0) →
      Own σ.conns k j0 Q → ∃ d, σ.conns[j]? = some d ∧ d' = { d with clientOpen := d'.clientOpen } ∧
      (d.opener ≠ some k → d'.clientOpen = d.clientOpen) ∧ (d.opener = some k → d'.clientOpen = false) := by
    intro i j0 Q hs hh ho
    obtain ⟨a, ha⟩ := hh
    obtain ⟨d, h1, h2, _⟩ := ho.it
    rw [release_held hs ha h1] at hj
    rcases get_set hj with ⟨rfl, rfl⟩ | ⟨hne, hj⟩
    · exact ⟨d, h1, rfl, fun hx => absurd h2 hx, fun _ => rfl⟩
    · exact ⟨d', hj, rfl, fun _ => rfl, fun hx => absurd (ho.only j d' hj hx).symm hne⟩
  cases hs : c.st with
  | waiting => rw [hs] at ok; exact none (by rw [hs]; rfl) ok
  | got i =>
    rw [hs] at ok
    obtain ⟨⟨a, ha⟩, hn⟩ := ok
    exact none (release_free (by rw [hs]; rfl) ha) hn
  | ready i j0 => rw [hs] at ok; exact one (by rw [hs]; rfl) ok.1 ok.2
  | sending i j0 r => rw [hs] at ok; exact one (by rw [hs]; rfl) ok.1 ok.2.2
  | receiving i j0 r => rw [hs] at ok; exact one (by rw [hs]; rfl) ok.1 ok.2.2.2
  | finished r => rw [hs] at hf; cases hf

/-- Connections unchanged as far as `OpenInv` is concerned. -/
def SameOpen (cs cs' : List (Conn S)) : Prop := ∀ (j : Nat) (d' : Conn S) (k : Nat), cs'[j]? = some d' →
  d'.opener = some k → ∃ d : Conn S, cs[j]? = some d ∧ d.opener = some k ∧ d.clientOpen = d'.clientOpen

theorem SameOpen.refl (cs : List (Conn S)) : SameOpen cs cs := fun _ d' _ h1 h2 => ⟨d', h1, h2, rfl⟩

theorem SameOpen.set {cs : List (Conn S)} {j : Nat} {d d' : Conn S} (hd : cs[j]? = some d)
    (h1 : d'.opener = d.opener) (h2 : d'.opener ≠ none → d'.clientOpen = d.clientOpen) : SameOpen cs (cs.set j d') := by
  intro i e k hi he
  rcases get_set hi with ⟨rfl, rfl⟩ | ⟨_, hi⟩
  · exact ⟨d, hd, h1 ▸ he, (h2 (by rw [he]; simp)).symm⟩
  · exact ⟨e, hi, he, rfl⟩

theorem SameOpen.snoc (cs : List (Conn S)) (l : Nat) : SameOpen cs (cs ++ [.fresh l none]) := by
  intro i e k hi he
  rcases get_snoc hi with hi | ⟨_, rfl⟩
  · exact ⟨e, hi, he, rfl⟩
  · cases he

theorem OpenInv.same (h : OpenInv σ) (h1 : SameOpen σ.conns σ'.conns) (h2 : σ'.calls = σ.calls) : OpenInv σ' := by
  intro j d k c hj hd hk
  obtain ⟨e, g1, g2, g3⟩ := h1 j d k hj hd
  rw [← g3]
  exact h j e k c g1 g2 (h2 ▸ hk)

theorem OpenInv.moved (h : OpenInv σ) {k0 : Nat} {c0 : Call} {st : CallSt} (hk : σ.calls[k0]? = some c0)
    (hf : st.isFinished = c0.st.isFinished) (h1 : SameOpen σ.conns σ'.conns)
    (h2 : σ'.calls = σ.calls.set k0 { c0 with st }) : OpenInv σ' := by
  intro j d k c hj hd hc
  obtain ⟨e, g1, g2, g3⟩ := h1 j d k hj hd
  rw [← g3]
  rw [h2] at hc
  rcases get_set hc with ⟨rfl, rfl⟩ | ⟨_, hc⟩
  · rw [h j e k0 c0 g1 g2 hk]
    show _ = !st.isFinished
    rw [hf]
  · exact h j e k c g1 g2 hc

theorem OpenInv.ends (h : OpenInv σ) (ci : ClientInv σ) {k0 : Nat} {c0 : Call} (hk : σ.calls[k0]? = some c0)
    (hf : c0.st.isFinished = false) (r : Option Bytes) : OpenInv ((σ.release c0.st).setCall k0 c0 (.finished r)) := by
  intro j d k c hj hd hc
  obtain ⟨e, g1, g2, g3, g4⟩ := release_open ci hk hf (j := j) (d' := d) hj
  simp only [Sys.setCall, release_calls] at hc
  have ho : e.opener = some k := by rw [g2] at hd; exact hd
  rcases get_set hc with ⟨rfl, rfl⟩ | ⟨hne, hc⟩
  · exact g4 ho
  · rw [g3 (by rw [ho]; intro hx; injection hx with hx; exact hne hx.symm)]
    exact h j e k c g1 ho hc

theorem OpenInv.step (h : OpenInv σ) (ci : ClientInv σ) (hs : Step P σ σ') : OpenInv σ' := by
  cases hs with
  | call req =>
    intro j d k c hj hd hc
    rcases get_snoc hc with hc | ⟨rfl, rfl⟩
    · exact h j d k c hj hd hc
    · exact absurd (ci.openers j d _ hj hd) (Nat.lt_irrefl _)
  | get k i c g hk hst _ _ => exact h.moved hk (st := .got i) (by rw [hst]; rfl) (.refl _) rfl
  | connect k i c g hk hst hg =>
    have ok := ci.ok k c hk
    rw [hst] at ok
    obtain ⟨⟨a, ha⟩, hn⟩ := ok
    rw [hg] at ha
    injection ha with ha
    subst ha
    intro j d k' c' hj hd hc
    simp only [Sys.connectCall, Sys.setCall, Sys.setHandle, Sys.addConn] at hj hc
    rcases get_snoc hj with hj | ⟨rfl, rfl⟩
    · rcases get_set hc with ⟨rfl, rfl⟩ | ⟨_, hc⟩
      · exact absurd hd (hn j d hj)
      · exact h j d k' c' hj hd hc
    · rcases get_set hc with ⟨rfl, rfl⟩ | ⟨hne, hc⟩
      · rfl
      · injection hd with hd
        exact absurd hd hne
  | begin k i j c hk hst _ => exact h.moved hk (st := .sending _ _ _) (by rw [hst]; rfl) (.refl _) rfl
  | write k i j n c d rest hk hst hd =>
    exact h.moved hk (st := .sending _ _ _) (by rw [hst]; rfl) (.set hd rfl fun _ => rfl) rfl
  | await k i j c hk hst => exact h.moved hk (st := .receiving _ _ _) (by rw [hst]; rfl) (.refl _) rfl
  | read k i j n m c d buf hk hst hd _ _ _ =>
    exact h.moved hk (st := .receiving _ _ _) (by rw [hst]; rfl) (.set hd rfl fun _ => rfl) rfl
  | finish k i j c buf resp hk hst _ => exact h.ends ci hk (by rw [hst]; rfl) _
  | abort k c hk hf => exact h.ends ci hk hf _
  | expand a _ => exact h.same (.refl _) rfl
  | openOther l => exact h.same (.snoc _ _) rfl
  | writeOther j d bytes hd _ _ => exact h.same (.set hd rfl fun _ => rfl) rfl
  | readOther j n d hd _ _ => exact h.same (.set hd rfl fun _ => rfl) rfl
  | closeOther j d hd ho => exact h.same (.set hd rfl fun hx => absurd ho hx) rfl
  | permit l g n _ _ _ => exact h.same (.refl _) rfl
  | accept l j g d _ _ hd _ _ => exact h.same (.set hd rfl fun _ => rfl) rfl
  | acceptFailed l g _ _ => exact h.same (.refl _) rfl
  | serverRead j n m d buf hd _ _ _ _ => exact h.same (.set hd rfl fun _ => rfl) rfl
  | serverReceived j d buf req hd _ _ => exact h.same (.set hd rfl fun _ => rfl) rfl
  | answerDirect j d req resp hd _ _ => exact h.same (.set hd rfl fun _ => rfl) rfl
  | lock j d req hd _ _ _ => exact h.same (.set hd rfl fun _ => rfl) rfl
  | unlock j d req resp s' hd _ => exact h.same (.set hd rfl fun _ => rfl) rfl
  | replyBegin j d resp hd _ _ => exact h.same (.set hd rfl fun _ => rfl) rfl
  | serverWrite j n d rest hd _ => exact h.same (.set hd rfl fun _ => rfl) rfl
  | serverNext j d hd _ => exact h.same (.set hd rfl fun _ => rfl) rfl
  | serverClose j d g hd _ _ => exact h.same (.set hd rfl fun _ => rfl) rfl

/-! ## Addresses -/

/-- Streams keep their addresses. -/
def SameAddr (hs hs' : List Handle) : Prop := ∀ (i : Nat) (h : Handle), hs[i]? = some h →
  ∃ h', hs'[i]? = some h' ∧ h'.address = h.address

theorem SameAddr.refl (hs : List Handle) : SameAddr hs hs := fun _ h hi => ⟨h, hi, rfl⟩

theorem SameAddr.set {hs : List Handle} {i : Nat} {h h' : Handle} (hi : hs[i]? = some h) (ha : h'.address = h.address) :
    SameAddr hs (hs.set i h') := by
  intro j g hj
  by_cases hij : i = j
  · subst hij
    rw [hi] at hj
    injection hj with hj
    subst hj
    exact ⟨h', set_get hi, ha⟩
  · exact ⟨g, by rw [set_get_ne hij]; exact hj, rfl⟩

theorem release_addr (σ : Sys S) (st : CallSt) : SameAddr σ.handles (σ.release st).handles := by
  unfold Sys.release
  split
  · exact .refl _
  · split
    · exact .refl _
    · rename_i i _ _ g hg
      have e : ((σ.setHandle i g.dropGuard).closeIfDropped g g.dropGuard).handles = σ.handles.set i g.dropGuard := by
        unfold Sys.closeIfDropped
        split
        · rfl
        · split
          · rfl
          · split <;> rfl
      rw [e]
      exact .set hg rfl

/-- Connections keep their listeners. -/
def SameWhere (cs cs' : List (Conn S)) : Prop := ∀ (j : Nat) (d' : Conn S) (k : Nat), cs'[j]? = some d' →
  d'.opener = some k → ∃ d : Conn S, cs[j]? = some d ∧ d.opener = some k ∧ d.listener = d'.listener

theorem SameWhere.refl (cs : List (Conn S)) : SameWhere cs cs := fun _ d' _ h1 h2 => ⟨d', h1, h2, rfl⟩

theorem SameWhere.set {cs : List (Conn S)} {j : Nat} {d d' : Conn S} (hd : cs[j]? = some d)
    (h1 : d'.opener = d.opener) (h2 : d'.listener = d.listener) : SameWhere cs (cs.set j d') := by
  intro i e k hi he
  rcases get_set hi with ⟨rfl, rfl⟩ | ⟨_, hi⟩
  · exact ⟨d, hd, h1 ▸ he, h2.symm⟩
  · exact ⟨e, hi, he, rfl⟩

theorem connChange_where {j : Nat} {d d' : Conn S} {es : List Entry} (h : ConnChange P j d d' es) :
    d'.opener = d.opener ∧ d'.listener = d.listener := by
  cases h <;> exact ⟨rfl, rfl⟩

theorem AddrInv.same (h : AddrInv σ) (h1 : SameWhere σ.conns σ'.conns) (h2 : SameAddr σ.handles σ'.handles) :
    AddrInv σ' := by
  intro j d k hj hd
  obtain ⟨e, g1, g2, g3⟩ := h1 j d k hj hd
  obtain ⟨i, x, x1, x2⟩ := h j e k g1 g2
  obtain ⟨y, y1, y2⟩ := h2 i x x1
  exact ⟨i, y, y1, by rw [y2, x2, g3]⟩

theorem release_where (σ : Sys S) (st : CallSt) : SameWhere σ.conns (σ.release st).conns := by
  unfold Sys.release
  split
  · exact .refl _
  · split
    · exact .refl _
    · unfold Sys.closeIfDropped
      split
      · exact .refl _
      · split
        · exact .refl _
        · split
          · exact .refl _
          · rename_i c hc
            exact .set hc rfl rfl

theorem AddrInv.step (h : AddrInv σ) (hs : Step P σ σ') : AddrInv σ' := by
  cases hs with
  | call req => exact h
  | get k i c g hk hst hg _ => exact h.same (.refl _) (.set hg rfl)
  | connect k i c g hk hst hg =>
    unfold Sys.connectCall
    split
    · exact h
    · intro j d k' hj hd
      rcases get_snoc hj with hj | ⟨rfl, rfl⟩
      · obtain ⟨i', x, x1, x2⟩ := h j d k' hj hd
        obtain ⟨y, y1, y2⟩ := SameAddr.set (h' := { g with inner := some σ.conns.length }) hg rfl i' x x1
        exact ⟨i', y, y1, by rw [y2, x2]⟩
      · exact ⟨i, _, set_get hg, rfl⟩
  | begin k i j c hk hst _ => exact h
  | write k i j n c d rest hk hst hd => exact h.same (.set hd rfl rfl) (.refl _)
  | await k i j c hk hst => exact h
  | read k i j n m c d buf hk hst hd _ _ _ => exact h.same (.set hd rfl rfl) (.refl _)
  | finish k i j c buf resp hk hst _ => exact h.same (release_where σ c.st) (release_addr σ c.st)
  | abort k c hk hf => exact h.same (release_where σ c.st) (release_addr σ c.st)
  | expand a _ => exact h.same (.refl _) fun i g hi => ⟨g, snoc_get hi, rfl⟩
  | openOther l =>
    refine h.same (fun i e k hi he => ?_) (.refl _)
    rcases get_snoc hi with hi | ⟨_, rfl⟩
    · exact ⟨e, hi, he, rfl⟩
    · cases he
  | writeOther j d bytes hd _ _ => exact h.same (.set hd rfl rfl) (.refl _)
  | readOther j n d hd _ _ => exact h.same (.set hd rfl rfl) (.refl _)
  | closeOther j d hd ho => exact h.same (.set hd rfl rfl) (.refl _)
  | permit l g n _ _ _ => exact h
  | accept l j g d _ _ hd _ _ => exact h.same (.set hd rfl rfl) (.refl _)
  | acceptFailed l g _ _ => exact h
  | serverRead j n m d buf hd _ _ _ _ => exact h.same (.set hd rfl rfl) (.refl _)
  | serverReceived j d buf req hd _ _ => exact h.same (.set hd rfl rfl) (.refl _)
  | answerDirect j d req resp hd _ _ => exact h.same (.set hd rfl rfl) (.refl _)
  | lock j d req hd _ _ _ => exact h.same (.set hd rfl rfl) (.refl _)
  | unlock j d req resp s' hd _ => exact h.same (.set hd rfl rfl) (.refl _)
  | replyBegin j d resp hd _ _ => exact h.same (.set hd rfl rfl) (.refl _)
  | serverWrite j n d rest hd _ => exact h.same (.set hd rfl rfl) (.refl _)
  | serverNext j d hd _ => exact h.same (.set hd rfl rfl) (.refl _)
  | serverClose j d g hd _ _ => exact h.same (.set hd rfl rfl) (.refl _)

theorem openInv_reachable {σ0 : Sys S} (c0 : ClientInv σ0) (h0 : OpenInv σ0) (h : Reachable P σ0 σ) : OpenInv σ := by
  induction h with
  | refl => exact h0
  | tail h hs ih => exact ih.step (clientInv_reachable c0 h) hs

theorem addrInv_reachable {σ0 : Sys S} (h0 : AddrInv σ0) (h : Reachable P σ0 σ) : AddrInv σ := by
  induction h with
  | refl => exact h0
  | tail _ hs ih => exact ih.step hs

end Qos.Net
