import Verif.Spec.Net
import Mathlib.Tactic.ByContra
/-!
# Lemmas: invariants of clients and server
-/
namespace Qos.Net
open Stream (frame wire maxPayloadSize)

variable {S : Type}

/-! ## Framing -/

theorem encode_eq (m : Bytes) : encode m = frame m := rfl

/-- A buffer that a `recv` can have read: never more than the announced message. -/
def Fits (buf : Bytes) : Prop := buf.length ≤ 8 ∨ buf.length ≤ 8 + leNat (buf.take 8)

theorem fits_nil : Fits [] := .inl (by simp)

theorem fits_more {buf x : Bytes} {m : Nat} (h : progress buf = .more m) (hx : x.length ≤ m) : Fits (buf ++ x) := by
  unfold progress at h
  by_cases h8 : buf.length < 8
  · rw [if_pos h8] at h
    injection h with h
    left; simp; omega
  · rw [if_neg h8] at h
    split at h
    · cases h
    · split at h
      · injection h with h
        right
        rw [List.take_append_of_le_length (by omega)]
        simp; omega
      · cases h

theorem small_header {m : Bytes} (h : m.length ≤ maxPayloadSize) : leNat (leBytes 8 m.length) = m.length := by
  apply leNat_leBytes_of_lt
  have : maxPayloadSize < 256 ^ 8 := by decide
  omega

theorem frame_length (m : Bytes) : (frame m).length = 8 + m.length := by simp [frame]

theorem leNat_inj : ∀ {a b : Bytes}, a.length = b.length → leNat a = leNat b → a = b
  | [], [], _, _ => rfl
  | x :: a, y :: b, hl, h => by
    simp [leNat] at h hl
    have hx := x.toNat_lt
    have hy := y.toNat_lt
    have h1 : x.toNat = y.toNat := by omega
    have h2 : leNat a = leNat b := by omega
    rw [UInt8.toNat_inj.1 h1, leNat_inj hl h2]

theorem progress_done {buf m : Bytes} (hf : Fits buf) (h : progress buf = .done m) :
    buf = frame m ∧ m.length ≤ maxPayloadSize := by
  unfold progress at h
  by_cases h8 : buf.length < 8
  · rw [if_pos h8] at h; cases h
  · rw [if_neg h8] at h
    split at h
    · cases h
    · rename_i hmax
      split at h
      · cases h
      · rename_i hlen
        injection h with h
        subst h
        have hl : buf.length = 8 + leNat (buf.take 8) := by
          rcases hf with hf | hf
          · have : buf.length = 8 := by omega
            omega
          · omega
        have hm : (buf.drop 8).length = leNat (buf.take 8) := by simp; omega
        refine ⟨?_, by omega⟩
        unfold frame
        have : leBytes 8 (buf.drop 8).length = buf.take 8 := by
          apply leNat_inj
          · simp; omega
          · rw [small_header (by omega), hm]
        rw [this, List.take_append_drop]

theorem progress_frame {m : Bytes} (h : m.length ≤ maxPayloadSize) : progress (frame m) = .done m := by
  have ht : (frame m).take 8 = leBytes 8 m.length := by
    unfold frame
    rw [List.take_append_of_le_length (by simp), List.take_of_length_le (by simp)]
  have hd : (frame m).drop 8 = m := by
    unfold frame
    rw [List.drop_append_of_le_length (by simp), List.drop_eq_nil_of_le (by simp), List.nil_append]
  unfold progress
  rw [ht, hd, frame_length, small_header h]
  rw [if_neg (by omega), if_neg (by omega), if_neg (by omega)]

/-- Frames of messages within the limit are prefix-free. -/
theorem frame_prefix {a b x y : Bytes} (ha : a.length ≤ maxPayloadSize) (hb : b.length ≤ maxPayloadSize)
    (h : frame a ++ x = frame b ++ y) : a = b ∧ x = y := by
  have hh : leBytes 8 a.length = leBytes 8 b.length := by
    have := congrArg (List.take 8) h
    unfold frame at this
    rw [List.append_assoc, List.append_assoc, List.take_append_of_le_length (by simp),
      List.take_append_of_le_length (by simp), List.take_of_length_le (by simp), List.take_of_length_le (by simp)] at this
    exact this
  have hl : a.length = b.length := by
    rw [← small_header ha, ← small_header hb, hh]
  unfold frame at h
  rw [List.append_assoc, List.append_assoc, hh] at h
  have h := List.append_cancel_left h
  exact List.append_inj h hl

/-- All messages are within the limit. -/
def Small (l : List Bytes) : Prop := ∀ m ∈ l, m.length ≤ maxPayloadSize

theorem wire_append (a b : List Bytes) : wire (a ++ b) = wire a ++ wire b := by simp [wire]

theorem wire_single (m : Bytes) : wire [m] = frame m := by simp [wire]

theorem frame_ne_nil (m : Bytes) : frame m ≠ [] := by
  intro h
  have := congrArg List.length h
  rw [frame_length] at this
  simp at this

/-- Frames inside one frame: at most that one. -/
theorem wire_in_frame {l : List Bytes} {m : Bytes} (hl : Small l) (hm : m.length ≤ maxPayloadSize)
    (h : wire l <+: frame m) : l = [] ∨ l = [m] := by
  cases l with
  | nil => exact .inl rfl
  | cons a l =>
    obtain ⟨x, hx⟩ := h
    have h1 : frame a ++ (wire l ++ x) = frame m ++ [] := by
      rw [← hx]; simp [wire]
    obtain ⟨rfl, h2⟩ := frame_prefix (hl a (by simp)) hm h1
    right
    cases l with
    | nil => rfl
    | cons b l =>
      exfalso
      have : frame b = [] := by
        have h3 := (List.append_eq_nil_iff.1 h2).1
        simp [wire] at h3
        exact h3.1
      exact frame_ne_nil b this

/-- A frame at the start of frames is the first of them. -/
theorem frame_in_wire {l : List Bytes} {m : Bytes} (hl : Small l) (hm : m.length ≤ maxPayloadSize)
    (h : frame m <+: wire l) : ∃ l', l = m :: l' := by
  cases l with
  | nil =>
    exfalso
    exact frame_ne_nil m (List.prefix_nil.1 h)
  | cons a l =>
    obtain ⟨x, hx⟩ := h
    have h1 : frame m ++ x = frame a ++ wire l := by rw [hx]; simp [wire]
    obtain ⟨rfl, _⟩ := frame_prefix hm (hl a (by simp)) h1
    exact ⟨l, rfl⟩

/-! ## List updates -/

theorem get_set {α : Type} {l : List α} {i j : Nat} {a b : α} (h : (l.set i a)[j]? = some b) :
    (i = j ∧ b = a) ∨ (i ≠ j ∧ l[j]? = some b) := by
  rw [List.getElem?_set] at h
  by_cases hij : i = j
  · rw [if_pos hij] at h
    split at h
    · injection h with h; exact .inl ⟨hij, h.symm⟩
    · cases h
  · rw [if_neg hij] at h
    exact .inr ⟨hij, h⟩

theorem get_snoc {α : Type} {l : List α} {j : Nat} {a b : α} (h : (l ++ [a])[j]? = some b) :
    l[j]? = some b ∨ (j = l.length ∧ b = a) := by
  by_cases hj : j < l.length
  · rw [List.getElem?_append_left hj] at h; exact .inl h
  · rw [List.getElem?_append_right (by omega)] at h
    have : j - l.length = 0 := by
      by_contra hne
      rw [List.getElem?_eq_none (by simp; omega)] at h
      cases h
    rw [this] at h
    simp at h
    exact .inr ⟨by omega, h.symm⟩

theorem get_lt {α : Type} {l : List α} {j : Nat} {b : α} (h : l[j]? = some b) : j < l.length := by
  by_contra hc
  rw [List.getElem?_eq_none (by omega)] at h
  cases h

theorem set_get {α : Type} {l : List α} {i : Nat} {a b : α} (h : l[i]? = some b) : (l.set i a)[i]? = some a := by
  rw [List.getElem?_set_self (get_lt h)]

theorem set_get_ne {α : Type} {l : List α} {i j : Nat} {a : α} (h : i ≠ j) : (l.set i a)[j]? = l[j]? := by
  rw [List.getElem?_set_ne h]

theorem snoc_get {α : Type} {l : List α} {j : Nat} {a b : α} (h : l[j]? = some b) : (l ++ [a])[j]? = some b := by
  rw [List.getElem?_append_left (get_lt h)]; exact h

theorem snoc_get_last {α : Type} (l : List α) (a : α) : (l ++ [a])[l.length]? = some a := by simp

/-! ## What a step does to the connections -/

/-- The change of one connection in a step. -/
inductive ConnChange (P : Processor S) (j : Nat) (d : Conn S) : Conn S → List Entry → Prop
  | input (bytes : Bytes) : ConnChange P j d { d with inp := d.inp ++ bytes } []
  | output (n : Nat) : ConnChange P j d { d with outRead := n } []
  | close (b : Bool) : ConnChange P j d { d with clientOpen := b } []
  | accept : d.serve = .queued → ConnChange P j d { d with serve := .reading [] } []
  | read (n m : Nat) (buf : Bytes) : d.serve = .reading buf → progress buf = .more m → n ≤ m → d.inpRead + n ≤ d.inp.length →
      ConnChange P j d { d with inpRead := d.inpRead + n, serve := .reading (buf ++ (d.inp.drop d.inpRead).take n) } []
  | received (buf req : Bytes) : d.serve = .reading buf → progress buf = .done req →
      ConnChange P j d { d with serve := .received req } []
  | lock (req resp : Bytes) (s' : S) : d.serve = .received req → ConnChange P j d { d with serve := .handling req resp s' } []
  | answer (req resp : Bytes) : (d.serve = .received req ∨ ∃ s', d.serve = .handling req resp s') →
      ConnChange P j d { d with serve := .replying resp } [⟨j, req, resp⟩]
  | begin (resp : Bytes) : d.serve = .replying resp → resp.length ≤ maxPayloadSize →
      ConnChange P j d { d with serve := .writing (encode resp) } []
  | write (n : Nat) (rest : Bytes) : d.serve = .writing rest →
      ConnChange P j d { d with out := d.out ++ rest.take n, serve := .writing (rest.drop n) } []
  | next : d.serve = .writing [] → ConnChange P j d { d with serve := .reading [] } []
  | finish : ((∃ buf, d.serve = .reading buf) ∨ (∃ resp, d.serve = .replying resp) ∨ ∃ rest, d.serve = .writing rest) →
      ConnChange P j d { d with serve := .closed } []

/-- The change of all connections, and the new log entries. -/
inductive ConnsChange (P : Processor S) (cs : List (Conn S)) : List (Conn S) → List Entry → Prop
  | same : ConnsChange P cs cs []
  | added (l : Nat) (o : Option Nat) : ConnsChange P cs (cs ++ [.fresh l o]) []
  | changed (j : Nat) (d d' : Conn S) (es : List Entry) : cs[j]? = some d → ConnChange P j d d' es →
      ConnsChange P cs (cs.set j d') es

theorem release_conns (P : Processor S) (σ : Sys S) (st : CallSt) :
    ConnsChange P σ.conns (σ.release st).conns [] ∧ (σ.release st).log = σ.log ∧ (σ.release st).calls = σ.calls ∧
    (σ.release st).gates = σ.gates ∧ (σ.release st).lock = σ.lock ∧ (σ.release st).state = σ.state := by
  unfold Sys.release
  split
  · exact ⟨.same, rfl, rfl, rfl, rfl, rfl⟩
  · split
    · exact ⟨.same, rfl, rfl, rfl, rfl, rfl⟩
    · unfold Sys.closeIfDropped
      split
      · exact ⟨.same, rfl, rfl, rfl, rfl, rfl⟩
      · split
        · exact ⟨.same, rfl, rfl, rfl, rfl, rfl⟩
        · split
          · exact ⟨.same, rfl, rfl, rfl, rfl, rfl⟩
          · rename_i c hc
            exact ⟨.changed _ c _ [] hc (.close false), rfl, rfl, rfl, rfl, rfl⟩

theorem step_conns {P : Processor S} {σ σ' : Sys S} (h : Step P σ σ') :
    ∃ es, ConnsChange P σ.conns σ'.conns es ∧ σ'.log = σ.log ++ es := by
  have nolog : ∀ {cs cs' : List (Conn S)}, ConnsChange P cs cs' [] → ∃ es, ConnsChange P cs cs' es ∧ σ.log = σ.log ++ es :=
    fun h => ⟨[], h, by simp⟩
  cases h with
  | call req => exact nolog .same
  | get k i c h _ _ _ _ => exact nolog .same
  | connect k i c h _ _ _ =>
    unfold Sys.connectCall
    split
    · exact nolog .same
    · exact nolog (.added _ _)
  | begin k i j c _ _ _ => exact nolog .same
  | write k i j n c d rest _ _ hd => exact nolog (.changed j d _ [] hd (.input _))
  | await k i j c _ _ => exact nolog .same
  | read k i j n m c d buf _ _ hd _ _ _ => exact nolog (.changed j d _ [] hd (.output _))
  | finish k i j c buf resp _ _ _ =>
    have := release_conns P σ c.st
    exact ⟨[], this.1, by simpa [Sys.setCall] using this.2.1⟩
  | abort k c _ _ =>
    have := release_conns P σ c.st
    exact ⟨[], this.1, by simpa [Sys.setCall] using this.2.1⟩
  | expand a _ => exact nolog .same
  | openOther l => exact nolog (.added _ _)
  | writeOther j d bytes hd _ _ => exact nolog (.changed j d _ [] hd (.input _))
  | readOther j n d hd _ _ => exact nolog (.changed j d _ [] hd (.output _))
  | closeOther j d hd _ => exact nolog (.changed j d _ [] hd (.close _))
  | permit l g n _ _ _ => exact nolog .same
  | accept l j g d _ _ hd _ hq => exact nolog (.changed j d _ [] hd (.accept hq))
  | acceptFailed l g _ _ => exact nolog .same
  | serverRead j n m d buf hd h1 h2 h3 h4 => exact nolog (.changed j d _ [] hd (.read n m buf h1 h2 h3 h4))
  | serverReceived j d buf req hd h1 h2 => exact nolog (.changed j d _ [] hd (.received buf req h1 h2))
  | answerDirect j d req resp hd h1 h2 => exact ⟨_, .changed j d _ _ hd (.answer req resp (.inl h1)), rfl⟩
  | lock j d req hd h1 h2 h3 => exact nolog (.changed j d _ [] hd (.lock req _ _ h1))
  | unlock j d req resp s' hd h1 => exact ⟨_, .changed j d _ _ hd (.answer req resp (.inr ⟨s', h1⟩)), rfl⟩
  | replyBegin j d resp hd h1 h2 => exact nolog (.changed j d _ [] hd (.begin resp h1 h2))
  | serverWrite j n d rest hd h1 => exact nolog (.changed j d _ [] hd (.write n rest h1))
  | serverNext j d hd h1 => exact nolog (.changed j d _ [] hd (.next h1))
  | serverClose j d g hd h1 h2 => exact nolog (.changed j d _ [] hd (.finish h1))

end Qos.Net
