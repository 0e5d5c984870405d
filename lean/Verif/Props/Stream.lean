import Verif.Lemmas.Basic
import Verif.Model.Stream
/-!
# C23 – stream framing

Specification: the wire image of a message is its 8-byte little-endian length followed by the
message (`frame`); the wire image of a sequence is the concatenation (`wire`).
-/
namespace Qos.Stream

/-- Specification: the wire image of one message. -/
def frame (m : Bytes) : Bytes := leBytes 8 m.length ++ m

/-- Specification: the wire image of a sequence of messages. -/
def wire (ms : List Bytes) : Bytes := (ms.map frame).flatten

/-! ## helper lemmas -/

private theorem writeAll_spec (outs : List WriteOutcome) (buf : Bytes) :
    (writeAll buf outs).sent <+: buf ∧
    ((writeAll buf outs).status = .done → (writeAll buf outs).sent = buf) ∧
    (∀ o ∈ (writeAll buf outs).offers, o.length ≤ buf.length) := by
  induction outs generalizing buf with
  | nil =>
    unfold writeAll
    by_cases hb : buf = [] <;> simp [hb]
  | cons o outs ih =>
    unfold writeAll
    split
    · rename_i hb; subst hb; simp
    · cases o with
      | fail => simp
      | accept n =>
        simp only
        split
        · simp
        · obtain ⟨⟨t, ht⟩, h2, h3⟩ := ih (buf.drop n)
          refine ⟨⟨t, ?_⟩, ?_, ?_⟩
          · simp only [List.append_assoc, ht, List.take_append_drop]
          · intro hd
            simp only [h2 hd, List.take_append_drop]
          · intro o ho
            simp only [List.mem_cons] at ho
            rcases ho with rfl | ho
            · exact Nat.le_refl _
            · have := h3 o ho
              simp at this; omega

private theorem sendBody_spec (outs : List WriteOutcome) (buf : Bytes) (total : Nat) :
    (sendBody buf total outs).sent <+: buf.drop total ∧
    ((sendBody buf total outs).status = .done → (sendBody buf total outs).sent = buf.drop total) ∧
    (∀ o ∈ (sendBody buf total outs).offers, o.length ≤ maxWriteSize) := by
  induction outs generalizing total with
  | nil =>
    unfold sendBody
    by_cases hb : total < buf.length <;> simp [hb]
    omega
  | cons o outs ih =>
    have hoff : ∀ k, k ≤ (bodyOffer buf total).length →
        (bodyOffer buf total).take k ++ buf.drop (total + k) = buf.drop total := by
      intro k hk
      have e : bodyOffer buf total = (buf.drop total).take (min buf.length (total + maxWriteSize) - total) := by
        simp [bodyOffer, List.drop_take]
      rw [e] at hk ⊢
      rw [List.take_take]
      simp at hk
      have : min k (min buf.length (total + maxWriteSize) - total) = k := by omega
      rw [this, ← List.drop_drop, List.take_append_drop]
    have hlen : (bodyOffer buf total).length ≤ maxWriteSize := by
      simp [bodyOffer]; omega
    unfold sendBody
    split
    · cases o with
      | fail => simpa using hlen
      | accept n =>
        simp only
        obtain ⟨⟨t, ht⟩, h2, h3⟩ := ih (total + min n (bodyOffer buf total).length)
        have hk := hoff (min n (bodyOffer buf total).length) (by omega)
        refine ⟨⟨t, ?_⟩, ?_, ?_⟩
        · simp only [List.append_assoc, ht, hk]
        · intro hd
          simp only [h2 hd, hk]
        · intro o ho
          simp only [List.mem_cons] at ho
          rcases ho with rfl | ho
          · exact hlen
          · exact h3 o ho
    · rename_i hb
      have : buf.drop total = [] := by simp; omega
      simp [this]

private theorem readExact_spec (cs : List Bytes) (n : Nat) (hne : ∀ c ∈ cs, c ≠ []) :
    (∀ c ∈ (readExact n cs).2, c ≠ []) ∧
    (if n ≤ cs.flatten.length then
      (readExact n cs).1 = .ok (cs.flatten.take n) ∧ (readExact n cs).2.flatten = cs.flatten.drop n
     else (readExact n cs).1 = .error .recvConnectionClosed) := by
  induction cs generalizing n with
  | nil =>
    unfold readExact
    by_cases hn : n = 0 <;> simp [hn]
  | cons c cs ih =>
    have hc : c ≠ [] := hne c (by simp)
    have hcl : 0 < c.length := List.length_pos_iff.2 hc
    have hcs : ∀ c ∈ cs, c ≠ [] := fun x hx => hne x (by simp [hx])
    by_cases hn : n = 0
    · subst hn
      simp only [readExact, if_true]
      exact ⟨hne, by simp⟩
    · by_cases hle : c.length ≤ n
      · have ih := ih (n - c.length) hcs
        have hu : readExact n (c :: cs) = match readExact (n - c.length) cs with
            | (.ok r, cs') => (.ok (c ++ r), cs')
            | (.error e, cs') => (.error e, cs') := by
          rw [readExact, if_neg hn, if_neg hc, if_pos hle]; rfl
        rw [hu]
        revert ih
        rcases readExact (n - c.length) cs with ⟨r, cs'⟩
        rintro ⟨h1, h2⟩
        have hcond : (n ≤ (c :: cs).flatten.length) ↔ (n - c.length ≤ cs.flatten.length) := by
          simp; omega
        by_cases hx : n - c.length ≤ cs.flatten.length
        · rw [if_pos hx] at h2
          rw [if_pos (hcond.2 hx)]
          simp only at h1 h2
          rw [h2.1]
          refine ⟨by simpa using h1, ?_, ?_⟩
          · simp [List.take_append, List.take_of_length_le hle]
          · simp only [h2.2, List.flatten_cons, List.drop_append]
            rw [List.drop_of_length_le hle]; simp
        · rw [if_neg hx] at h2
          rw [if_neg (fun h => hx (hcond.1 h))]
          simp only at h1 h2
          rw [h2]
          exact ⟨by simpa using h1, rfl⟩
      · have hle' : n ≤ c.length := by omega
        have hu : readExact n (c :: cs) = (.ok (c.take n), c.drop n :: cs) := by
          rw [readExact, if_neg hn, if_neg hc, if_neg hle]
        have hl : n ≤ (c :: cs).flatten.length := by simp; omega
        rw [hu, if_pos hl]
        refine ⟨?_, ?_, ?_⟩
        · intro x hx
          simp only [List.mem_cons] at hx
          rcases hx with rfl | hx
          · simp; omega
          · exact hcs x hx
        · simp [List.take_append_of_le_length hle']
        · simp [List.drop_append_of_le_length hle']

private theorem recv_spec (cs : List Bytes) (hne : ∀ c ∈ cs, c ≠ []) :
    (∀ c ∈ (recv cs).2, c ≠ []) ∧
    (if cs.flatten.length < 8 then (recv cs).1 = .error .recvConnectionClosed
     else if maxPayloadSize < leNat (cs.flatten.take 8) then
       (recv cs).1 = .error (.oversizedPayload (leNat (cs.flatten.take 8))) ∧
       (recv cs).2.flatten = cs.flatten.drop 8
     else if cs.flatten.length < 8 + leNat (cs.flatten.take 8) then
       (recv cs).1 = .error .recvConnectionClosed
     else
       (recv cs).1 = .ok ((cs.flatten.drop 8).take (leNat (cs.flatten.take 8))) ∧
       (recv cs).2.flatten = cs.flatten.drop (8 + leNat (cs.flatten.take 8))) := by
  have h := readExact_spec cs 8 hne
  unfold recv
  revert h
  rcases readExact 8 cs with ⟨r, cs'⟩
  rintro ⟨h1, h2⟩
  by_cases hl : 8 ≤ cs.flatten.length
  · rw [if_pos hl] at h2
    obtain ⟨h2, h3⟩ := h2
    simp only at h1 h2 h3
    subst h2
    simp only
    have hl' : ¬ cs.flatten.length < 8 := by omega
    rw [if_neg hl']
    by_cases ho : maxPayloadSize < leNat (cs.flatten.take 8)
    · rw [if_pos ho, if_pos ho]
      exact ⟨h1, rfl, h3⟩
    · rw [if_neg ho, if_neg ho]
      have hb := readExact_spec cs' (leNat (cs.flatten.take 8)) h1
      rw [h3] at hb
      refine ⟨hb.1, ?_⟩
      by_cases hx : cs.flatten.length < 8 + leNat (cs.flatten.take 8)
      · rw [if_pos hx]
        rw [if_neg (by rw [List.length_drop]; omega)] at hb
        exact hb.2
      · rw [if_neg hx]
        rw [if_pos (by rw [List.length_drop]; omega)] at hb
        rw [List.drop_drop] at hb
        exact hb.2
  · rw [if_neg hl] at h2
    simp only at h1 h2
    subst h2
    simp only
    rw [if_pos (by omega)]
    exact ⟨h1, trivial⟩

private theorem header_len (m : Bytes) (h : m.length ≤ maxPayloadSize) :
    leNat (leBytes 8 m.length) = m.length := by
  apply leNat_leBytes_of_lt
  have : maxPayloadSize < 256 ^ 8 := by decide
  omega

/-! ## the properties -/

/-- C23: whatever the transport does with the writes (partial writes, zero writes, an error, or being
cancelled at any point), the bytes put on the wire are a prefix of the message's frame, and all of
it when the send reports success. No body write is larger than the kernel-bug workaround limit. -/
theorem send_emits_frame_prefix (m : Bytes) (outs : List WriteOutcome) :
    (send m outs).sent <+: frame m ∧
    ((send m outs).status = .done → (send m outs).sent = frame m ∧ m.length ≤ 128 * 1024 * 1024) ∧
    (∀ o ∈ (send m outs).offers, o.length ≤ 31234) := by
  unfold send
  split
  · simp
  · rename_i hle
    obtain ⟨⟨t, ht⟩, hd, ho⟩ := writeAll_spec outs (leBytes 8 m.length)
    have ho' : ∀ o ∈ (writeAll (leBytes 8 m.length) outs).offers, o.length ≤ 31234 := by
      intro o h
      have := ho o h
      simp at this; omega
    have hm : m.length ≤ 128 * 1024 * 1024 := by
      have : maxPayloadSize = 128 * 1024 * 1024 := by decide
      omega
    simp only
    split
    · rename_i hs
      obtain ⟨⟨t2, ht2⟩, hd2, ho2⟩ := sendBody_spec (writeAll (leBytes 8 m.length) outs).rest m 0
      simp at ht2 hd2
      refine ⟨⟨t2, ?_⟩, ?_, ?_⟩
      · simp [frame, hd hs, ht2]
      · intro h
        exact ⟨by simp [frame, hd hs, hd2 h], hm⟩
      · intro o h
        simp only [List.mem_append] at h
        rcases h with h | h
        · exact ho' o h
        · exact ho2 o h
    · rename_i hs
      refine ⟨⟨t ++ m, ?_⟩, ?_, ho'⟩
      · rw [frame, ← List.append_assoc, ht]
      · intro h; exact absurd h (by simpa using hs)

example : (send [1, 2, 3] [.accept 3, .accept 100, .accept 2, .accept 0, .accept 9]).status = .done ∧
    (send [1, 2, 3] [.accept 3, .accept 100, .accept 2, .accept 0, .accept 9]).sent =
      [3, 0, 0, 0, 0, 0, 0, 0, 1, 2, 3] := by decide

/-- C23: a message over 128 MiB is refused before a single byte is written. -/
theorem send_oversized_refused (m : Bytes) (outs : List WriteOutcome)
    (h : 128 * 1024 * 1024 < m.length) :
    (send m outs).sent = [] ∧ (send m outs).offers = [] ∧
    (send m outs).status = .failed (.oversizedPayload m.length) := by
  have e : maxPayloadSize = 128 * 1024 * 1024 := by decide
  unfold send
  rw [if_pos (by omega)]
  simp

example : ∃ m : Bytes, 128 * 1024 * 1024 < m.length :=
  ⟨List.replicate (128 * 1024 * 1024 + 1) 0, by rw [List.length_replicate]; decide⟩

/-- C23: with a transport that keeps taking bytes, a send within the limit always completes:
if the schedule offers enough non-zero writes (one per byte of the frame is enough). -/
theorem send_completes (m : Bytes) (outs : List WriteOutcome)
    (hm : m.length ≤ 128 * 1024 * 1024)
    (hpos : ∀ o ∈ outs, ∃ n, o = .accept (n + 1)) (hlen : 8 + m.length ≤ outs.length) :
    (send m outs).status = .done := by
  have e : maxPayloadSize = 128 * 1024 * 1024 := by decide
  have hw : ∀ (outs : List WriteOutcome) (buf : Bytes), (∀ o ∈ outs, ∃ n, o = .accept (n + 1)) →
      buf.length ≤ outs.length →
      (writeAll buf outs).status = .done ∧ outs.length ≤ (writeAll buf outs).rest.length + buf.length ∧
      ∀ o ∈ (writeAll buf outs).rest, o ∈ outs := by
    intro outs
    induction outs with
    | nil =>
      intro buf _ hl
      have : buf = [] := by simpa using hl
      simp [writeAll, this]
    | cons o outs ih =>
      intro buf hp hl
      obtain ⟨n, rfl⟩ := hp o (by simp)
      unfold writeAll
      by_cases hb : buf = []
      · simp [hb]
      · have hbl : 0 < buf.length := List.length_pos_iff.2 hb
        rw [if_neg hb]
        simp only
        rw [if_neg (by omega)]
        obtain ⟨h1, h2, h3⟩ := ih (buf.drop (n + 1)) (fun o ho => hp o (by simp [ho]))
          (by simp at hl ⊢; omega)
        refine ⟨h1, ?_, fun o ho => by simp [h3 o ho]⟩
        simp at h2 ⊢; omega
  have hs : ∀ (outs : List WriteOutcome) (total : Nat), (∀ o ∈ outs, ∃ n, o = .accept (n + 1)) →
      m.length - total ≤ outs.length → (sendBody m total outs).status = .done := by
    intro outs
    induction outs with
    | nil =>
      intro total _ hl
      have : ¬ total < m.length := by simp at hl; omega
      simp [sendBody, this]
    | cons o outs ih =>
      intro total hp hl
      obtain ⟨n, rfl⟩ := hp o (by simp)
      unfold sendBody
      by_cases hb : total < m.length
      · rw [if_pos hb]
        simp only
        apply ih _ (fun o ho => hp o (by simp [ho]))
        have : 1 ≤ (bodyOffer m total).length := by
          simp [bodyOffer, maxWriteSize]; omega
        simp at hl; omega
      · rw [if_neg hb]
  unfold send
  rw [if_neg (by omega)]
  obtain ⟨h1, h2, h3⟩ := hw outs (leBytes 8 m.length) hpos (by simp; omega)
  simp only [h1]
  apply hs
  · intro o ho; exact hpos o (h3 o ho)
  · simp at h2; omega

/-- C23: for every list of messages within the limit, and every way the transport cuts the byte
stream into chunks, the first `k` receives return exactly the first `k` messages, and the receive
after the last message reports the closed connection. -/
theorem recv_delivers_exactly (ms : List Bytes) (cs : List Bytes)
    (hms : ∀ m ∈ ms, m.length ≤ 128 * 1024 * 1024)
    (hne : ∀ c ∈ cs, c ≠ []) (hw : cs.flatten = wire ms) (k : Nat) :
    recvMany k cs =
      (ms.take k, if k ≤ ms.length then none else some .recvConnectionClosed) := by
  have e : maxPayloadSize = 128 * 1024 * 1024 := by decide
  induction ms generalizing cs k with
  | nil =>
    cases k with
    | zero => rfl
    | succ k =>
      have h := (recv_spec cs hne).2
      have hw' : cs.flatten = [] := by simpa [wire] using hw
      rw [hw'] at h
      simp only [List.length_nil, show (0 : Nat) < 8 from by omega, if_true] at h
      simp only [recvMany]
      revert h
      rcases recv cs with ⟨r, cs'⟩
      intro h; simp only at h; subst h
      simp
  | cons m ms ih =>
    cases k with
    | zero => rfl
    | succ k =>
      obtain ⟨hne', h⟩ := recv_spec cs hne
      have hw' : cs.flatten = leBytes 8 m.length ++ (m ++ wire ms) := by
        rw [hw]; simp [wire, frame]
      have hml : m.length ≤ maxPayloadSize := by rw [e]; exact hms m (by simp)
      have htake : cs.flatten.take 8 = leBytes 8 m.length := by
        rw [hw', List.take_append_of_le_length (by simp)]; simp [List.take_of_length_le]
      have hdrop : cs.flatten.drop 8 = m ++ wire ms := by
        rw [hw', List.drop_append_of_le_length (by simp)]; simp [List.drop_of_length_le]
      have hlen : cs.flatten.length = 8 + m.length + (wire ms).length := by
        rw [hw']; simp; omega
      rw [htake, header_len m hml, if_neg (by omega), if_neg (by omega), if_neg (by omega)] at h
      simp only [recvMany]
      revert h hne'
      rcases recv cs with ⟨r, cs'⟩
      rintro hne' ⟨h1, h2⟩
      simp only at h1 h2 hne'
      subst h1
      have hrest : cs'.flatten = wire ms := by
        rw [h2, ← List.drop_drop, hdrop]; simp
      have hm : List.take m.length (List.drop 8 cs.flatten) = m := by rw [hdrop]; simp
      simp only [ih cs' (fun m hm => hms m (by simp [hm])) hne' hrest k, hm]
      simp

example : recvMany 3 [[2, 0, 0], [0, 0, 0, 0, 0, 7], [8, 0, 0, 0, 0, 0, 0, 0, 0]] =
    ([[7, 8], []], some .recvConnectionClosed) := by decide

/-- C23: truncation. If the connection ends anywhere inside the stream (at a message boundary,
inside a header or inside a body), the receiver gets the messages that arrived completely, then a
closed-connection error – never a truncated or merged message. -/
theorem recv_truncated_stream (ms : List Bytes) (cs : List Bytes)
    (hms : ∀ m ∈ ms, m.length ≤ 128 * 1024 * 1024)
    (hne : ∀ c ∈ cs, c ≠ []) (hw : cs.flatten <+: wire ms) (k : Nat) :
    ∃ j, j ≤ ms.length ∧ (wire (ms.take j)).length ≤ cs.flatten.length ∧
      (∀ i, j < i → i ≤ ms.length → cs.flatten.length < (wire (ms.take i)).length) ∧
      recvMany k cs = ((ms.take j).take k, if k ≤ j then none else some .recvConnectionClosed) := by
  have e : maxPayloadSize = 128 * 1024 * 1024 := by decide
  have wmono : ∀ (ms : List Bytes) (i j : Nat), i ≤ j → (wire (ms.take i)).length ≤ (wire (ms.take j)).length := by
    intro ms i j hij
    have : ms.take i = (ms.take j).take i := by rw [List.take_take]; congr 1; omega
    rw [this]
    have hs : ∀ (l : List Bytes), (wire (l.take i)).length ≤ (wire l).length := by
      intro l
      have := List.take_append_drop i l
      have h2 : wire l = wire (l.take i) ++ wire (l.drop i) := by
        conv => lhs; rw [← this]
        simp only [wire, List.map_append, List.flatten_append]
      rw [h2]; simp
    exact hs _
  induction ms generalizing cs k with
  | nil =>
    have hw' : cs.flatten = [] := by simpa [wire] using hw
    refine ⟨0, by simp, by simp [wire], by simp; omega, ?_⟩
    have := recv_delivers_exactly [] cs (by simp) hne (by simpa [wire] using hw') k
    simpa using this
  | cons m ms ih =>
    by_cases hfull : (frame m).length ≤ cs.flatten.length
    · -- the first frame arrived completely
      obtain ⟨t, ht⟩ := hw
      have hw2 : wire (m :: ms) = frame m ++ wire ms := by simp [wire]
      have hml : m.length ≤ maxPayloadSize := by rw [e]; exact hms m (by simp)
      have hpre : frame m <+: cs.flatten := by
        apply List.prefix_of_prefix_length_le (l₃ := wire (m :: ms)) ⟨wire ms, by rw [hw2]⟩ ⟨t, ht⟩ hfull
      obtain ⟨r, hr⟩ := hpre
      have hr' : r <+: wire ms := by
        refine ⟨t, ?_⟩
        rw [← hr, hw2, List.append_assoc] at ht
        exact List.append_cancel_left ht
      obtain ⟨hne', h⟩ := recv_spec cs hne
      have hflat : cs.flatten = leBytes 8 m.length ++ (m ++ r) := by rw [← hr]; simp [frame]
      have htake : cs.flatten.take 8 = leBytes 8 m.length := by
        rw [hflat, List.take_append_of_le_length (by simp)]; simp [List.take_of_length_le]
      have hdrop : cs.flatten.drop 8 = m ++ r := by
        rw [hflat, List.drop_append_of_le_length (by simp)]; simp [List.drop_of_length_le]
      have hlen : cs.flatten.length = 8 + m.length + r.length := by
        rw [hflat]; simp; omega
      rw [htake, header_len m hml, if_neg (by omega), if_neg (by omega), if_neg (by omega)] at h
      have hflen : (frame m).length = 8 + m.length := by simp [frame]
      have hrest : (recv cs).2.flatten = r := by
        rw [h.2, ← List.drop_drop, hdrop]; simp
      have hm : (recv cs).1 = .ok m := by rw [h.1, hdrop]; simp
      have hwcons : ∀ i, (wire ((m :: ms).take (i + 1))).length = 8 + m.length + (wire (ms.take i)).length := by
        intro i; simp [wire, frame]; omega
      obtain ⟨j, hj, hjl, hjmax, -⟩ := ih (recv cs).2 (fun m hm => hms m (by simp [hm])) hne'
        (by rw [hrest]; exact hr') 0
      rw [hrest] at hjl hjmax
      refine ⟨j + 1, by simpa using hj, ?_, ?_, ?_⟩
      · rw [hwcons, hlen]; omega
      · intro i hi hile
        obtain ⟨i', rfl⟩ : ∃ i', i = i' + 1 := ⟨i - 1, by omega⟩
        rw [hwcons, hlen]
        have := hjmax i' (by omega) (by simpa using hile)
        omega
      · cases k with
        | zero => simp [recvMany]
        | succ k =>
          obtain ⟨j', hj', hjl', hjmax', hk⟩ := ih (recv cs).2 (fun m hm => hms m (by simp [hm])) hne'
            (by rw [hrest]; exact hr') k
          rw [hrest] at hjl' hjmax'
          have hjj : j' = j := by
            rcases Nat.lt_trichotomy j' j with h | h | h
            · have := hjmax' j h hj; omega
            · exact h
            · have := hjmax j' h hj'; omega
          subst hjj
          simp only [recvMany]
          revert hk hm
          rcases recv cs with ⟨r, cs'⟩
          intro hm hk
          simp only at hk hm
          subst hm
          simp only [hk]
          simp
    · -- the first frame is incomplete
      have hw2 : wire (m :: ms) = frame m ++ wire ms := by simp [wire]
      have hml : m.length ≤ maxPayloadSize := by rw [e]; exact hms m (by simp)
      refine ⟨0, by simp, by simp [wire], ?_, ?_⟩
      · intro i hi hile
        have := wmono (m :: ms) 1 i (by omega)
        have h1 : (wire ((m :: ms).take 1)).length = (frame m).length := by simp [wire]
        omega
      · cases k with
        | zero => simp [recvMany]
        | succ k =>
          have hpre : cs.flatten <+: frame m := by
            apply List.prefix_of_prefix_length_le hw ⟨wire ms, by rw [hw2]⟩ (by omega)
          have h := (recv_spec cs hne).2
          have hr : (recv cs).1 = .error .recvConnectionClosed := by
            by_cases h8 : cs.flatten.length < 8
            · rw [if_pos h8] at h; exact h
            · obtain ⟨t, ht⟩ := hpre
              have htake : cs.flatten.take 8 = leBytes 8 m.length := by
                have := congrArg (List.take 8) ht
                rw [List.take_append_of_le_length (by omega)] at this
                rw [this]
                simp [frame, List.take_append_of_le_length, List.take_of_length_le]
              have hflen : (frame m).length = 8 + m.length := by simp [frame]
              rw [htake, header_len m hml, if_neg h8, if_neg (by omega), if_pos (by omega)] at h
              exact h
          simp only [recvMany]
          revert hr
          rcases recv cs with ⟨r, cs'⟩
          intro hr; simp only at hr; subst hr
          simp

example : recvMany 2 [[2, 0, 0, 0, 0, 0, 0, 0, 7], [8], [1, 0, 0, 0, 0, 0]] =
    ([[7, 8]], some .recvConnectionClosed) := by decide

/-- C23: a frame announcing more than 128 MiB is refused from its header alone: the body stays unread
and no message is returned. -/
theorem recv_oversized_refused (cs : List Bytes) (hne : ∀ c ∈ cs, c ≠ []) (n : Nat) (body : Bytes)
    (hn : 128 * 1024 * 1024 < n) (hn2 : n < 2 ^ 64) (hw : cs.flatten = leBytes 8 n ++ body) :
    (recv cs).1 = .error (.oversizedPayload n) ∧ (recv cs).2.flatten = body := by
  have e : maxPayloadSize = 128 * 1024 * 1024 := by decide
  have h := (recv_spec cs hne).2
  have htake : cs.flatten.take 8 = leBytes 8 n := by
    rw [hw, List.take_append_of_le_length (by simp)]; simp [List.take_of_length_le]
  have hn8 : leNat (leBytes 8 n) = n := leNat_leBytes_of_lt (by simpa using hn2)
  rw [htake, hn8, if_neg (by rw [hw]; simp), if_pos (by omega)] at h
  refine ⟨h.1, ?_⟩
  rw [h.2, hw, List.drop_append_of_le_length (by simp)]
  simp [List.drop_of_length_le]

example : (recv [[1, 0, 0, 8, 0, 0, 0, 0, 5, 6]]).1 = .error (.oversizedPayload 134217729) := by
  decide

/-- C23, end to end: sending any messages over any write schedule and reading the bytes over any
chunking: if all sends report success the receiver gets exactly the messages, in order. -/
theorem send_recv_end_to_end (ms : List Bytes) (outs : List WriteOutcome) (cs : List Bytes)
    (hne : ∀ c ∈ cs, c ≠ []) (hdone : (sendMany ms outs).2 = .done)
    (hcs : cs.flatten = (sendMany ms outs).1) :
    recvMany (ms.length + 1) cs = (ms, some .recvConnectionClosed) := by
  have key : ∀ (ms : List Bytes) (outs : List WriteOutcome), (sendMany ms outs).2 = .done →
      (sendMany ms outs).1 = wire ms ∧ ∀ m ∈ ms, m.length ≤ 128 * 1024 * 1024 := by
    intro ms
    induction ms with
    | nil => intro outs _; exact ⟨by simp [sendMany, wire], by simp⟩
    | cons m ms ih =>
      intro outs hd
      unfold sendMany at hd ⊢
      obtain ⟨-, h2, -⟩ := send_emits_frame_prefix m outs
      revert hd h2
      rcases send m outs with ⟨of, se, st, re⟩
      simp only
      intro hd h2
      cases st with
      | done =>
        obtain ⟨h3, h4⟩ := h2 rfl
        simp only at hd ⊢
        obtain ⟨h5, h6⟩ := ih re hd
        refine ⟨?_, ?_⟩
        · simp only [h3, h5]; simp [wire]
        · intro m' hm'
          simp only [List.mem_cons] at hm'
          rcases hm' with rfl | hm'
          · exact h4
          · exact h6 m' hm'
      | failed e => simp at hd
      | pending => simp at hd
  obtain ⟨h1, h2⟩ := key ms outs hdone
  have := recv_delivers_exactly ms cs h2 hne (by rw [hcs, h1]) (ms.length + 1)
  rw [this]
  simp [List.take_of_length_le]

example : (sendMany [[7], [8, 9]] [.accept 8, .accept 1, .accept 5, .accept 3, .accept 2]).2 = .done := by
  decide


private theorem readExact_ok (cs : List Bytes) (n : Nat) (b : Bytes) (cs' : List Bytes)
    (h : readExact n cs = (.ok b, cs')) : b.length = n ∧ cs.flatten = b ++ cs'.flatten := by
  induction cs generalizing n b cs' with
  | nil =>
    unfold readExact at h
    split at h <;> cases h
    exact ⟨by simp_all, rfl⟩
  | cons c cs ih =>
    unfold readExact at h
    split at h
    · cases h
      exact ⟨by simp_all, rfl⟩
    · split at h
      · cases h
      · split at h
        · split at h
          · rename_i r cs'' hr
            cases h
            obtain ⟨h1, h2⟩ := ih _ _ _ hr
            exact ⟨by simp only [List.length_append]; omega, by simp [h2]⟩
          · cases h
        · cases h
          refine ⟨by simp only [List.length_take]; omega, ?_⟩
          simp only [List.flatten_cons]
          rw [← List.append_assoc, List.take_append_drop]

/-- C23, for every schedule of deliveries whatever (including end-of-stream in the middle): a message is only ever
returned when its whole frame was delivered, and exactly that frame has been consumed. -/
theorem recv_ok_complete (cs cs' : List Bytes) (m : Bytes) (h : recv cs = (.ok m, cs')) :
    cs.flatten = frame m ++ cs'.flatten ∧ m.length ≤ 128 * 1024 * 1024 := by
  have e : maxPayloadSize = 128 * 1024 * 1024 := by decide
  unfold recv at h
  split at h
  · cases h
  · rename_i hdr cs'' hh
    obtain ⟨h1, h2⟩ := readExact_ok _ _ _ _ hh
    simp only at h
    split at h
    · cases h
    · obtain ⟨h3, h4⟩ := readExact_ok _ _ _ _ h
      refine ⟨?_, by omega⟩
      have : leBytes 8 m.length = hdr := by rw [h3, ← h1]; exact leBytes_leNat hdr
      simp only [frame, this, h2, h4, List.append_assoc]

/-- Non-vacuity: a frame split at an odd place, more data behind it. -/
example : recv [[2, 0, 0], [0, 0, 0, 0, 0, 65], [66, 7], []] = (.ok [65, 66], [[7], []]) := by decide +kernel
/-- End-of-stream inside the body is an error. -/
example : (recv [[2, 0, 0], [0, 0, 0, 0, 0, 65], [], [66, 7]]).1 = .error .recvConnectionClosed := by decide +kernel

end Qos.Stream
