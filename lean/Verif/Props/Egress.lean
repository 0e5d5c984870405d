import Verif.Spec.Egress
import Verif.Lemmas.Basic
import Mathlib.Tactic.ByContra
/-!
# C54: the egress pumps lose, change and reorder nothing, and keep packets whole
-/
namespace Qos.Egress

/-! ## One pump -/

theorem fill_take {buf : Bytes} {pos : Nat} {bytes : Bytes} (h : pos ≤ buf.length) :
    (fill buf pos bytes).take (pos + bytes.length) = buf.take pos ++ bytes := by
  unfold fill
  rw [List.take_append_of_le_length (by simp; omega), List.take_of_length_le (by simp; omega)]

theorem fill_length {buf : Bytes} {pos : Nat} {bytes : Bytes} (h : pos + bytes.length ≤ buf.length) :
    (fill buf pos bytes).length = buf.length := by
  unfold fill
  simp
  omega

/-- What holds throughout a run of `pipe_frames`. -/
structure FrameInv (oc : Bool) (input : Bytes) (output : List Bytes) (p : Pump) : Prop where
  size : p.buf.length = bufferSize
  received : p.received ≤ bufferSize
  reading : p.pc = .reading → input = output.flatten ++ p.buf.take p.received ∧ nextFrame oc (p.buf.take p.received) = .none
  writing : p.pc = .writing → p.sent ≤ p.frameSize ∧ p.frameSize ≤ p.received ∧
    input = output.flatten ++ (p.buf.take p.received).drop p.sent
  panicked : p.pc = .panicked → output.flatten <+: input

theorem nextFrame_le {oc : Bool} {buf : Bytes} {size : Nat} (h : nextFrame oc buf = .frame size) : size ≤ buf.length := by
  unfold nextFrame at h
  split at h
  · cases h
  · cases h
  · split at h
    · cases h
    · cases h; omega

theorem frame_inv {oc : Bool} {input : Bytes} {output : List Bytes} {p : Pump} (h : Run (frameStep oc) input output p) :
    FrameInv oc input output p := by
  induction h with
  | start =>
    refine ⟨by simp [Pump.start], by simp [Pump.start], fun _ => ⟨by simp [Pump.start], ?_⟩, (fun h => nomatch h), fun h => nomatch h⟩
    rfl
  | @step input output p p' c out _ hs ih =>
    obtain ⟨i1, i2, i3, i4, i5⟩ := ih
    cases c with
    | read bytes =>
      simp only [frameStep] at hs
      split at hs
      · rename_i hc
        obtain ⟨r1, -⟩ := i3 hc.1
        have hle : p.received + bytes.length ≤ bufferSize := by rw [i1] at hc; omega
        split at hs
        · simp only [Option.some.injEq, Prod.mk.injEq] at hs
          obtain ⟨rfl, rfl⟩ := hs
          refine ⟨i1, i2, (fun h => nomatch h), (fun h => nomatch h), fun _ => ?_⟩
          rw [List.append_nil, r1, List.append_assoc]
          exact List.prefix_append ..
        · simp only [Option.some.injEq, Prod.mk.injEq] at hs
          obtain ⟨rfl, rfl⟩ := hs
          have hl : (fill p.buf p.received bytes).length = bufferSize := by rw [fill_length (by omega), i1]
          have ht := fill_take (bytes := bytes) (show p.received ≤ p.buf.length by omega)
          have hin : input ++ bytes = output.flatten ++ (fill p.buf p.received bytes).take (p.received + bytes.length) := by
            rw [ht, r1, List.append_assoc]
          simp only
          cases hn : nextFrame oc ((fill p.buf p.received bytes).take (p.received + bytes.length)) with
          | none =>
            refine ⟨hl, hle, fun _ => ⟨?_, hn⟩, (fun h => ?_), fun h => ?_⟩
            · rw [List.append_nil]; exact hin
            · have h : p.pc = .writing := h
              rw [hc.1] at h; cases h
            · have h : p.pc = .panicked := h
              rw [hc.1] at h; cases h
          | panic =>
            refine ⟨hl, hle, (fun h => nomatch h), (fun h => nomatch h), fun _ => ?_⟩
            rw [List.append_nil, hin]
            exact List.prefix_append ..
          | frame size =>
            refine ⟨hl, hle, (fun h => nomatch h), (fun _ => ?_), fun h => nomatch h⟩
            have := nextFrame_le hn
            rw [List.length_take, hl] at this
            refine ⟨Nat.zero_le _, ?_, ?_⟩
            · show size ≤ p.received + bytes.length
              omega
            · show _ = _ ++ List.drop 0 _
              rw [List.append_nil, List.drop_zero]
              exact hin
      · cases hs
    | wrote n =>
      simp only [frameStep] at hs
      split at hs
      · rename_i hc
        simp only [Option.some.injEq, Prod.mk.injEq] at hs
        obtain ⟨rfl, rfl⟩ := hs
        obtain ⟨w1, w2, w3⟩ := i4 hc.1
        refine ⟨i1, i2, (fun h => ?_), (fun _ => ⟨?_, w2, ?_⟩), fun h => ?_⟩
        · have h : p.pc = .reading := h
          rw [hc.1] at h; cases h
        · show p.sent + n ≤ p.frameSize
          omega
        · show _ = _ ++ List.drop (p.sent + n) _
          rw [List.append_nil, w3, List.flatten_append, List.flatten_singleton, List.append_assoc]
          congr 1
          have e : (p.buf.drop p.sent).take n = ((p.buf.take p.received).drop p.sent).take n := by
            rw [List.drop_take, List.take_take, Nat.min_eq_left (by omega)]
          rw [e, ← List.drop_drop, List.take_append_drop]
        · have h : p.pc = .panicked := h
          rw [hc.1] at h; cases h
      · cases hs
    | turn =>
      simp only [frameStep] at hs
      split at hs
      · rename_i hc
        simp only [Option.some.injEq, Prod.mk.injEq] at hs
        obtain ⟨rfl, rfl⟩ := hs
        obtain ⟨w1, w2, w3⟩ := i4 hc.1
        rw [List.append_nil, List.append_nil]
        cases hn : nextFrame oc ((p.buf.take p.received).drop p.sent) with
        | none =>
          have hfront : (tailToFront p).buf.take (p.received - p.sent) = (p.buf.take p.received).drop p.sent := by
            unfold tailToFront
            simp only
            by_cases h : p.sent < p.received
            · rw [if_pos h]
              unfold rotateLeft
              rw [List.take_append_of_le_length (by rw [List.length_drop]; omega), List.drop_take]
            · rw [if_neg h]
              have : p.received - p.sent = 0 := by omega
              rw [this, List.take_zero, List.drop_eq_nil_of_le (by rw [List.length_take]; omega)]
          refine ⟨?_, ?_, (fun _ => ⟨?_, ?_⟩), (fun h => nomatch h), fun h => nomatch h⟩
          · show (tailToFront p).buf.length = _
            unfold tailToFront rotateLeft
            simp only
            split
            · rw [List.length_append, List.length_drop, List.length_take]; omega
            · exact i1
          · show p.received - p.sent ≤ _
            omega
          · show _ = _ ++ (tailToFront p).buf.take (p.received - p.sent)
            rw [hfront]; exact w3
          · show nextFrame oc ((tailToFront p).buf.take (p.received - p.sent)) = _
            rw [hfront]; exact hn
        | panic =>
          refine ⟨i1, i2, (fun h => nomatch h), (fun h => nomatch h), fun _ => ?_⟩
          rw [w3]
          exact List.prefix_append ..
        | frame size =>
          have hle := nextFrame_le hn
          rw [List.length_drop, List.length_take] at hle
          by_cases h0 : p.sent + size ≤ p.buf.length
          · simp only [afterFrame, if_pos h0]
            refine ⟨i1, i2, (fun h => ?_), (fun _ => ⟨?_, ?_, w3⟩), fun h => ?_⟩
            · have h : p.pc = .reading := h
              rw [hc.1] at h; cases h
            · show p.sent ≤ p.sent + size
              omega
            · show p.sent + size ≤ p.received
              have : p.sent ≤ p.received := by omega
              omega
            · have h : p.pc = .panicked := h
              rw [hc.1] at h; cases h
          · exfalso; omega
      · cases hs

/-- C54: whatever the sizes of reads and writes, `pipe_frames` has written a beginning of what it has read; at most one
buffer is on its way; and whenever it waits for more input, it holds no complete packet back. -/
theorem frames_transparent (oc : Bool) {input : Bytes} {output : List Bytes} {p : Pump}
    (h : Run (frameStep oc) input output p) :
    output.flatten <+: input ∧ (p.pc ≠ .panicked → input.length ≤ output.flatten.length + 32000) ∧
    (p.pc = .reading → nextFrame oc (input.drop output.flatten.length) = .none) := by
  have hi := frame_inv h
  cases hp : p.pc with
  | reading =>
    obtain ⟨e, hn⟩ := hi.reading hp
    refine ⟨by rw [e]; exact List.prefix_append .., fun _ => ?_, fun _ => ?_⟩
    · have := hi.received
      rw [show bufferSize = 32000 from rfl] at this
      rw [e, List.length_append, List.length_take]; omega
    · rw [e, List.drop_left]; exact hn
  | writing =>
    obtain ⟨-, -, e⟩ := hi.writing hp
    refine ⟨by rw [e]; exact List.prefix_append .., (fun _ => ?_), fun h => nomatch h⟩
    have := hi.received
    rw [show bufferSize = 32000 from rfl] at this
    rw [e, List.length_append, List.length_drop, List.length_take]; omega
  | panicked => exact ⟨hi.panicked hp, (fun h => absurd rfl h), fun h => nomatch h⟩

/-- What holds throughout a run of `pipe_all`. -/
structure AllInv (input : Bytes) (output : List Bytes) (p : Pump) : Prop where
  size : p.buf.length = bufferSize
  reading : p.pc = .reading → input = output.flatten
  writing : p.pc = .writing → p.sent ≤ p.received ∧ p.received ≤ bufferSize ∧
    input = output.flatten ++ (p.buf.take p.received).drop p.sent
  panicked : p.pc = .panicked → input = output.flatten

theorem all_inv {input : Bytes} {output : List Bytes} {p : Pump} (h : Run allStep input output p) : AllInv input output p := by
  induction h with
  | start => exact ⟨by simp [Pump.start], (fun _ => rfl), (fun h => nomatch h), fun h => nomatch h⟩
  | @step input output p p' c out _ hs ih =>
    obtain ⟨i1, i3, i4, i5⟩ := ih
    cases c with
    | read bytes =>
      simp only [allStep] at hs
      split at hs
      · rename_i hc
        have r1 := i3 hc.1
        split at hs
        · rename_i h0
          simp only [Option.some.injEq, Prod.mk.injEq] at hs
          obtain ⟨rfl, rfl⟩ := hs
          refine ⟨i1, (fun h => nomatch h), (fun h => nomatch h), fun _ => ?_⟩
          rw [List.append_nil, List.eq_nil_of_length_eq_zero h0, List.append_nil]
          exact r1
        · simp only [Option.some.injEq, Prod.mk.injEq] at hs
          obtain ⟨rfl, rfl⟩ := hs
          refine ⟨by show (fill p.buf 0 bytes).length = _; rw [fill_length (by omega), i1], (fun h => nomatch h),
            (fun _ => ⟨Nat.zero_le _, by show bytes.length ≤ _; omega, ?_⟩), fun h => nomatch h⟩
          show _ = _ ++ List.drop 0 ((fill p.buf 0 bytes).take bytes.length)
          have := fill_take (buf := p.buf) (bytes := bytes) (pos := 0) (Nat.zero_le _)
          rw [Nat.zero_add, List.take_zero, List.nil_append] at this
          rw [List.drop_zero, this, r1, List.append_nil]
      · cases hs
    | wrote n =>
      simp only [allStep] at hs
      split at hs
      · rename_i hc
        simp only [Option.some.injEq, Prod.mk.injEq] at hs
        obtain ⟨rfl, rfl⟩ := hs
        obtain ⟨w1, w2, w3⟩ := i4 hc.1
        refine ⟨i1, (fun h => ?_), (fun _ => ⟨?_, w2, ?_⟩), fun h => ?_⟩
        · have h : p.pc = .reading := h
          rw [hc.1] at h; cases h
        · show p.sent + n ≤ p.received
          omega
        · show _ = _ ++ List.drop (p.sent + n) _
          rw [List.append_nil, w3, List.flatten_append, List.flatten_singleton, List.append_assoc]
          congr 1
          have e : (p.buf.drop p.sent).take n = ((p.buf.take p.received).drop p.sent).take n := by
            rw [List.drop_take, List.take_take, Nat.min_eq_left (by omega)]
          rw [e, ← List.drop_drop, List.take_append_drop]
        · have h : p.pc = .panicked := h
          rw [hc.1] at h; cases h
      · cases hs
    | turn =>
      simp only [allStep] at hs
      split at hs
      · rename_i hc
        simp only [Option.some.injEq, Prod.mk.injEq] at hs
        obtain ⟨rfl, rfl⟩ := hs
        obtain ⟨w1, w2, w3⟩ := i4 hc.1
        rw [List.append_nil, List.append_nil]
        refine ⟨i1, (fun _ => ?_), (fun h => nomatch h), fun h => nomatch h⟩
        rw [w3, List.drop_eq_nil_of_le (by rw [List.length_take]; omega), List.append_nil]
      · cases hs

/-- C54: whatever the sizes of reads and writes, `pipe_all` has written a beginning of what it has read, at most one buffer
is on its way, and whenever it waits for more input or has stopped because of a disconnect, everything is written. -/
theorem all_transparent {input : Bytes} {output : List Bytes} {p : Pump} (h : Run allStep input output p) :
    output.flatten <+: input ∧ input.length ≤ output.flatten.length + 32000 ∧ (p.pc ≠ .writing → output.flatten = input) := by
  have hi := all_inv h
  cases hp : p.pc with
  | reading => rw [hi.reading hp]; exact ⟨List.prefix_rfl, by omega, fun _ => rfl⟩
  | writing =>
    obtain ⟨-, w2, e⟩ := hi.writing hp
    rw [show bufferSize = 32000 from rfl] at w2
    refine ⟨by rw [e]; exact List.prefix_append .., ?_, fun h => absurd rfl h⟩
    rw [e, List.length_append, List.length_drop, List.length_take]; omega
  | panicked => rw [hi.panicked hp]; exact ⟨List.prefix_rfl, by omega, fun _ => rfl⟩

/-! ## Packets -/

theorem getD_append (f rest : Bytes) {i : Nat} (h : i < f.length) : (f ++ rest).getD i 0 = f.getD i 0 := by
  rw [List.getD_eq_getElem?_getD, List.getD_eq_getElem?_getD, List.getElem?_append_left h]

theorem packet_length {f : Bytes} (h : IsPacket f) : 20 ≤ f.length := by
  rcases h.2 with ⟨b, rest, -, -, h5, h6, -⟩ | ⟨b, rest, -, -, h5, -⟩ <;> omega

/-- The size of a packet at the front is recognised. -/
theorem nextFrame_packet (oc : Bool) {f : Bytes} (h : IsPacket f) (rest : Bytes) : nextFrame oc (f ++ rest) = .frame f.length := by
  have hl := packet_length h
  have hd : declaredSize oc (f ++ rest) = some (some f.length) := by
    obtain ⟨hmax, hv | hv⟩ := h
    · obtain ⟨b, t, rfl, h4, h5, h6, h7⟩ := hv
      rw [List.cons_append]
      unfold declaredSize
      simp only
      rw [if_pos h4, if_neg, ← List.cons_append, getD_append _ _ (by omega), getD_append _ _ (by omega), ← h7]
      · rfl
      · simp only [List.length_cons, List.length_append] at *
        omega
    · obtain ⟨b, t, rfl, h4, h5, h6⟩ := hv
      rw [List.cons_append]
      unfold declaredSize
      simp only
      have e : be16 ((b :: (t ++ rest)).getD 4 0) ((b :: (t ++ rest)).getD 5 0) + 40 = (b :: t).length := by
        rw [← List.cons_append, getD_append _ _ (by omega), getD_append _ _ (by omega), ← h6]
        rfl
      rw [if_neg (by omega), if_pos h4, if_neg (by simp only [List.length_cons, List.length_append] at *; omega), e,
        if_pos (by omega)]
  unfold nextFrame
  rw [hd]
  simp

/-- A beginning of a packet is not taken for a packet. -/
theorem nextFrame_part (oc : Bool) {q rest : Bytes} (hmax : (q ++ rest).length < 65536) (hv : IsV4 (q ++ rest) ∨ IsV6 (q ++ rest))
    (hr : rest ≠ []) : nextFrame oc q = .none := by
  have hpos := List.length_pos_iff.mpr hr
  unfold nextFrame
  cases q with
  | nil => rfl
  | cons b t =>
    rw [List.length_append] at hmax
    rcases hv with ⟨b', t', he, h4, h5, h6, h7⟩ | ⟨b', t', he, h4, h5, h6⟩ <;>
      (rw [List.cons_append, List.cons.injEq] at he; obtain ⟨rfl, -⟩ := he)
    · unfold declaredSize
      simp only
      rw [if_pos h4]
      by_cases hc : (b :: t).length < 20 ∨ b.toNat % 16 < 5 ∨ (b :: t).length < b.toNat % 16 * 4
      · rw [if_pos hc]
      · rw [if_neg hc]
        simp only
        have e : be16 ((b :: t).getD 2 0) ((b :: t).getD 3 0) = (b :: t).length + rest.length := by
          rw [← List.length_append, ← h7]
          unfold numberAt be16
          rw [getD_append _ _ (by omega), getD_append _ _ (by omega)]
        rw [e, if_pos (by omega)]
    · unfold declaredSize
      simp only
      rw [if_neg (by omega), if_pos h4]
      by_cases hc : (b :: t).length < 40
      · rw [if_pos hc]
      · rw [if_neg hc]
        have e : be16 ((b :: t).getD 4 0) ((b :: t).getD 5 0) + 40 = (b :: t).length + rest.length := by
          rw [← List.length_append, ← h6]
          unfold numberAt be16
          rw [getD_append _ _ (by omega), getD_append _ _ (by omega)]
        rw [e, if_pos (by omega)]
        simp only
        rw [if_pos (by omega)]

theorem steady_some {step : Pump → Call → Option (Pump × List Bytes)} {p p' : Pump} {c : Call} {out : List Bytes}
    (h : steady step p c = some (p', out)) : step p c = some (p', out) := by
  cases c with
  | read bytes => simp only [steady] at h; split at h; · cases h
                  · exact h
  | wrote n => simp only [steady] at h; split at h; · exact h
               · cases h
  | turn => exact h

theorem steady_run {step : Pump → Call → Option (Pump × List Bytes)} {input : Bytes} {output : List Bytes} {p : Pump}
    (h : Run (steady step) input output p) : Run step input output p := by
  induction h with
  | start => exact .start
  | step _ hs ih => exact .step ih (steady_some hs)

/-- The front of a stream of packets: part of a packet, or a packet. -/
theorem nextFrame_stream (oc : Bool) {rest : List Bytes} (hp : ∀ f ∈ rest, IsPacket f) {pend : Bytes} (h : pend <+: rest.flatten) :
    nextFrame oc pend = .none ∨ ∃ f r, rest = f :: r ∧ f <+: pend ∧ nextFrame oc pend = .frame f.length := by
  cases rest with
  | nil =>
    left
    have : pend = [] := List.prefix_nil.mp h
    rw [this]; rfl
  | cons f r =>
    have hf := hp f (List.mem_cons_self ..)
    rw [List.flatten_cons] at h
    rcases List.prefix_or_prefix_of_prefix h (List.prefix_append f r.flatten) with h1 | h1
    · obtain ⟨y, rfl⟩ := h1
      by_cases hy : y = []
      · subst hy
        rw [List.append_nil] at hf ⊢
        have := nextFrame_packet oc hf []
        rw [List.append_nil] at this
        exact .inr ⟨pend, r, rfl, List.prefix_rfl, this⟩
      · exact .inl (nextFrame_part oc (by have := hf.1; omega) hf.2 hy)
    · obtain ⟨x, rfl⟩ := h1
      exact .inr ⟨f, r, rfl, List.prefix_append .., nextFrame_packet oc hf x⟩

/-- What holds on a stream of packets. -/
structure PacketInv (fs output : List Bytes) (p : Pump) : Prop where
  whole : ∃ rest, fs = output ++ rest ∧ (p.pc = .reading ∨ p.pc = .writing ∧ (p.sent = p.frameSize ∨
    ∃ f r, rest = f :: r ∧ p.frameSize = p.sent + f.length))

theorem packet_inv {oc : Bool} {fs : List Bytes} (hf : ∀ f ∈ fs, IsPacket f) {input : Bytes} {output : List Bytes} {p : Pump}
    (h : Run (steady (frameStep oc)) input output p) (hin : input <+: fs.flatten) : PacketInv fs output p := by
  induction h with
  | start => exact ⟨fs, rfl, .inl rfl⟩
  | @step input output p p' c out hr hs ih =>
    have hpre : input <+: fs.flatten := List.IsPrefix.trans (List.prefix_append ..) hin
    obtain ⟨rest, hfs, hst⟩ := ih hpre
    have hinv := frame_inv (steady_run hr)
    have hinv' := frame_inv (steady_run (hr.step hs))
    have hrest : ∀ f ∈ rest, IsPacket f := fun f h => hf f (by rw [hfs]; exact List.mem_append_right _ h)
    have hs0 := steady_some hs
    cases c with
    | read bytes =>
      have hne : bytes ≠ [] := by
        intro e
        subst e
        simp [steady] at hs
      simp only [frameStep] at hs0
      split at hs0
      · rename_i hc
        rw [if_neg (fun h => hne (List.eq_nil_of_length_eq_zero h))] at hs0
        simp only [Option.some.injEq, Prod.mk.injEq] at hs0
        obtain ⟨e, rfl⟩ := hs0
        rw [List.append_nil] at *
        obtain ⟨r1, -⟩ := hinv.reading hc.1
        have hle : p.received + bytes.length ≤ p.buf.length := by have := hinv.received; have := hinv.size; omega
        have ht := fill_take (bytes := bytes) (show p.received ≤ p.buf.length by omega)
        have hpend : (fill p.buf p.received bytes).take (p.received + bytes.length) <+: rest.flatten := by
          rw [ht]
          have : input ++ bytes <+: fs.flatten := hin
          rw [r1, hfs, List.flatten_append, List.append_assoc] at this
          exact (List.prefix_append_right_inj _).mp this
        rcases nextFrame_stream oc hrest hpend with hn | ⟨f, r, e1, e2, hn⟩
        · rw [hn] at e
          subst e
          exact ⟨rest, hfs, .inl hc.1⟩
        · rw [hn] at e
          subst e
          exact ⟨rest, hfs, .inr ⟨rfl, .inr ⟨f, r, e1, (Nat.zero_add _).symm⟩⟩⟩
      · cases hs0
    | wrote n =>
      have hn : n = p.frameSize - p.sent := by
        by_contra hne
        simp [steady, hne] at hs
      simp only [frameStep] at hs0
      split at hs0
      · rename_i hc
        simp only [Option.some.injEq, Prod.mk.injEq] at hs0
        obtain ⟨rfl, rfl⟩ := hs0
        rcases hst with hst | ⟨-, hst⟩
        · rw [hc.1] at hst; cases hst
        rcases hst with hst | ⟨f, r, rfl, hsz⟩
        · omega
        obtain ⟨w1, w2, w3⟩ := hinv.writing hc.1
        have hpend : (p.buf.take p.received).drop p.sent <+: (f :: r).flatten := by
          rw [w3, hfs, List.flatten_append] at hpre
          exact (List.prefix_append_right_inj _).mp hpre
        have hlen : f.length ≤ ((p.buf.take p.received).drop p.sent).length := by
          have := hinv.received; have := hinv.size
          rw [List.length_drop, List.length_take]; omega
        have hpiece : (p.buf.drop p.sent).take n = f := by
          have e : (p.buf.drop p.sent).take n = ((p.buf.take p.received).drop p.sent).take n := by
            rw [List.drop_take, List.take_take, Nat.min_eq_left (by omega)]
          rw [e]
          have hn' : n = f.length := by omega
          rw [List.flatten_cons] at hpend
          have hfp := List.prefix_of_prefix_length_le (List.prefix_append f r.flatten) hpend hlen
          obtain ⟨x, hx⟩ := hfp
          rw [← hx, hn', List.take_left]
        refine ⟨r, by rw [hpiece, hfs, List.append_assoc]; rfl, .inr ⟨hc.1, .inl ?_⟩⟩
        show p.sent + n = p.frameSize
        omega
      · cases hs0
    | turn =>
      simp only [frameStep] at hs0
      split at hs0
      · rename_i hc
        simp only [Option.some.injEq, Prod.mk.injEq] at hs0
        obtain ⟨e, rfl⟩ := hs0
        obtain ⟨w1, w2, w3⟩ := hinv.writing hc.1
        have hpend : (p.buf.take p.received).drop p.sent <+: rest.flatten := by
          rw [w3, hfs, List.flatten_append] at hpre
          exact (List.prefix_append_right_inj _).mp hpre
        rw [List.append_nil]
        rcases nextFrame_stream oc hrest hpend with hn | ⟨f, r, e1, e2, hn⟩
        · rw [hn] at e
          subst e
          exact ⟨rest, hfs, .inl rfl⟩
        · rw [hn] at e
          have hle := nextFrame_le hn
          rw [List.length_drop, List.length_take] at hle
          have hfl := packet_length (hrest f (by rw [e1]; exact List.mem_cons_self ..))
          have := hinv.received; have := hinv.size
          simp only [afterFrame] at e
          rw [if_pos (by omega)] at e
          subst e
          exact ⟨rest, hfs, .inr ⟨hc.1, .inr ⟨f, r, e1, rfl⟩⟩⟩
      · cases hs0

/-- C54: on a stream of IP packets, cut into reads in any way, `pipe_frames` never panics, writes exactly the packets, one
write for each, in order; whenever it waits for input it has room for it, and has written every packet that has arrived
completely. -/
theorem packets_preserved (oc : Bool) {fs : List Bytes} (hf : ∀ f ∈ fs, IsPacket f) {input : Bytes} {output : List Bytes}
    {p : Pump} (h : Run (steady (frameStep oc)) input output p) (hin : input <+: fs.flatten) :
    p.pc ≠ .panicked ∧ output <+: fs ∧ (p.pc = .reading → p.received < p.buf.length ∧
      ∀ k, (fs.take k).flatten <+: input → fs.take k <+: output) := by
  obtain ⟨rest, hfs, hst⟩ := packet_inv hf h hin
  have hinv := frame_inv (steady_run h)
  refine ⟨?_, ⟨rest, hfs.symm⟩, fun hp => ?_⟩
  · rcases hst with h | ⟨h, -⟩ <;> rw [h] <;> decide
  obtain ⟨e, hn⟩ := hinv.reading hp
  have hrest : ∀ f ∈ rest, IsPacket f := fun f h => hf f (by rw [hfs]; exact List.mem_append_right _ h)
  have hpend : p.buf.take p.received <+: rest.flatten := by
    rw [e, hfs, List.flatten_append] at hin
    exact (List.prefix_append_right_inj _).mp hin
  -- the next packet has not arrived
  have hnot : ∀ f r, rest = f :: r → ¬ f <+: p.buf.take p.received := by
    rintro f r rfl ⟨x, hx⟩
    rw [← hx, nextFrame_packet oc (hrest f (List.mem_cons_self ..))] at hn
    cases hn
  constructor
  · have := hinv.received; have hsz := hinv.size
    by_contra hc
    have hall : p.buf.take p.received = p.buf := List.take_of_length_le (by omega)
    rw [hall] at hpend hnot
    cases hr : rest with
    | nil =>
      rw [hr] at hpend
      have := List.prefix_nil.mp hpend
      rw [this] at hsz
      cases hsz
    | cons f r =>
      rw [hr, List.flatten_cons] at hpend
      refine hnot f r hr (List.prefix_of_prefix_length_le (List.prefix_append f r.flatten) hpend ?_)
      have := (hrest f (by rw [hr]; exact List.mem_cons_self ..)).1
      rw [hsz]
      exact this
  · intro k hk
    by_cases hle : k ≤ output.length
    · rw [hfs, List.take_append_of_le_length hle]
      exact List.take_prefix ..
    · cases hr : rest with
      | nil =>
        rw [hr, List.append_nil] at hfs
        rw [hfs]
        exact List.take_prefix ..
      | cons f r =>
        refine absurd ?_ (hnot f r hr)
        rw [hfs, hr, List.take_append, List.take_of_length_le (by omega), List.flatten_append, e] at hk
        have hk := (List.prefix_append_right_inj _).mp hk
        have : k - output.length = (k - output.length - 1) + 1 := by omega
        rw [this, List.take_succ_cons, List.flatten_cons] at hk
        exact List.IsPrefix.trans (List.prefix_append ..) hk

/-- C54: the pump always gets through what it holds: from any point of such a run it comes back to waiting for input,
without needing any. -/
theorem packets_drain (oc : Bool) {fs : List Bytes} (hf : ∀ f ∈ fs, IsPacket f) {input : Bytes} {output : List Bytes}
    {p : Pump} (h : Run (steady (frameStep oc)) input output p) (hin : input <+: fs.flatten) :
    ∃ more p', Run (steady (frameStep oc)) input (output ++ more) p' ∧ p'.pc = .reading := by
  induction hm : 2 * (p.received - p.sent) + (if p.sent < p.frameSize then 0 else 1) using Nat.strongRecOn
    generalizing output p with
  | _ m ih =>
    have hinv := frame_inv (steady_run h)
    obtain ⟨rest, hfs, hst⟩ := packet_inv hf h hin
    rcases hst with hst | ⟨hpc, hst⟩
    · exact ⟨[], p, by rw [List.append_nil]; exact h, hst⟩
    obtain ⟨w1, w2, w3⟩ := hinv.writing hpc
    by_cases hlt : p.sent < p.frameSize
    · have hs : steady (frameStep oc) p (.wrote (p.frameSize - p.sent)) =
          some ({ p with sent := p.sent + (p.frameSize - p.sent) }, [(p.buf.drop p.sent).take (p.frameSize - p.sent)]) := by
        simp only [steady, if_true, frameStep]
        rw [if_pos ⟨hpc, hlt, Nat.le_refl _⟩]
      have h' := h.step hs
      simp only [List.append_nil] at h'
      obtain ⟨more, p', h1, h2⟩ := ih _ (by
        rw [← hm, if_pos hlt]
        simp only
        rw [if_neg (by omega)]
        omega) h' rfl
      exact ⟨_, p', by rw [List.append_assoc] at h1; exact h1, h2⟩
    · have hs : steady (frameStep oc) p .turn =
          some (afterFrame p (nextFrame oc ((p.buf.take p.received).drop p.sent)), []) := by
        simp only [steady, frameStep]
        rw [if_pos ⟨hpc, hlt⟩]
      have h' := h.step hs
      simp only [List.append_nil] at h'
      have hpend : (p.buf.take p.received).drop p.sent <+: rest.flatten := by
        rw [w3, hfs, List.flatten_append] at hin
        exact (List.prefix_append_right_inj _).mp hin
      have hrest : ∀ f ∈ rest, IsPacket f := fun f h => hf f (by rw [hfs]; exact List.mem_append_right _ h)
      rcases nextFrame_stream oc hrest hpend with hn | ⟨f, r, e1, e2, hn⟩
      · rw [hn] at h'
        exact ⟨[], _, by rw [List.append_nil]; exact h', rfl⟩
      · rw [hn] at h'
        have hle := nextFrame_le hn
        rw [List.length_drop, List.length_take] at hle
        have hfl := packet_length (hrest f (by rw [e1]; exact List.mem_cons_self ..))
        have := hinv.received; have := hinv.size
        simp only [afterFrame] at h'
        rw [if_pos (by omega)] at h'
        obtain ⟨more, p', h1, h2⟩ := ih _ (by
          rw [← hm, if_neg hlt]
          simp only
          rw [if_pos (by omega)]
          omega) h' rfl
        exact ⟨more, p', h1, h2⟩

/-- C54: both pumps in a row. Packets read from one tun interface come out of the other one: whole, unchanged, in order,
each in one write, however the connection cuts the stream; and all of them, once both pumps wait and nothing is on the way. -/
theorem tunnel_preserves_packets (oc : Bool) {ps : List Bytes} (hp : ∀ f ∈ ps, IsPacket f) {in1 in2 : Bytes}
    {out1 out2 : List Bytes} {p1 p2 : Pump} (h1 : Run allStep in1 out1 p1) (hin : in1 <+: ps.flatten)
    (h2 : Run (steady (frameStep oc)) in2 out2 p2) (hnet : in2 <+: out1.flatten) :
    p2.pc ≠ .panicked ∧ out2 <+: ps ∧ (p1.pc = .reading → in2 = out1.flatten → p2.pc = .reading →
      ∀ k, (ps.take k).flatten <+: in1 → ps.take k <+: out2) := by
  obtain ⟨a1, -, a3⟩ := all_transparent h1
  obtain ⟨b1, b2, b3⟩ := packets_preserved oc hp h2 ((hnet.trans a1).trans hin)
  refine ⟨b1, b2, fun c1 c2 c3 k hk => (b3 c3).2 k ?_⟩
  rw [c2, a3 (by rw [c1]; decide)]
  exact hk

/-! ## Where the pump goes wrong -/

/-- One read at the start. -/
theorem first_read (oc : Bool) {bytes : Bytes} (hne : bytes ≠ []) (hl : bytes.length ≤ 32000) :
    Run (frameStep oc) bytes [] (afterRead ⟨fill (List.replicate bufferSize 0) 0 bytes, bytes.length, 0, 0, .reading⟩
      (nextFrame oc bytes)) := by
  have hs : frameStep oc Pump.start (.read bytes) = some (afterRead ⟨fill (List.replicate bufferSize 0) 0 bytes, bytes.length,
      0, 0, .reading⟩ (nextFrame oc bytes), []) := by
    have ht := fill_take (buf := List.replicate bufferSize (0 : UInt8)) (bytes := bytes) (pos := 0) (Nat.zero_le _)
    rw [Nat.zero_add, List.take_zero, List.nil_append] at ht
    simp only [frameStep, Pump.start]
    rw [if_pos ⟨trivial, by rw [List.length_replicate]; exact hl⟩, if_neg (fun h => hne (List.eq_nil_of_length_eq_zero h))]
    simp only [Nat.zero_add]
    rw [ht]
  have := Run.start.step hs
  exact this

/-- C54, recorded finding: an IPv4 header that declares the total length 0 stops the pump for good: it goes round for ever
without reading or writing. -/
theorem zero_length_hangs (oc : Bool) : ∃ input p, input.length = 20 ∧ Run (frameStep oc) input [] p ∧ p.pc = .writing ∧
    ∀ c p' out, frameStep oc p c = some (p', out) → p' = p ∧ out = [] := by
  have hlen : (0x45 :: List.replicate 19 (0 : UInt8)).length = 20 := by decide
  have hn : ∀ oc, nextFrame oc (0x45 :: List.replicate 19 0) = .frame 0 := by decide
  have h := first_read oc (bytes := 0x45 :: List.replicate 19 0) (by decide) (by decide)
  rw [hn oc] at h
  refine ⟨_, _, hlen, h, rfl, ?_⟩
  have ht := fill_take (buf := List.replicate bufferSize (0 : UInt8)) (bytes := 0x45 :: List.replicate 19 0) (pos := 0) (Nat.zero_le _)
  rw [Nat.zero_add, List.take_zero, List.nil_append] at ht
  have hbl : (fill (List.replicate bufferSize (0 : UInt8)) 0 (0x45 :: List.replicate 19 0)).length = bufferSize := by
    rw [fill_length (by rw [List.length_replicate, hlen]; decide), List.length_replicate]
  generalize hbuf : fill (List.replicate bufferSize (0 : UInt8)) 0 (0x45 :: List.replicate 19 0) = buf at *
  intro c p' out hs
  cases c with
  | read bytes => simp [frameStep, afterRead] at hs
  | wrote n => simp [frameStep, afterRead] at hs
  | turn =>
    simp only [frameStep, afterRead, Nat.lt_irrefl, not_false_eq_true, and_self, if_true, List.drop_zero] at hs
    rw [ht, hn oc] at hs
    simp only [afterFrame, Nat.add_zero, Option.some.injEq, Prod.mk.injEq] at hs
    rw [if_pos (Nat.zero_le _)] at hs
    obtain ⟨rfl, rfl⟩ := hs
    exact ⟨rfl, rfl⟩

/-- C54, recorded finding: a packet longer than the buffer (legal up to 65535 bytes) ends the pump: when the buffer is full
the next read gives nothing, which is taken for a disconnect. -/
theorem oversized_packet_stops (oc : Bool) {f : Bytes} (hv : IsV4 f ∨ IsV6 f) (h1 : 32000 < f.length) (h2 : f.length < 65536) :
    ∃ p, Run (frameStep oc) (f.take 32000) [] p ∧ ∀ c p' out, frameStep oc p c = some (p', out) → p'.pc = .panicked := by
  have hl : (f.take 32000).length = 32000 := by rw [List.length_take]; omega
  have hr := first_read oc (bytes := f.take 32000) (by intro e; rw [e] at hl; cases hl) (by omega)
  rw [nextFrame_part oc (rest := f.drop 32000) (by rw [List.take_append_drop]; exact h2) (by rw [List.take_append_drop]; exact hv)
    (by intro e; have := congrArg List.length e; rw [List.length_drop, List.length_nil] at this; omega)] at hr
  refine ⟨_, hr, ?_⟩
  have hbl : (fill (List.replicate bufferSize (0 : UInt8)) 0 (f.take 32000)).length = bufferSize := by
    rw [fill_length (by rw [List.length_replicate, hl]; decide), List.length_replicate]
  generalize fill (List.replicate bufferSize (0 : UInt8)) 0 (f.take 32000) = buf at *
  intro c p' out hs
  cases c with
  | read bytes =>
    simp only [frameStep, afterRead, true_and, hl, hbl, show bufferSize = 32000 from rfl, Nat.sub_self, Nat.le_zero_eq] at hs
    split at hs
    · simp only [Option.some.injEq, Prod.mk.injEq] at hs
      rw [← hs.1]
    · cases hs
  | wrote n => simp [frameStep, afterRead] at hs
  | turn => simp [frameStep, afterRead] at hs

/-- C54, recorded finding: for an IPv6 header that declares 65496 or more bytes of payload the size does not fit into 16
bits. Builds with overflow checks panic; others cut the stream in the middle of the packet. -/
theorem jumbo_misframed : ∃ header : Bytes, header.length = 40 ∧ nextFrame true header = .panic ∧ nextFrame false header = .frame 39 :=
  ⟨[0x60, 0, 0, 0, 255, 255] ++ List.replicate 34 0, by decide, by decide, by decide⟩

/-! ## Concrete cases -/

/-- A minimal IPv4 packet and a minimal IPv6 packet with 2 bytes of payload. -/
def toyPackets : List Bytes :=
  [[0x45, 0, 0, 20] ++ List.replicate 16 7, [0x60, 0, 0, 0, 0, 2] ++ List.replicate 36 9]

theorem toy_packets : ∀ f ∈ toyPackets, IsPacket f := by
  intro f hf
  rcases List.mem_cons.mp hf with rfl | hf
  · exact ⟨by decide, .inl ⟨_, _, rfl, by decide, by decide, by decide, by decide⟩⟩
  · rw [List.mem_singleton.mp hf]
    exact ⟨by decide, .inr ⟨_, _, rfl, by decide, by decide, by decide⟩⟩

/-- A run over both packets, cut inside the second one: the first is written, then the second. -/
theorem toy_frames : ∃ p p' : Pump, ∃ out, Run (steady (frameStep true)) (toyPackets.flatten.take 30) out p ∧ p.pc = .reading ∧
    out = toyPackets.take 1 ∧ Run (steady (frameStep true)) toyPackets.flatten toyPackets p' ∧ p'.pc = .reading := by
  have go : ∀ {input : Bytes} {output : List Bytes} {p : Pump}, Run (steady (frameStep true)) input output p → p.pc = .reading →
      ∀ bytes, input ++ bytes <+: toyPackets.flatten → bytes ≠ [] → bytes.length ≤ p.buf.length - p.received →
      ∃ out' p', Run (steady (frameStep true)) (input ++ bytes) out' p' ∧ p'.pc = .reading := by
    intro input output p h hpc bytes hin hne hl
    have hs : steady (frameStep true) p (.read bytes) = some (afterRead { p with buf := fill p.buf p.received bytes, received := p.received + bytes.length }
        (nextFrame true ((fill p.buf p.received bytes).take (p.received + bytes.length))), []) := by
      simp only [steady, if_neg hne, frameStep]
      rw [if_pos ⟨hpc, hl⟩, if_neg (fun h => hne (List.eq_nil_of_length_eq_zero h))]
    obtain ⟨more, p', r1, r2⟩ := packets_drain true toy_packets (h.step hs) hin
    exact ⟨_, p', r1, r2⟩
  obtain ⟨o1, p1, r1, q1⟩ := go Run.start rfl (toyPackets.flatten.take 30) (List.take_prefix ..) (by decide)
    (by
      have e1 : Pump.start.buf.length = bufferSize := List.length_replicate
      have e2 : (toyPackets.flatten.take 30).length = 30 := by decide
      rw [e1, e2]
      exact (by decide : 30 ≤ 32000 - 0))
  rw [List.nil_append] at r1
  have k1 := packets_preserved true toy_packets r1 (List.take_prefix ..)
  have hlag := (frames_transparent true (steady_run r1)).1
  have e1 : o1 = toyPackets.take 1 := by
    have h1 := (k1.2.2 q1).2 1 (by decide)
    obtain ⟨x, hx⟩ := k1.2.1
    have h2 := h1.length_le
    have hlen := hlag.length_le
    match o1, x, hx with
    | [], _, _ => simp [toyPackets] at h2
    | [a], x, hx => 
      have : toyPackets = a :: x := hx.symm
      rw [this]; rfl
    | a :: b :: r, x, hx =>
      exfalso
      simp only [toyPackets, List.cons_append, List.cons.injEq] at hx
      obtain ⟨rfl, rfl, hx⟩ := hx
      simp [toyPackets] at hlen
  have hb := k1.2.2 q1
  obtain ⟨o2, p2, r2, q2⟩ := go r1 q1 (toyPackets.flatten.drop 30) (by
    rw [List.take_append_drop]; exact List.prefix_rfl) (by decide) (by
    have i1 := frame_inv (steady_run r1)
    have hr := (i1.reading q1).1
    have := congrArg List.length hr
    have hsz := i1.size
    rw [List.length_append, List.length_take (l := p1.buf)] at this
    have h30 : (toyPackets.flatten.take 30).length = 30 := by decide
    have h32 : (toyPackets.flatten.drop 30).length = 32 := by decide
    rw [show bufferSize = 32000 from rfl] at hsz
    have := i1.received
    rw [show bufferSize = 32000 from rfl] at this
    omega)
  rw [List.take_append_drop] at r2
  have k2 := packets_preserved true toy_packets r2 List.prefix_rfl
  have e2 : o2 = toyPackets := by
    have h1 := (k2.2.2 q2).2 2 (by decide)
    exact (List.IsPrefix.eq_of_length_le k2.2.1 h1.length_le)
  exact ⟨p1, p2, o1, r1, q1, e1, e2 ▸ r2, q2⟩

end Qos.Egress
