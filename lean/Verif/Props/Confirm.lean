import Verif.Props.ClientFiles
/-!
# Confirmations, exactly (C43)

What the operator types decides: the questions are all confirmed exactly when the typed lines start with one confirming
group of lines per question, in order.
-/
namespace Qos.Client

/-- The lines mean that the operator did not confirm: a no after at most two lines that are neither, or three lines that
are neither (end of input reads as an empty line). -/
def Declined (answers : List String) : Prop :=
  (∃ ws y, answers = ws ++ [y] ∧ ws.length ≤ 2 ∧ IsNo y ∧ ∀ w ∈ ws, ¬ IsYes w ∧ ¬ IsNo w) ∨
  (answers.length = 3 ∧ ∀ w ∈ answers, ¬ IsYes w ∧ ¬ IsNo w)

theorem yes_contains (l : String) : ["yes", "Yes", "YES", "Y", "y"].contains (P256.trim l) = true ↔ IsYes l := by
  simp [IsYes]

theorem no_contains (l : String) : ["no", "No", "NO", "N", "n"].contains (P256.trim l) = true ↔ IsNo l := by
  simp [IsNo]

theorem promptLoop_cases (n : Nat) (input : List String) :
    (IsYes (readLine input).1 ∧ promptLoop (n + 1) input = (true, [(readLine input).1], (readLine input).2)) ∨
    (IsNo (readLine input).1 ∧ ¬ IsYes (readLine input).1 ∧
      promptLoop (n + 1) input = (false, [(readLine input).1], (readLine input).2)) ∨
    (¬ IsYes (readLine input).1 ∧ ¬ IsNo (readLine input).1 ∧
      promptLoop (n + 1) input = ((promptLoop n (readLine input).2).1,
        (readLine input).1 :: (promptLoop n (readLine input).2).2.1, (promptLoop n (readLine input).2).2.2)) := by
  by_cases hy : IsYes (readLine input).1
  · exact .inl ⟨hy, if_pos ((yes_contains _).mpr hy)⟩
  · have hy' : ¬ _ := fun h => hy ((yes_contains _).mp h)
    by_cases hn : IsNo (readLine input).1
    · exact .inr (.inl ⟨hn, hy, (if_neg hy').trans (if_pos ((no_contains _).mpr hn))⟩)
    · have hn' : ¬ _ := fun h => hn ((no_contains _).mp h)
      exact .inr (.inr ⟨hy, hn, (if_neg hy').trans (if_neg hn')⟩)

theorem empty_unclear : ¬ IsYes "" ∧ ¬ IsNo "" := by
  constructor
  · unfold IsYes
    decide +kernel
  · unfold IsNo
    decide +kernel

theorem promptLoop_end (n : Nat) : (promptLoop n []).1 = false := by
  induction n with
  | zero => rfl
  | succ n ih =>
    rcases promptLoop_cases n [] with ⟨h, _⟩ | ⟨_, _, h⟩ | ⟨_, _, h⟩
    · exact absurd h empty_unclear.1
    · rw [h]
    · rw [h]
      exact ih

theorem promptLoop_true (n : Nat) (input ans rest : List String) :
    promptLoop n input = (true, ans, rest) ↔
      input = ans ++ rest ∧ ∃ ws y, ans = ws ++ [y] ∧ ws.length < n ∧ IsYes y ∧ ∀ w ∈ ws, ¬ IsYes w ∧ ¬ IsNo w := by
  induction n generalizing input ans rest with
  | zero =>
    refine ⟨fun h => (nomatch h), ?_⟩
    rintro ⟨_, ws, y, _, h, _⟩
    simp at h
  | succ n ih =>
    cases input with
    | nil =>
      constructor
      · intro h
        have := promptLoop_end (n + 1)
        rw [h] at this
        cases this
      · rintro ⟨h, ws, y, rfl, _⟩
        simp at h
    | cons l ls =>
      rcases promptLoop_cases n (l :: ls) with ⟨hy, h⟩ | ⟨hn, hy, h⟩ | ⟨hy, hn, h⟩ <;> rw [h] <;>
        simp only [readLine] at *
      · constructor
        · intro e
          cases e
          exact ⟨rfl, [], l, rfl, by simp, hy, by simp⟩
        · rintro ⟨e, ws, y, rfl, _, _, hw⟩
          cases ws with
          | nil =>
            simp only [List.nil_append, List.cons_append, List.cons.injEq] at e
            rw [e.1, e.2]
            rfl
          | cons w ws =>
            simp only [List.cons_append, List.cons.injEq] at e
            exact absurd (e.1 ▸ hy) (hw w (by simp)).1
      · constructor
        · intro e
          cases e
        · rintro ⟨e, ws, y, rfl, _, hyy, hw⟩
          cases ws with
          | nil =>
            simp only [List.nil_append, List.cons_append, List.cons.injEq] at e
            exact absurd (e.1 ▸ hyy) hy
          | cons w ws =>
            simp only [List.cons_append, List.cons.injEq] at e
            exact absurd (e.1 ▸ hn) (hw w (by simp)).2
      · constructor
        · intro e
          simp only [Prod.mk.injEq] at e
          obtain ⟨e1, rfl, rfl⟩ := e
          have hp : promptLoop n ls = (true, (promptLoop n ls).2.1, (promptLoop n ls).2.2) := by rw [← e1]
          obtain ⟨hi, ws, y, ha, hlen, hyy, hw⟩ := (ih _ _ _).mp hp
          refine ⟨by rw [List.cons_append, ← hi], l :: ws, y, by rw [ha]; rfl, by simp; omega, hyy, ?_⟩
          intro w hm
          rcases List.mem_cons.mp hm with rfl | hm
          · exact ⟨hy, hn⟩
          · exact hw w hm
        · rintro ⟨e, ws, y, rfl, hlen, hyy, hw⟩
          cases ws with
          | nil =>
            simp only [List.nil_append, List.cons_append, List.cons.injEq] at e
            exact absurd (e.1 ▸ hyy) hy
          | cons w ws =>
            simp only [List.cons_append, List.cons.injEq] at e
            obtain ⟨rfl, e⟩ := e
            have := (ih ls (ws ++ [y]) rest).mpr ⟨by rw [e], ws, y, rfl, by simpa using hlen, hyy,
              fun w hm => hw w (by simp [hm])⟩
            rw [this]
            rfl

theorem promptIsYes_true (input ans rest : List String) :
    promptIsYes input = (true, ans, rest) ↔ input = ans ++ rest ∧ Confirmed ans := by
  unfold promptIsYes Confirmed
  rw [promptLoop_true]
  simp only [Nat.lt_succ_iff]

theorem promptLoop_false (n : Nat) (input : List String) (h : (promptLoop n input).1 = false) :
    (∃ ws y, (promptLoop n input).2.1 = ws ++ [y] ∧ ws.length < n ∧ IsNo y ∧ ∀ w ∈ ws, ¬ IsYes w ∧ ¬ IsNo w) ∨
    ((promptLoop n input).2.1.length = n ∧ ∀ w ∈ (promptLoop n input).2.1, ¬ IsYes w ∧ ¬ IsNo w) := by
  induction n generalizing input with
  | zero => exact .inr ⟨rfl, by simp [promptLoop]⟩
  | succ n ih =>
    rcases promptLoop_cases n input with ⟨hy, e⟩ | ⟨hn, hy, e⟩ | ⟨hy, hn, e⟩ <;> rw [e] at h ⊢
    · cases h
    · exact .inl ⟨[], _, rfl, by simp, hn, by simp⟩
    · rcases ih _ h with ⟨ws, y, h1, h2, h3, h4⟩ | ⟨h1, h2⟩
      · refine .inl ⟨(readLine input).1 :: ws, y, by rw [h1]; rfl, by simp; omega, h3, ?_⟩
        intro w hm
        rcases List.mem_cons.mp hm with rfl | hm
        · exact ⟨hy, hn⟩
        · exact h4 w hm
      · refine .inr ⟨by simp [h1], ?_⟩
        intro w hm
        rcases List.mem_cons.mp hm with rfl | hm
        · exact ⟨hy, hn⟩
        · exact h2 w hm

/-- C43: a round of questions succeeds exactly when what the operator types starts with one group of lines per question,
in order, each a yes after at most two lines that are neither yes nor no; the questions were then put one after the other
and answered with just these lines. -/
theorem interview_exact (qs : List Question) (input : List String) (es : List Event) :
    interview qs input = (true, es) ↔
      ∃ answers rest, input = List.flatten answers ++ rest ∧ answers.length = qs.length ∧
        (∀ a ∈ answers, Confirmed a) ∧ es = List.zipWith .asked qs answers := by
  induction qs generalizing input es with
  | nil =>
    constructor
    · intro h
      cases h
      exact ⟨[], input, rfl, rfl, by simp, rfl⟩
    · rintro ⟨answers, rest, _, _, _, rfl⟩
      rfl
  | cons q qs ih =>
    unfold interview
    simp only
    constructor
    · intro h
      by_cases hy : (promptIsYes input).1 = true
      · rw [if_pos hy] at h
        simp only [Prod.mk.injEq] at h
        obtain ⟨h1, rfl⟩ := h
        obtain ⟨answers, rest, e, hl, hc, he⟩ := (ih (promptIsYes input).2.2 (interview qs (promptIsYes input).2.2).2).mp
          (by rw [← h1])
        obtain ⟨hi, hcf⟩ := (promptIsYes_true input (promptIsYes input).2.1 (promptIsYes input).2.2).mp (by rw [← hy])
        refine ⟨(promptIsYes input).2.1 :: answers, rest, ?_, by simp [hl], ?_, by rw [he]; rfl⟩
        · rw [List.flatten_cons, List.append_assoc, ← e, ← hi]
        · intro a ha
          rcases List.mem_cons.mp ha with rfl | ha
          · exact hcf
          · exact hc a ha
      · rw [if_neg hy] at h
        cases h
    · rintro ⟨answers, rest, e, hl, hc, rfl⟩
      cases answers with
      | nil => simp at hl
      | cons a answers =>
        have hp := (promptIsYes_true input a (answers.flatten ++ rest)).mpr
          ⟨by rw [e, List.flatten_cons, List.append_assoc], hc a (by simp)⟩
        have ht := (ih (answers.flatten ++ rest) _).mpr
          ⟨answers, rest, rfl, by simpa using hl, fun x hx => hc x (by simp [hx]), rfl⟩
        rw [hp]
        simp only [if_true, ht]
        rfl

/-- C43: a round of questions that fails stops at the first question the operator declined: those before it were
confirmed, those after it are not put. -/
theorem interview_declined (qs : List Question) (input : List String) (h : (interview qs input).1 = false) :
    ∃ before q after es ans, qs = before ++ q :: after ∧ AllConfirmed before es ∧ Declined ans ∧
      (interview qs input).2 = es ++ [.asked q ans] := by
  induction qs generalizing input with
  | nil => cases h
  | cons q qs ih =>
    unfold interview at h ⊢
    simp only at h ⊢
    by_cases hy : (promptIsYes input).1 = true
    · rw [if_pos hy] at h ⊢
      obtain ⟨before, q', after, es, ans, h1, h2, h3, h4⟩ := ih _ h
      exact ⟨q :: before, q', after, .asked q (promptIsYes input).2.1 :: es, ans, by rw [h1]; rfl,
        .cons ⟨_, rfl, promptIsYes_yes hy⟩ h2, h3, by rw [h4]; rfl⟩
    · rw [if_neg hy] at h ⊢
      refine ⟨[], q, qs, [], _, rfl, .nil, ?_, rfl⟩
      rcases promptLoop_false 3 input (Bool.eq_false_iff.mpr hy) with ⟨ws, y, h1, h2, h3, h4⟩ | h2
      · exact .inl ⟨ws, y, h1, by omega, h3, h4⟩
      · exact .inr h2

/-- Nothing is both. -/
theorem confirmed_not_declined (a : List String) (hc : Confirmed a) : ¬ Declined a := by
  obtain ⟨ws, y, rfl, hw, hy, hu⟩ := hc
  rintro (⟨ws', y', e, _, hn, _⟩ | ⟨_, h⟩)
  · obtain ⟨_, e⟩ := List.append_inj' e rfl
    cases e
    exact yes_no hy hn
  · exact (h y (by simp)).1 hy

/-- Two hesitations and a yes, then a yes: both questions are confirmed, and the fifth line is left. -/
example : interview [.iamRole "r", .iamRole "s"] ["maybe", "", " yes\n", "Y", "no"] =
    (true, [.asked (.iamRole "r") ["maybe", "", " yes\n"], .asked (.iamRole "s") ["Y"]]) := by decide +kernel

/-- Three hesitations are a no, whatever comes after. -/
example : interview [.iamRole "r"] ["maybe", "", "yess", "yes"] = (false, [.asked (.iamRole "r") ["maybe", "", "yess"]]) := by
  decide +kernel

end Qos.Client
