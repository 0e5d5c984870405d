import Verif.Spec.Reprint
import Verif.Lemmas.Text
import Mathlib.Data.List.Forall2
import Mathlib.Data.List.Induction
import Mathlib.Tactic.ByContra
/-!
# C77: the reprinted output of the pivot
-/
namespace Qos.Reprint

theorem split_some : ∀ {bs l r : Bytes}, splitNewline bs = some (l, r) → bs = l ++ 10 :: r ∧ (10 : UInt8) ∉ l
  | [], _, _, h => by cases h
  | b :: bs, l, r, h => by
    unfold splitNewline at h
    by_cases hb : b = 10
    · rw [if_pos hb] at h
      cases h
      exact ⟨by rw [hb]; rfl, by simp⟩
    · rw [if_neg hb] at h
      cases hs : splitNewline bs with
      | none => rw [hs] at h; cases h
      | some x =>
        obtain ⟨l', r'⟩ := x
        rw [hs] at h
        cases h
        obtain ⟨h1, h2⟩ := split_some hs
        refine ⟨by rw [h1]; rfl, ?_⟩
        rw [List.mem_cons, not_or]
        exact ⟨fun e => hb e.symm, h2⟩

theorem split_none : ∀ {bs : Bytes}, splitNewline bs = none → (10 : UInt8) ∉ bs
  | [], _ => by simp
  | b :: bs, h => by
    unfold splitNewline at h
    by_cases hb : b = 10
    · rw [if_pos hb] at h; cases h
    · rw [if_neg hb] at h
      rw [List.mem_cons, not_or]
      exact ⟨fun e => hb e.symm, split_none (by simpa using h)⟩

theorem utf8_append (a b : List Char) : utf8 (String.ofList (a ++ b)) = utf8 (String.ofList a) ++ utf8 (String.ofList b) := by
  unfold utf8
  simp

/-- What `lineOf` prints. -/
def toPrinted : Read → Option Printed
  | .line t => some (.line t)
  | .bad => some .failed
  | .ended => none

theorem lineOf_shown (nl : Bool) (bytes : Bytes) : ∃ p, toPrinted (lineOf nl bytes) = some p ∧ Shown nl bytes p := by
  unfold lineOf
  cases hd : utf8Decode bytes with
  | none =>
    refine ⟨.failed, rfl, .bad fun t e => ?_⟩
    rw [e, utf8Decode_utf8] at hd
    cases hd
  | some t =>
    have ht := utf8_of_utf8Decode hd
    cases nl with
    | false => exact ⟨_, rfl, .text t ht.symm (fun h => (nomatch h))⟩
    | true =>
      simp only [if_true]
      unfold stripCr
      by_cases hl : t.toList.getLast? = some '\r'
      · rw [if_pos hl]
        refine ⟨_, rfl, .cr _ ?_ rfl⟩
        rw [← ht]
        have := List.dropLast_append_getLast? '\r' hl
        conv_lhs => rw [← String.ofList_toList (s := t), ← this]
        rw [utf8_append]
        rfl
      · rw [if_neg hl]
        exact ⟨_, rfl, .text t ht.symm fun _ => hl⟩

theorem pipe_set (s : State) (a b : Source) (p : Pipe) : (s.setPipe a p).pipe b = if a = b then p else s.pipe b := by
  cases a <;> cases b <;> rfl

theorem set_running (s : State) (a : Source) (p : Pipe) : (s.setPipe a p).running = s.running := by cases a <;> rfl

theorem set_printed (s : State) (a : Source) (p : Pipe) : (s.setPipe a p).printed = s.printed := by cases a <;> rfl

theorem run_snoc (evs : List Ev) (e : Ev) : run (evs ++ [e]) = step (run evs) e := by
  unfold run
  rw [List.foldl_append]
  rfl

theorem written_closed {src : Source} : ∀ {evs more : List Ev}, .close src ∈ evs → written src (evs ++ more) = written src evs
  | [], _, h => by cases h
  | .write s b :: evs, more, h => by
    have h : Ev.close src ∈ evs := by simpa using h
    simp only [List.cons_append, written]
    rw [written_closed h]
  | .poll s :: evs, more, h => by
    have h : Ev.close src ∈ evs := by simpa using h
    simp only [List.cons_append, written]
    rw [written_closed h]
  | .close s :: evs, more, h => by
    simp only [List.cons_append, written]
    by_cases e : s = src
    · rw [if_pos e, if_pos e]
    · rw [if_neg e, if_neg e]
      refine written_closed ?_
      rcases List.mem_cons.mp h with h | h
      · injection h with h; exact absurd h.symm e
      · exact h

theorem written_open {src : Source} : ∀ {evs more : List Ev}, .close src ∉ evs → written src (evs ++ more) = written src evs ++ written src more
  | [], _, _ => rfl
  | .write s b :: evs, more, h => by
    have h : Ev.close src ∉ evs := fun hh => h (List.mem_cons_of_mem _ hh)
    simp only [List.cons_append, written]
    rw [written_open h]
    split <;> simp
  | .poll s :: evs, more, h => by
    have h : Ev.close src ∉ evs := fun hh => h (List.mem_cons_of_mem _ hh)
    simp only [List.cons_append, written]
    rw [written_open h]
  | .close s :: evs, more, h => by
    have hne : s ≠ src := by rintro rfl; exact h List.mem_cons_self
    have h : Ev.close src ∉ evs := fun hh => h (List.mem_cons_of_mem _ hh)
    simp only [List.cons_append, written]
    rw [if_neg hne, if_neg hne, written_open h]

/-- What is known of one stream. -/
structure Inv (src : Source) (evs : List Ev) (s : State) (lines : List Bytes) (last lost : Bytes) (ps ps' : List Printed) : Prop where
  closed : (s.pipe src).closed = true ↔ .close src ∈ evs
  stream : written src evs = lines.flatMap (fun l => l ++ [10]) ++ last ++ (s.pipe src).unread ++ lost
  whole : ∀ l ∈ lines, (10 : UInt8) ∉ l
  tail : last = [] ∨ ((10 : UInt8) ∉ last ∧ (s.pipe src).closed = true ∧ (s.pipe src).unread = [] ∧ lost = [])
  nothing : s.running = true → lost = []
  prints : printedOf src s.printed = ps ++ ps'
  shown : List.Forall₂ (Shown true) lines ps
  rest : (last = [] ∧ ps' = []) ∨ (last ≠ [] ∧ ∃ p, ps' = [p] ∧ Shown false last p)

theorem printedOf_snoc (src a : Source) (ps : List (Source × Printed)) (p : Printed) :
    printedOf src (ps ++ [(a, p)]) = if a = src then printedOf src ps ++ [p] else printedOf src ps := by
  unfold printedOf
  rw [List.filterMap_append]
  by_cases e : a = src
  · simp [e]
  · simp [e]

theorem took_other {s : State} {a src : Source} (x : Read × Pipe) (h : a ≠ src) :
    (took s a x).pipe src = s.pipe src ∧ printedOf src (took s a x).printed = printedOf src s.printed := by
  obtain ⟨r, p⟩ := x
  cases r with
  | line t =>
    constructor
    · show (State.pipe (s.setPipe a p) src) = _
      rw [pipe_set, if_neg h]
    · show printedOf src (s.printed ++ [(a, .line t)]) = _
      rw [printedOf_snoc, if_neg h]
  | bad =>
    constructor
    · show (State.pipe (s.setPipe a p) src) = _
      rw [pipe_set, if_neg h]
    · show printedOf src (s.printed ++ [(a, .failed)]) = _
      rw [printedOf_snoc, if_neg h]
  | ended => exact ⟨rfl, rfl⟩

theorem took_line {s : State} {a : Source} {r : Read} {q : Pipe} {p : Printed} (h : toPrinted r = some p) :
    (took s a (r, q)).pipe a = q ∧ (took s a (r, q)).printed = s.printed ++ [(a, p)] ∧ (took s a (r, q)).running = s.running := by
  cases r with
  | line t =>
    cases h
    refine ⟨?_, rfl, ?_⟩
    · show (State.pipe (s.setPipe a q) a) = _
      rw [pipe_set, if_pos rfl]
    · exact set_running s a q
  | bad =>
    cases h
    refine ⟨?_, rfl, ?_⟩
    · show (State.pipe (s.setPipe a q) a) = _
      rw [pipe_set, if_pos rfl]
    · exact set_running s a q
  | ended => cases h

theorem inv (src : Source) (evs : List Ev) : ∃ lines last lost ps ps', Inv src evs (run evs) lines last lost ps ps' := by
  induction evs using List.reverseRecOn with
  | nil => exact ⟨[], [], [], [], [], by cases src <;> simp [run, start, State.pipe], by cases src <;> rfl, by simp, .inl rfl, fun _ => rfl, rfl, .nil, .inl ⟨rfl, rfl⟩⟩
  | append_singleton evs e ih =>
    obtain ⟨lines, last, lost, ps, ps', I⟩ := ih
    rw [run_snoc]
    generalize hs : run evs = s at I ⊢
    cases e with
    | close a =>
      refine ⟨lines, last, lost, ps, ps', ?_⟩
      by_cases ha : a = src
      · subst ha
        have hw : written a (evs ++ [.close a]) = written a evs := by
          by_cases hc : Ev.close a ∈ evs
          · exact written_closed hc
          · rw [written_open hc]; simp [written]
        have hp : (step s (.close a)).pipe a = { s.pipe a with closed := true } := by
          show (s.setPipe a _).pipe a = _
          rw [pipe_set, if_pos rfl]
        refine ⟨by rw [hp]; simp, by rw [hw, hp]; exact I.stream, I.whole, ?_, ?_, ?_, I.shown, I.rest⟩
        · rw [hp]
          rcases I.tail with h | ⟨h1, h2, h3⟩
          · exact .inl h
          · exact .inr ⟨h1, rfl, h3⟩
        · intro h
          exact I.nothing (by rw [← h]; exact (set_running s a _).symm)
        · rw [show (step s (.close a)).printed = s.printed from set_printed s a _]; exact I.prints
      · have hw : written src (evs ++ [.close a]) = written src evs := by
          by_cases hc : Ev.close src ∈ evs
          · exact written_closed hc
          · rw [written_open hc]; simp [written, ha]
        have hp : (step s (.close a)).pipe src = s.pipe src := by
          show (s.setPipe a _).pipe src = _
          rw [pipe_set, if_neg ha]
        refine ⟨?_, by rw [hw, hp]; exact I.stream, I.whole, by rw [hp]; exact I.tail, ?_, ?_, I.shown, I.rest⟩
        · rw [hp, I.closed]
          simp only [List.mem_append, List.mem_singleton]
          refine ⟨.inl, fun h => h.resolve_right fun e => ?_⟩
          injection e with e; exact ha e.symm
        · intro h
          exact I.nothing (by rw [← h]; exact (set_running s a _).symm)
        · rw [show (step s (.close a)).printed = s.printed from set_printed s a _]; exact I.prints
    | write a bytes =>
      have hmem : Ev.close src ∈ evs ++ [.write a bytes] ↔ Ev.close src ∈ evs := by simp
      by_cases hgo : s.running ∧ (s.pipe a).closed = false
      · have hst : step s (.write a bytes) = s.setPipe a { s.pipe a with unread := (s.pipe a).unread ++ bytes } := if_pos hgo
        rw [hst]
        by_cases ha : a = src
        · subst ha
          have hnc : Ev.close a ∉ evs := by
            intro h
            rw [I.closed.mpr h] at hgo
            cases hgo.2
          have hlast : last = [] := by
            rcases I.tail with h | ⟨-, h, -⟩
            · exact h
            · rw [h] at hgo; cases hgo.2
          have hlost := I.nothing hgo.1
          refine ⟨lines, last, lost, ps, ps', ?_, ?_, I.whole, .inl hlast, fun _ => hlost, ?_, I.shown, I.rest⟩
          · rw [pipe_set, if_pos rfl, hmem]; exact I.closed
          · rw [pipe_set, if_pos rfl, written_open hnc, I.stream, hlost]
            simp [written]
          · rw [set_printed]; exact I.prints
        · refine ⟨lines, last, lost, ps, ps', ?_, ?_, I.whole, ?_, ?_, ?_, I.shown, I.rest⟩
          · rw [pipe_set, if_neg ha, hmem]; exact I.closed
          · rw [pipe_set, if_neg ha, ← I.stream]
            by_cases hc : Ev.close src ∈ evs
            · exact written_closed hc
            · rw [written_open hc]; simp [written, ha]
          · rw [pipe_set, if_neg ha]; exact I.tail
          · rw [set_running]; exact I.nothing
          · rw [set_printed]; exact I.prints
      · have hst : step s (.write a bytes) = s := if_neg hgo
        rw [hst]
        by_cases hc : Ev.close src ∈ evs
        · exact ⟨lines, last, lost, ps, ps', by rw [hmem]; exact I.closed, by rw [written_closed hc]; exact I.stream, I.whole, I.tail, I.nothing,
            I.prints, I.shown, I.rest⟩
        · by_cases ha : a = src
          · subst ha
            have hcl : (s.pipe a).closed = false := by
              cases hx : (s.pipe a).closed with
              | false => rfl
              | true => exact absurd (I.closed.mp hx) hc
            have hnr : s.running ≠ true := fun h => hgo ⟨h, hcl⟩
            have hlast : last = [] := by
              rcases I.tail with h | ⟨-, h, -⟩
              · exact h
              · rw [h] at hcl; cases hcl
            refine ⟨lines, last, lost ++ bytes, ps, ps', by rw [hmem]; exact I.closed, ?_, I.whole, .inl hlast, fun h => absurd h hnr, I.prints,
              I.shown, I.rest⟩
            rw [written_open hc, I.stream]
            simp [written]
          · refine ⟨lines, last, lost, ps, ps', by rw [hmem]; exact I.closed, ?_, I.whole, I.tail, I.nothing, I.prints, I.shown, I.rest⟩
            rw [written_open hc, I.stream]
            simp [written, ha]
    | poll a =>
      have hmem : Ev.close src ∈ evs ++ [.poll a] ↔ Ev.close src ∈ evs := by simp
      have hw : written src (evs ++ [.poll a]) = written src evs := by
        by_cases hc : Ev.close src ∈ evs
        · exact written_closed hc
        · rw [written_open hc]; simp [written]
      have same : ∀ t : State, t.pipe src = s.pipe src → printedOf src t.printed = printedOf src s.printed →
          (t.running = true → s.running = true) → Inv src (evs ++ [.poll a]) t lines last lost ps ps' := by
        intro t h1 h2 h3
        exact ⟨by rw [h1, hmem]; exact I.closed, by rw [h1, hw]; exact I.stream, I.whole, by rw [h1]; exact I.tail,
          fun h => I.nothing (h3 h), by rw [h2]; exact I.prints, I.shown, I.rest⟩
      by_cases hr : s.running = true
      · cases hn : nextLine (s.pipe a) with
        | none =>
          have hst : step s (.poll a) = s := by simp only [step, if_pos hr, hn]
          rw [hst]
          exact ⟨lines, last, lost, ps, ps', same s rfl rfl id⟩
        | some x =>
          have hst : step s (.poll a) = took s a x := by simp only [step, if_pos hr, hn]
          rw [hst]
          by_cases ha : a = src
          · subst ha
            have hlost := I.nothing hr
            unfold nextLine at hn
            cases hsp : splitNewline (s.pipe a).unread with
            | some y =>
              obtain ⟨l, r⟩ := y
              rw [hsp] at hn
              simp only [Option.some.injEq] at hn
              subst hn
              obtain ⟨e1, e2⟩ := split_some hsp
              obtain ⟨p, hp1, hp2⟩ := lineOf_shown true l
              obtain ⟨t1, t2, t3⟩ := took_line (s := s) (a := a) (q := { s.pipe a with unread := r }) hp1
              have hlast : last = [] := by
                rcases I.tail with h | ⟨-, -, h, -⟩
                · exact h
                · rw [e1] at h; simp at h
              have hps' : ps' = [] := by
                rcases I.rest with ⟨-, h⟩ | ⟨h, -⟩
                · exact h
                · exact absurd hlast h
              refine ⟨lines ++ [l], last, lost, ps ++ [p], ps', ?_, ?_, ?_, .inl hlast, fun _ => hlost, ?_, ?_, I.rest⟩
              · rw [t1, hmem]; exact I.closed
              · rw [t1, hw, I.stream, e1, hlast]
                simp
              · intro l' hl'
                rcases List.mem_append.mp hl' with h | h
                · exact I.whole l' h
                · rw [List.mem_singleton.mp h]; exact e2
              · rw [t2, printedOf_snoc, if_pos rfl, I.prints, hps']
                simp
              · exact List.rel_append I.shown (.cons hp2 .nil)
            | none =>
              rw [hsp] at hn
              have hno := split_none hsp
              simp only at hn
              by_cases hcl : (s.pipe a).closed = true
              · rw [if_pos hcl] at hn
                by_cases hu : (s.pipe a).unread = []
                · rw [if_pos hu] at hn
                  injection hn with hn
                  subst hn
                  exact ⟨lines, last, lost, ps, ps', same _ rfl rfl (fun h => (nomatch h))⟩
                · rw [if_neg hu] at hn
                  injection hn with hn
                  subst hn
                  obtain ⟨p, hp1, hp2⟩ := lineOf_shown false (s.pipe a).unread
                  obtain ⟨t1, t2, t3⟩ := took_line (s := s) (a := a) (q := { s.pipe a with unread := [] }) hp1
                  have hlast : last = [] := by
                    rcases I.tail with h | ⟨-, -, h, -⟩
                    · exact h
                    · exact absurd h hu
                  have hps' : ps' = [] := by
                    rcases I.rest with ⟨-, h⟩ | ⟨h, -⟩
                    · exact h
                    · exact absurd hlast h
                  refine ⟨lines, (s.pipe a).unread, lost, ps, [p], ?_, ?_, I.whole, .inr ⟨hno, ?_, ?_, hlost⟩, fun _ => hlost, ?_, I.shown,
                    .inr ⟨hu, p, rfl, hp2⟩⟩
                  · rw [t1, hmem]; exact I.closed
                  · rw [t1, hw, I.stream, hlast]
                    simp
                  · rw [t1]; exact hcl
                  · rw [t1]
                  · rw [t2, printedOf_snoc, if_pos rfl, I.prints, hps']
                    simp
              · rw [if_neg hcl] at hn
                cases hn
          · obtain ⟨g1, g2⟩ := took_other (s := s) x ha
            exact ⟨lines, last, lost, ps, ps', same _ g1 g2 (fun _ => hr)⟩
      · have hst : step s (.poll a) = s := if_neg hr
        rw [hst]
        exact ⟨lines, last, lost, ps, ps', same s rfl rfl id⟩

theorem framed (bs : Bytes) : ∃ lines rest, Framed bs lines rest := by
  induction bs with
  | nil => exact ⟨[], [], rfl, by simp, by simp⟩
  | cons b bs ih =>
    obtain ⟨lines, rest, h1, h2, h3⟩ := ih
    by_cases hb : b = 10
    · refine ⟨[] :: lines, rest, by rw [h1, hb]; rfl, ?_, h3⟩
      intro l hl
      rcases List.mem_cons.mp hl with rfl | hl
      · simp
      · exact h2 l hl
    · have hb' : (10 : UInt8) ≠ b := fun e => hb e.symm
      cases lines with
      | nil => exact ⟨[], b :: rest, by rw [h1]; rfl, by simp, by rw [List.mem_cons, not_or]; exact ⟨hb', h3⟩⟩
      | cons l lines =>
        refine ⟨(b :: l) :: lines, rest, by rw [h1]; simp, ?_, h3⟩
        intro l' hl'
        rcases List.mem_cons.mp hl' with rfl | hl'
        · rw [List.mem_cons, not_or]
          exact ⟨hb', h2 l List.mem_cons_self⟩
        · exact h2 l' (List.mem_cons_of_mem _ hl')

theorem framed_append {lines : List Bytes} {bs : Bytes} {more : List Bytes} {rest : Bytes} (h : ∀ l ∈ lines, (10 : UInt8) ∉ l)
    (hf : Framed bs more rest) : Framed (lines.flatMap (fun l => l ++ [10]) ++ bs) (lines ++ more) rest := by
  refine ⟨?_, ?_, hf.2.2⟩
  · rw [hf.1]; simp
  · intro l hl
    rcases List.mem_append.mp hl with h1 | h1
    · exact h l h1
    · exact hf.2.1 l h1

/-- C77: what is printed of a stream is, in order and without a gap, the lines that the pivot wrote to it; a last line without a
newline is printed only after the stream was closed. This for every order of writes, closes and reads. -/
theorem printed_in_order (src : Source) (evs : List Ev) : ∃ lines later rest, Framed (written src evs) (lines ++ later) rest ∧
    (List.Forall₂ (Shown true) lines (printedOf src (run evs).printed) ∨
      (later = [] ∧ rest ≠ [] ∧ .close src ∈ evs ∧ ∃ ps p, printedOf src (run evs).printed = ps ++ [p] ∧
        List.Forall₂ (Shown true) lines ps ∧ Shown false rest p)) := by
  obtain ⟨lines, last, lost, ps, ps', I⟩ := inv src evs
  rcases I.rest with ⟨rfl, rfl⟩ | ⟨hne, p, rfl, hp⟩
  · obtain ⟨more, rest, hf⟩ := framed (((run evs).pipe src).unread ++ lost)
    refine ⟨lines, more, rest, ?_, .inl ?_⟩
    · rw [I.stream, List.append_nil, List.append_assoc]
      exact framed_append I.whole hf
    · rw [I.prints, List.append_nil]; exact I.shown
  · rcases I.tail with h | ⟨h1, h2, h3, h4⟩
    · exact absurd h hne
    · refine ⟨lines, [], last, ?_, .inr ⟨rfl, hne, I.closed.mp h2, ps, p, I.prints, I.shown, hp⟩⟩
      rw [I.stream, h3, h4, List.append_nil, List.append_nil]
      exact framed_append I.whole ⟨rfl, by simp, h1⟩

theorem caught_up {src : Source} {evs : List Ev} (hr : (run evs).running = true) (hw : nextLine ((run evs).pipe src) = none) :
    ∃ lines rest, Framed (written src evs) lines rest ∧ List.Forall₂ (Shown true) lines (printedOf src (run evs).printed) := by
  obtain ⟨lines, last, lost, ps, ps', I⟩ := inv src evs
  unfold nextLine at hw
  cases hs : splitNewline ((run evs).pipe src).unread with
  | some x => obtain ⟨l, r⟩ := x; rw [hs] at hw; cases hw
  | none =>
    rw [hs] at hw
    simp only at hw
    by_cases hc : ((run evs).pipe src).closed = true
    · rw [if_pos hc] at hw
      by_cases hu : ((run evs).pipe src).unread = []
      · rw [if_pos hu] at hw; cases hw
      · rw [if_neg hu] at hw; cases hw
    · have hlast : last = [] := by
        rcases I.tail with h | ⟨-, h, -⟩
        · exact h
        · exact absurd h hc
      have hps : ps' = [] := by
        rcases I.rest with ⟨-, h⟩ | ⟨h, -⟩
        · exact h
        · exact absurd hlast h
      refine ⟨lines, ((run evs).pipe src).unread, ?_, ?_⟩
      · have := framed_append I.whole (bs := ((run evs).pipe src).unread) (more := []) ⟨rfl, by simp, split_none hs⟩
        rw [List.append_nil] at this
        rw [I.stream, hlast, I.nothing hr, List.append_nil, List.append_nil]
        exact this
      · rw [I.prints, hps, List.append_nil]; exact I.shown

/-- C77: if a look at a stream neither prints anything nor ends the task, then all lines written to the stream have been printed. -/
theorem nothing_left {src : Source} {evs : List Ev} (hr : (run (evs ++ [.poll src])).running = true)
    (hp : (run (evs ++ [.poll src])).printed = (run evs).printed) :
    ∃ lines rest, Framed (written src evs) lines rest ∧ List.Forall₂ (Shown true) lines (printedOf src (run evs).printed) := by
  rw [run_snoc] at hr hp
  have hrun : (run evs).running = true := by
    by_contra h
    rw [show step (run evs) (.poll src) = run evs from if_neg h] at hr
    exact h hr
  refine caught_up hrun ?_
  cases hn : nextLine ((run evs).pipe src) with
  | none => rfl
  | some x =>
    exfalso
    have hst : step (run evs) (.poll src) = took (run evs) src x := by simp only [step, if_pos hrun, hn]
    rw [hst] at hr hp
    obtain ⟨r, q⟩ := x
    cases r with
    | line t => exact absurd hp (by show (run evs).printed ++ [_] ≠ _; simp)
    | bad => exact absurd hp (by show (run evs).printed ++ [_] ≠ _; simp)
    | ended => cases hr

/-- C77: when the task ends, everything the pivot wrote to the stream that it found closed has been printed. -/
theorem ended_complete {src : Source} {evs : List Ev} (hr : (run evs).running = true)
    (he : (run (evs ++ [.poll src])).running = false) :
    .close src ∈ evs ∧ ∃ lines rest ps ps', Framed (written src evs) lines rest ∧ printedOf src (run (evs ++ [.poll src])).printed = ps ++ ps' ∧
      List.Forall₂ (Shown true) lines ps ∧ ((rest = [] ∧ ps' = []) ∨ (rest ≠ [] ∧ ∃ p, ps' = [p] ∧ Shown false rest p)) := by
  obtain ⟨lines, last, lost, ps, ps', I⟩ := inv src evs
  rw [run_snoc] at he ⊢
  generalize run evs = s at *
  cases hn : nextLine (s.pipe src) with
  | none =>
    have hst : step s (.poll src) = s := by simp only [step, if_pos hr, hn]
    rw [hst, hr] at he
    cases he
  | some x =>
    have hst : step s (.poll src) = took s src x := by simp only [step, if_pos hr, hn]
    rw [hst] at he ⊢
    unfold nextLine at hn
    cases hs : splitNewline (s.pipe src).unread with
    | some y =>
      obtain ⟨l, r⟩ := y
      rw [hs] at hn
      injection hn with hn
      subst hn
      obtain ⟨p, hp, -⟩ := lineOf_shown true l
      rw [(took_line (s := s) (a := src) (q := { s.pipe src with unread := r }) hp).2.2, hr] at he
      cases he
    | none =>
      rw [hs] at hn
      simp only at hn
      by_cases hc : (s.pipe src).closed = true
      · rw [if_pos hc] at hn
        by_cases hu : (s.pipe src).unread = []
        · rw [if_pos hu] at hn
          injection hn with hn
          subst hn
          refine ⟨I.closed.mp hc, lines, last, ps, ps', ?_, I.prints, I.shown, I.rest⟩
          have hl : (10 : UInt8) ∉ last := by
            rcases I.tail with h | ⟨h, -⟩
            · rw [h]; simp
            · exact h
          have := framed_append I.whole (bs := last) (more := []) ⟨rfl, by simp, hl⟩
          rw [List.append_nil] at this
          rw [I.stream, hu, I.nothing hr, List.append_nil, List.append_nil]
          exact this
        · rw [if_neg hu] at hn
          injection hn with hn
          subst hn
          obtain ⟨p, hp, -⟩ := lineOf_shown false (s.pipe src).unread
          rw [(took_line (s := s) (a := src) (q := { s.pipe src with unread := [] }) hp).2.2, hr] at he
          cases he
      · rw [if_neg hc] at hn; cases hn

/-- C77: each line is marked with the stream it was written to, and goes to the reaper's stream of the same name. -/
theorem console_marks (src : Source) (t : String) : console (src, .line t) =
    (src, (match src with | .out => "PIVOT[OUT]: " | .err => "PIVOT[ERR]: ") ++ t) := by
  cases src <;> rfl

/-- The last words of the pivot can be lost: it writes a line to its error stream and exits; both streams are then closed, and if
the task finds the end of the output stream first, it ends, and the line is never printed. -/
theorem last_words_lost : ∃ (evs : List Ev) (line : Bytes), .write .err (line ++ [10]) ∈ evs ∧ .close .out ∈ evs ∧ .close .err ∈ evs ∧
    ∀ more, printedOf .err (run (evs ++ more)).printed = [] := by
  refine ⟨[.write .err ([112, 97, 110, 105, 99] ++ [10]), .close .out, .close .err, .poll .out], [112, 97, 110, 105, 99], by simp, by simp, by simp,
    ?_⟩
  intro more
  have stopped : ∀ (more : List Ev) (s : State), s.running = false →
      (more.foldl step s).printed = s.printed := by
    intro more
    induction more with
    | nil => intro s _; rfl
    | cons e more ih =>
      intro s hs
      rw [List.foldl_cons]
      have : (step s e).running = false ∧ (step s e).printed = s.printed := by
        cases e with
        | write a b => simp [step, hs]
        | close a => exact ⟨by simp only [step, set_running, hs], by simp only [step, set_printed]⟩
        | poll a => simp [step, hs]
      rw [ih _ this.1, this.2]
  have hr : run ([.write .err ([112, 97, 110, 105, 99] ++ [10]), .close .out, .close .err, .poll .out] ++ more) =
      more.foldl step (run [.write .err ([112, 97, 110, 105, 99] ++ [10]), .close .out, .close .err, .poll .out]) := by
    unfold run; rw [List.foldl_append]
  rw [hr, stopped _ _ rfl]
  rfl

/-! ## A concrete case -/

/-- Two lines, an unfinished one and a line that is not text. -/
example : (run [.write .out [104, 105, 13, 10, 255], .poll .out, .write .err [33], .write .out [10, 98], .poll .out, .poll .out, .close .out,
    .poll .out, .poll .out]).printed.map console =
    [(.out, "PIVOT[OUT]: hi"), (.err, "error reading pivot stdout: stream did not contain valid UTF-8"), (.out, "PIVOT[OUT]: b")] := by
  decide +kernel

example : (run [.write .out [104, 105, 13, 10, 255], .poll .out, .write .err [33], .write .out [10, 98], .poll .out, .poll .out, .close .out,
    .poll .out]).running = true ∧ (run [.write .out [104, 105, 13, 10, 255], .poll .out, .write .err [33], .write .out [10, 98], .poll .out, .poll .out, .close .out,
    .poll .out, .poll .out]).running = false := by decide +kernel

example : (run ([.write .out [104, 105, 13, 10, 98], .poll .out] ++ [.poll .out])).running = true ∧
    (run ([.write .out [104, 105, 13, 10, 98], .poll .out] ++ [.poll .out])).printed =
      (run [.write .out [104, 105, 13, 10, 98], .poll .out]).printed := by
  constructor <;> decide +kernel

end Qos.Reprint
