import Verif.Spec.Launcher
import Verif.Props.HostCli
import Verif.Lemmas.JsonChars
/-!
# C62: the program that runs the enclave
-/
namespace Qos.Launcher
open HostCli

variable {lossy : Bytes → String}

/-! ## The console -/

theorem trimCr_message (line : Bytes) : Message lossy line (trimCr (lossy line)) := by
  unfold Message trimCr
  rw [String.toList_ofList]
  generalize (lossy line).toList = cs
  constructor
  · refine ⟨(cs.reverse.takeWhile fun c => c == '\r').length, ?_⟩
    have h1 : cs.reverse.takeWhile (fun c => c == '\r') = List.replicate (cs.reverse.takeWhile fun c => c == '\r').length '\r' := by
      rw [List.eq_replicate_iff]
      refine ⟨rfl, fun c hc => ?_⟩
      simpa using List.mem_takeWhile_imp hc
    have h2 := List.takeWhile_append_dropWhile (p := fun c => c == '\r') (l := cs.reverse)
    have h3 := congrArg List.reverse h2
    rw [List.reverse_append, List.reverse_reverse] at h3
    refine h3.symm.trans (congrArg _ ?_)
    generalize cs.reverse.takeWhile (fun c => c == '\r') = u at h1 ⊢
    rw [h1]
    simp
  · rw [List.getLast?_reverse]
    intro h
    have := List.head?_dropWhile_not (fun c => c == '\r') cs.reverse
    rw [h] at this
    simp at this

theorem message_unique {line : Bytes} {t u : String} (ht : Message lossy line t) (hu : Message lossy line u) : t = u := by
  obtain ⟨⟨k, h1⟩, h2⟩ := ht
  obtain ⟨⟨j, h3⟩, h4⟩ := hu
  rw [h1] at h3
  apply String.toList_inj.mp
  generalize t.toList = a at *
  generalize u.toList = b at *
  clear h1
  have last : ∀ {x y : List Char} {k j : Nat}, x ++ List.replicate k '\r' = y ++ List.replicate j '\r' → k < j →
      x.getLast? = some '\r' := by
    intro x y k j h hkj
    obtain ⟨d, rfl⟩ : ∃ d, j = (d + 1) + k := ⟨j - k - 1, by omega⟩
    rw [← List.replicate_append_replicate, ← List.append_assoc] at h
    have := List.append_cancel_right h
    rw [this, List.getLast?_append]
    simp [List.getLast?_replicate]
  rcases Nat.lt_trichotomy k j with h | h | h
  · exact absurd (last h3 h) h2
  · subst h; exact List.append_cancel_right h3
  · exact absurd (last h3.symm h) h4

theorem shows_emit (line : Bytes) : Shows lossy [line] (emitLine lossy line) := by
  refine ⟨[trimCr (lossy line)], .cons (trimCr_message line) .nil, ?_⟩
  unfold emitLine
  by_cases h : trimCr (lossy line) = "" <;> simp [h]

theorem Shows.append {a b : List Bytes} {x y : List String} (ha : Shows lossy a x) (hb : Shows lossy b y) :
    Shows lossy (a ++ b) (x ++ y) := by
  obtain ⟨t, h1, rfl⟩ := ha
  obtain ⟨u, h2, rfl⟩ := hb
  exact ⟨t ++ u, List.rel_append h1 h2, by simp⟩

theorem shows_unique {lines : List Bytes} {x y : List String} (hx : Shows lossy lines x) (hy : Shows lossy lines y) : x = y := by
  obtain ⟨t, h1, rfl⟩ := hx
  obtain ⟨u, h2, rfl⟩ := hy
  have : t = u := by
    clear * - h1 h2
    induction h1 generalizing u with
    | nil => cases h2; rfl
    | cons h _ ih =>
      cases h2 with
      | cons h' h2 => rw [message_unique h h', ih _ h2]
  rw [this]

theorem framed_exists (stream : Bytes) : ∃ lines rest, Framed stream lines rest := by
  induction stream with
  | nil => exact ⟨[], [], rfl, by simp, by simp⟩
  | cons b s ih =>
    obtain ⟨lines, rest, h1, h2, h3⟩ := ih
    by_cases hb : b = 10
    · exact ⟨[] :: lines, rest, by simp [h1, hb], by simpa using h2, h3⟩
    · cases lines with
      | nil => exact ⟨[], b :: rest, by simp [h1], by simp, by simp [h3, Ne.symm hb]⟩
      | cons l ls =>
        refine ⟨(b :: l) :: ls, rest, by simp [h1], ?_, h3⟩
        intro x hx
        rcases List.mem_cons.mp hx with rfl | hx
        · simp [h2 l (by simp), Ne.symm hb]
        · exact h2 x (by simp [hx])

theorem emitLines_exact : ∀ (fuel : Nat) (lines : List Bytes) (rest : Bytes), lines.length ≤ fuel → (∀ l ∈ lines, (10 : UInt8) ∉ l) →
    (10 : UInt8) ∉ rest → Shows lossy lines (emitLines lossy fuel (lines.flatMap (fun l => l ++ [10]) ++ rest)).1 ∧
      (emitLines lossy fuel (lines.flatMap (fun l => l ++ [10]) ++ rest)).2 = rest
  | fuel, [], rest, _, _, hr => by
    have hn : ([] : Bytes).length = 0 := rfl
    cases fuel with
    | zero => exact ⟨⟨[], .nil, rfl⟩, rfl⟩
    | succ fuel =>
      have : rest.idxOf? 10 = none := by rw [List.idxOf?_eq_none_iff]; exact hr
      simp only [List.flatMap_nil, List.nil_append, emitLines, this]
      exact ⟨⟨[], .nil, rfl⟩, trivial⟩
  | 0, _ :: _, _, h, _, _ => by simp at h
  | fuel + 1, l :: ls, rest, hf, hl, hr => by
    have ih := emitLines_exact fuel ls rest (by simpa using hf) (fun x hx => hl x (by simp [hx])) hr
    have hno : (10 : UInt8) ∉ l := hl l (by simp)
    have e : (l :: ls).flatMap (fun l => l ++ [10]) ++ rest = l ++ 10 :: (ls.flatMap (fun l => l ++ [10]) ++ rest) := by simp
    generalize ls.flatMap (fun l => l ++ [10]) ++ rest = tail at ih e
    have hi : (l ++ 10 :: tail).idxOf? 10 = some l.length := by
      rw [List.idxOf?_eq_some_iff]
      refine ⟨by simp, ?_⟩
      constructor
      · simp
      · intro j hj
        rw [List.getElem_append_left hj]
        exact fun h => hno (h ▸ List.getElem_mem hj)
    rw [e]
    simp only [emitLines, hi]
    rw [List.take_left' rfl, show (l ++ 10 :: tail).drop (l.length + 1) = tail by simp]
    exact ⟨(shows_emit l).append ih.1, ih.2⟩

theorem lines_length {lines : List Bytes} {rest : Bytes} :
    lines.length ≤ (lines.flatMap (fun l => l ++ [10]) ++ rest).length := by
  induction lines with
  | nil => simp
  | cons l ls ih => simp only [List.flatMap_cons, List.length_append, List.length_cons] at ih ⊢; omega

/-- The buffer is the unfinished line so far, and joins what comes next. -/
theorem writes_exact (chunks : List Bytes) : ∀ (buffer : Bytes) (lines : List Bytes) (rest : Bytes),
    Framed (buffer ++ chunks.flatten) lines rest → (10 : UInt8) ∉ buffer →
    Shows lossy lines (writes lossy buffer chunks).1 ∧ (writes lossy buffer chunks).2 = rest := by
  induction chunks with
  | nil =>
    intro buffer lines rest h hb
    cases lines with
    | nil =>
      have e : buffer = rest := by simpa using h.1
      exact ⟨⟨[], .nil, rfl⟩, e⟩
    | cons l ls =>
      exfalso
      have := h.1
      rw [List.flatten_nil, List.append_nil] at this
      apply hb
      rw [this]
      simp
  | cons c cs ih =>
    intro buffer lines rest h hb
    obtain ⟨l1, r1, f1⟩ := framed_exists (buffer ++ c)
    have h1 := emitLines_exact (lossy := lossy) (buffer ++ c).length l1 r1 (by rw [f1.1]; exact lines_length) f1.2.1 f1.2.2
    rw [← f1.1] at h1
    obtain ⟨l2, r2, f2⟩ := framed_exists (r1 ++ cs.flatten)
    have h2 := ih r1 l2 r2 f2 f1.2.2
    -- the decomposition is unique
    have uniq : ∀ (a b : List Bytes) (x y : Bytes), a.flatMap (fun l => l ++ [10]) ++ x = b.flatMap (fun l => l ++ [10]) ++ y →
        (∀ l ∈ a, (10 : UInt8) ∉ l) → (∀ l ∈ b, (10 : UInt8) ∉ l) → (10 : UInt8) ∉ x → (10 : UInt8) ∉ y → a = b ∧ x = y := by
      intro a
      induction a with
      | nil =>
        intro b x y h ha hb' hx hy
        cases b with
        | nil => exact ⟨rfl, by simpa using h⟩
        | cons l ls => exfalso; apply hx; have : x = _ := h; rw [this]; simp
      | cons l ls ih =>
        intro b x y h ha hb' hx hy
        cases b with
        | nil => exfalso; apply hy; have : y = _ := h.symm; rw [this]; simp
        | cons l' ls' =>
          simp only [List.flatMap_cons, List.append_assoc, List.singleton_append] at h
          have key : l = l' ∧ ls.flatMap (fun l => l ++ [10]) ++ x = ls'.flatMap (fun l => l ++ [10]) ++ y := by
            have n1 : (10 : UInt8) ∉ l := ha l (by simp)
            have n2 : (10 : UInt8) ∉ l' := hb' l' (by simp)
            rcases List.append_eq_append_iff.mp h with ⟨u, hu, hv⟩ | ⟨u, hu, hv⟩
            · cases u with
              | nil => simp only [List.nil_append, List.cons_append, List.cons.injEq] at hv; exact ⟨by simpa using hu.symm, hv.2⟩
              | cons b u =>
                simp only [List.cons_append, List.cons.injEq] at hv
                exact absurd (by rw [hu, ← hv.1]; simp) n2
            · cases u with
              | nil => simp only [List.nil_append, List.cons_append, List.cons.injEq] at hv; exact ⟨by simpa using hu, hv.2.symm⟩
              | cons b u =>
                simp only [List.cons_append, List.cons.injEq] at hv
                exact absurd (by rw [hu, ← hv.1]; simp) n1
          obtain ⟨rfl, h'⟩ := key
          obtain ⟨rfl, rfl⟩ := ih ls' x y h' (fun z hz => ha z (by simp [hz])) (fun z hz => hb' z (by simp [hz])) hx hy
          exact ⟨rfl, rfl⟩
    have e : lines.flatMap (fun l => l ++ [10]) ++ rest = (l1 ++ l2).flatMap (fun l => l ++ [10]) ++ r2 := by
      rw [← h.1, List.flatten_cons, ← List.append_assoc, f1.1, List.append_assoc, f2.1]
      simp
    obtain ⟨rfl, rfl⟩ := uniq _ _ _ _ e h.2.1 (by
      intro l hl
      rcases List.mem_append.mp hl with hl | hl
      · exact f1.2.1 l hl
      · exact f2.2.1 l hl) h.2.2 f2.2.2
    unfold writes write
    rw [h1.2]
    exact ⟨h1.1.append h2.1, h2.2⟩

/-- C62: however the console's output is cut into chunks, what is logged is exactly the messages of its lines, in order, each
once, without empty ones; an unfinished line is kept until it is finished or the console ends, and then logged as well. -/
theorem console_exact {chunks lines : List Bytes} {rest : Bytes} (h : Framed chunks.flatten lines rest) :
    Shows lossy lines (writes lossy [] chunks).1 ∧ (writes lossy [] chunks).2 = rest ∧
    Shows lossy (lines ++ if rest = [] then [] else [rest]) (readLogs lossy chunks) := by
  obtain ⟨h1, h2⟩ := writes_exact (lossy := lossy) chunks [] lines rest (by simpa using h) (by simp)
  refine ⟨h1, h2, ?_⟩
  unfold readLogs flush
  rw [h2]
  refine h1.append ?_
  by_cases hr : rest = []
  · rw [if_pos hr, if_pos hr]; exact ⟨[], .nil, rfl⟩
  · rw [if_neg hr, if_neg hr]; exact shows_emit rest

/-- C62: every output is of that form, so the log depends on the bytes only, not on the chunks. -/
theorem console_chunks_irrelevant {a b : List Bytes} (h : a.flatten = b.flatten) : readLogs lossy a = readLogs lossy b := by
  obtain ⟨lines, rest, hf⟩ := framed_exists a.flatten
  exact shows_unique (console_exact hf).2.2 (console_exact (h ▸ hf)).2.2

theorem newline_utf8 {t : String} (h : (10 : UInt8) ∈ utf8 t) : '\n' ∈ t.toList := by
  unfold utf8 at h
  obtain ⟨c, hc, hb⟩ := List.mem_flatMap.mp h
  rcases Json.utf8EncodeChar_bytes c _ hb with h | h
  · have : c = '\n' := by
      apply Char.toNat_inj.mp
      exact h.symm
    rwa [← this]
  · exact absurd h (by decide)

/-- C62: lines of text that end with a newline, with carriage returns or without, are logged as they are: nothing is lost,
merged, split or changed, whatever the chunks. -/
theorem console_text {chunks : List Bytes} {texts : List String} (hl : ∀ t, lossy (utf8 t) = t)
    (hc : chunks.flatten = texts.flatMap fun t => utf8 t ++ [10]) (hn : ∀ t ∈ texts, '\n' ∉ t.toList) :
    readLogs lossy chunks = (texts.map trimCr).filter fun t => t ≠ "" := by
  have hf : Framed chunks.flatten (texts.map utf8) [] := by
    refine ⟨by rw [hc]; simp [List.flatMap_map], ?_, by simp⟩
    intro l h
    obtain ⟨t, ht, rfl⟩ := List.mem_map.mp h
    exact fun hx => hn t ht (newline_utf8 hx)
  refine shows_unique (console_exact hf).2.2 ?_
  rw [if_pos rfl, List.append_nil]
  refine ⟨texts.map trimCr, ?_, rfl⟩
  rw [List.forall₂_map_left_iff, List.forall₂_map_right_iff, List.forall₂_same]
  intro t _
  have := trimCr_message (lossy := lossy) (utf8 t)
  rwa [hl] at this

/-! ## Starting -/

theorem var_iff {env : String → Option String} {name default v : String} : var env name default = v ↔ Sets env name default v := by
  unfold var Sets
  cases env name with
  | none => simp [eq_comm]
  | some x => simp

/-- C62: the enclave is started with exactly what the environment variables say, or not at all: the path, CID, memory, number of
CPUs and name given or their defaults, debug mode exactly if `DEBUG` is `true`, and the console exactly if `LOGS` is `true`. -/
theorem run_args_exact (env : String → Option String) (a : RunArgs) : runArgs env = some a ↔ Asked env a := by
  have number {name default : String} {n bound : Nat} :
      parseUnsigned bound (var env name default).toList = some n ↔ SetsNumber env name default n ∧ n < bound := by
    rw [parseUnsigned_iff]
    unfold SetsNumber
    constructor
    · rintro ⟨h1, h2⟩; exact ⟨⟨_, var_iff.mp rfl, h1⟩, h2⟩
    · rintro ⟨⟨v, h1, h3⟩, h2⟩; rw [var_iff.mpr h1]; exact ⟨h3, h2⟩
  have boolean {name default : String} {b : Bool} : parseBool (var env name default) = some b ↔ SetsBool env name default b := by
    rw [parseBool_iff]
    unfold SetsBool
    rw [← var_iff]
    cases b <;> simp
  unfold runArgs
  simp only [Option.bind_eq_some_iff, number, boolean, Option.some.injEq]
  constructor
  · rintro ⟨cid, ⟨h1, b1⟩, mem, ⟨h2, b2⟩, d, h3, l, h4, cpu, ⟨h5, b5⟩, rfl⟩
    exact ⟨var_iff.mp rfl, by rw [UInt32.toNat_ofNat_of_lt' b1]; exact h1, by rw [UInt64.toNat_ofNat_of_lt' b2]; exact h2,
      by rw [UInt32.toNat_ofNat_of_lt' b5]; exact h5, h3, h4, var_iff.mp rfl⟩
  · intro h
    refine ⟨_, ⟨h.cid, a.cid.toNat_lt⟩, _, ⟨h.memory, a.memoryMib.toNat_lt⟩, _, h.debug, _, h.logs, _, ⟨h.cpus, a.cpuCount.toNat_lt⟩, ?_⟩
    rw [var_iff.mpr h.eif, var_iff.mpr h.name]
    simp

/-! ## The whole program -/

/-- The commands to start an enclave. -/
def runs (acts : List Act) : List RunArgs := acts.filterMap fun a => match a with
  | .run a => some a
  | _ => none

/-- `boot` in the cases it has. -/
theorem boot_cases (o : NChooseK.Overflow) (env : String → Option String) (w : Nitro) :
    ∃ dir : List Act, (dir = [] ∨ dir = [.createDir "/run/nitro_enclaves"]) ∧
    ((boot o env w = ([.panics], none) ∧ runArgs env = none) ∨
     (∃ x, (x = Act.panics ∨ x = .exitErrno) ∧ boot o env w = (dir ++ [x], none)) ∨
     ∃ a, runArgs env = some a ∧ ∃ att : List Act,
      (att = [] ∨ (a.attachConsole = true ∧ ∃ p, consolePort o a.cid = some p ∧ att = [.attach p])) ∧
      ((∃ x, (x = Act.panics ∨ x = .exitErrno) ∧ boot o env w = (dir ++ [.run a] ++ att ++ [x], none)) ∨
       ∃ id, w.idByName a.name = some id ∧ (a.attachConsole = true → att ≠ []) ∧
         boot o env w = (dir ++ [.run a] ++ att, some (id, a.attachConsole)))) := by
  refine ⟨if w.dirExists then [] else [.createDir "/run/nitro_enclaves"], by cases w.dirExists <;> simp, ?_⟩
  unfold boot
  cases hr : runArgs env with
  | none => exact .inl ⟨rfl, rfl⟩
  | some a =>
    right
    simp only
    unfold start
    simp only
    split
    · exact .inl ⟨_, .inl rfl, rfl⟩
    · split
      · exact .inl ⟨_, .inr rfl, rfl⟩
      · right
        refine ⟨a, rfl, ?_⟩
        split
        · exact ⟨[], .inl rfl, .inl ⟨_, .inr rfl, by simp⟩⟩
        · unfold attach identify
          cases hc : a.attachConsole with
          | false =>
            refine ⟨[], .inl rfl, ?_⟩
            simp only [Bool.false_eq_true, if_false]
            cases hi : w.idByName a.name with
            | none => exact .inl ⟨_, .inl rfl, by simp⟩
            | some id => exact .inr ⟨id, rfl, by simp, by simp⟩
          | true =>
            simp only [if_true]
            cases hp : consolePort o a.cid with
            | none => exact ⟨[], .inl rfl, .inl ⟨_, .inl rfl, by simp⟩⟩
            | some p =>
              simp only
              by_cases ha : w.attached = true
              · rw [if_pos ha]
                refine ⟨[.attach p], .inr ⟨trivial, p, rfl, rfl⟩, ?_⟩
                cases hi : w.idByName a.name with
                | none => exact .inl ⟨_, .inl rfl, by simp⟩
                | some id => exact .inr ⟨id, rfl, by simp, by simp⟩
              · rw [if_neg ha]
                exact ⟨[], .inl rfl, .inl ⟨_, .inr rfl, by simp⟩⟩

/-- C62: at most one enclave is started, with exactly the arguments the environment asks for. -/
theorem starts_what_was_asked (o : NChooseK.Overflow) (env : String → Option String) (w : Nitro) (signal : Bool) :
    runs (main o env w signal) = [] ∨ ∃ a, Asked env a ∧ runs (main o env w signal) = [a] := by
  unfold main
  obtain ⟨dir, hd, ⟨hb, -⟩ | ⟨x, hx, hb⟩ | ⟨a, ha, att, hatt, ⟨x, hx, hb⟩ | ⟨id, hi, -, hb⟩⟩⟩ := boot_cases o env w
  · left; rw [hb]; rfl
  · left; rw [hb]; rcases hd with rfl | rfl <;> rcases hx with rfl | rfl <;> rfl
  · right
    refine ⟨a, (run_args_exact env a).mp ha, ?_⟩
    rw [hb]
    rcases hd with rfl | rfl <;> rcases hx with rfl | rfl <;> rcases hatt with rfl | ⟨-, p, -, rfl⟩ <;> rfl
  · right
    refine ⟨a, (run_args_exact env a).mp ha, ?_⟩
    rw [hb]
    simp only [threads, shutdown]
    generalize a.attachConsole = con
    generalize w.connects id = cn
    rcases hd with rfl | rfl <;> rcases hatt with rfl | ⟨-, p, -, rfl⟩ <;> cases con <;> cases signal <;> cases cn <;> rfl

/-- C62: an enclave is ended only after a signal, and only the one that was started: the one that goes by the name that was
asked for. -/
theorem ends_only_its_own (o : NChooseK.Overflow) (env : String → Option String) (w : Nitro) (signal : Bool) {id : String}
    (h : Act.terminate id ∈ main o env w signal) :
    signal = true ∧ ∃ a, Asked env a ∧ w.idByName a.name = some id ∧ runs (main o env w signal) = [a] := by
  have hs := starts_what_was_asked o env w signal
  unfold main at h hs ⊢
  obtain ⟨dir, hd, ⟨hb, -⟩ | ⟨x, hx, hb⟩ | ⟨a, ha, att, hatt, ⟨x, hx, hb⟩ | ⟨id', hi, -, hb⟩⟩⟩ := boot_cases o env w
  · rw [hb] at h; simp at h
  · rw [hb] at h
    rcases hd with rfl | rfl <;> rcases hx with rfl | rfl <;> simp at h
  · rw [hb] at h
    rcases hd with rfl | rfl <;> rcases hx with rfl | rfl <;> rcases hatt with rfl | ⟨-, p, -, rfl⟩ <;> simp at h
  · rw [hb] at h hs ⊢
    simp only [threads, shutdown] at h hs ⊢
    have key : signal = true ∧ id = id' := by
      generalize a.attachConsole = con at h
      generalize w.connects id' = cn at h
      rcases hd with rfl | rfl <;> rcases hatt with rfl | ⟨-, p, -, rfl⟩ <;> cases con <;> cases signal <;> cases cn <;>
        simp_all
    obtain ⟨rfl, rfl⟩ := key
    refine ⟨rfl, a, (run_args_exact env a).mp ha, hi, ?_⟩
    generalize a.attachConsole = con at *
    generalize w.connects id = cn at *
    rcases hd with rfl | rfl <;> rcases hatt with rfl | ⟨-, p, -, rfl⟩ <;> cases con <;> cases cn <;> rfl

/-- C62: the console is attached and read only if `LOGS` is `true`, at the port of the enclave's CID. -/
theorem console_only_if_asked (o : NChooseK.Overflow) (env : String → Option String) (w : Nitro) (signal : Bool) :
    (∀ p, Act.attach p ∈ main o env w signal → env "LOGS" = some "true" ∧ ∃ cid, SetsNumber env "ENCLAVE_CID" "16" cid ∧
      p = (cid + 10000) % 2 ^ 32) ∧
    (Act.readConsole ∈ main o env w signal → env "LOGS" = some "true" ∧ ∃ p, Act.attach p ∈ main o env w signal) := by
  have logs {a : RunArgs} (ha : runArgs env = some a) (h : a.attachConsole = true) : env "LOGS" = some "true" := by
    have := ((run_args_exact env a).mp ha).logs
    unfold SetsBool Sets at this
    rw [h] at this
    simpa using this
  have port {a : RunArgs} {p : Nat} (hp : consolePort o a.cid = some p) : p = (a.cid.toNat + 10000) % 2 ^ 32 := by
    have := a.cid.toNat_lt
    unfold consolePort consoleOffset at hp
    split at hp
    · cases hp; omega
    · cases o
      · cases hp
      · simp only [Option.some.injEq] at hp; rw [← hp]; omega
  unfold main
  obtain ⟨dir, hd, ⟨hb, -⟩ | ⟨x, hx, hb⟩ | ⟨a, ha, att, hatt, ⟨x, hx, hb⟩ | ⟨id', hi, hne, hb⟩⟩⟩ := boot_cases o env w
  · rw [hb]; simp
  · rw [hb]
    rcases hd with rfl | rfl <;> rcases hx with rfl | rfl <;> simp
  · rw [hb]
    rcases hatt with rfl | ⟨hc, p, hp, rfl⟩
    · rcases hd with rfl | rfl <;> rcases hx with rfl | rfl <;> simp
    · refine ⟨fun q hq => ?_, fun h => ?_⟩
      · have : q = p := by
          rcases hd with rfl | rfl <;> rcases hx with rfl | rfl <;> simpa using hq
        subst this
        exact ⟨logs ha hc, _, ((run_args_exact env a).mp ha).cid, port hp⟩
      · exfalso
        rcases hd with rfl | rfl <;> rcases hx with rfl | rfl <;> simp at h
  · rw [hb]
    simp only [threads, shutdown]
    rcases hatt with rfl | ⟨hc, p, hp, rfl⟩
    · have hc : a.attachConsole = false := by
        cases h : a.attachConsole with
        | false => rfl
        | true => exact absurd rfl (hne h)
      rw [hc]
      generalize w.connects id' = cn
      rcases hd with rfl | rfl <;> cases signal <;> cases cn <;> simp
    · rw [hc]
      refine ⟨fun q hq => ?_, fun h => ⟨logs ha hc, p, by simp⟩⟩
      have : q = p := by
        generalize w.connects id' = cn at hq
        rcases hd with rfl | rfl <;> cases signal <;> cases cn <;> simpa using hq
      subst this
      exact ⟨logs ha hc, _, ((run_args_exact env a).mp ha).cid, port hp⟩

/-- C62: once the enclave is up, a signal ends it and the program exits with success, whether or not the enclave can be
reached. -/
theorem signal_exits {o : NChooseK.Overflow} {env : String → Option String} {w : Nitro} {acts : List Act} {id : String} {con : Bool}
    (hb : boot o env w = (acts, some (id, con))) : ∃ rest, main o env w true = acts ++ threads con ++ rest ++ [.exitZero] ∧
      (w.connects id = true → rest = [.terminate id]) ∧ (w.connects id = false → rest = []) := by
  unfold main
  rw [hb]
  simp only [shutdown, if_true]
  cases w.connects id
  · exact ⟨[], by simp, by simp, by simp⟩
  · exact ⟨[.terminate id], by simp, by simp, by simp⟩

/-- C62: with variables that make sense and a working `nitro_cli`, the enclave is started and the health service runs. -/
theorem starts {o : NChooseK.Overflow} {env : String → Option String} {w : Nitro} {a : RunArgs} (ha : Asked env a) {id : String}
    (hd : w.dirExists = true ∨ w.dirCreated = true)
    (h1 : w.logger = true) (h2 : w.loggerId = true) (h3 : w.spawned = true) (h4 : w.runSent = true) (h5 : w.replied = true)
    (h6 : a.attachConsole = true → w.attached = true ∧ a.cid.toNat + 10000 < 2 ^ 32) (h7 : w.idByName a.name = some id) :
    ∃ acts, boot o env w = (acts, some (id, a.attachConsole)) ∧ runs acts = [a] ∧ Act.serveHealth ∈ main o env w false := by
  have hr := (run_args_exact env a).mpr ha
  have key : ∃ acts, boot o env w = (acts, some (id, a.attachConsole)) ∧ runs acts = [a] := by
    unfold boot
    rw [hr]
    simp only
    unfold start
    simp only
    rw [if_neg (by rcases hd with h | h <;> simp [h]), if_neg (by simp [h1, h2, h3, h4]), if_neg (by simp [h5])]
    unfold attach identify
    cases hc : a.attachConsole with
    | false =>
      simp only [Bool.false_eq_true, if_false, h7]
      refine ⟨_, rfl, ?_⟩
      cases w.dirExists <;> rfl
    | true =>
      obtain ⟨h8, h9⟩ := h6 hc
      have hp : consolePort o a.cid = some (a.cid.toNat + 10000) := by
        unfold consolePort consoleOffset; rw [if_pos h9]
      simp only [if_true, hp, h8, h7]
      refine ⟨_, rfl, ?_⟩
      cases w.dirExists <;> rfl
  obtain ⟨acts, h, h'⟩ := key
  refine ⟨acts, h, h', ?_⟩
  unfold main
  rw [h]
  simp [threads]

/-! ## Health -/

/-- C62: the health service answers with success exactly if the first enclave described is running. -/
theorem health_exact (described : Option (List String)) :
    (healthAnswer described = utf8 "HTTP/1.1 200 OK\r\n\r\n" ∨ healthAnswer described = utf8 "HTTP/1.1 503 Service Unavailable\r\n\r\n") ∧
    (healthAnswer described = utf8 "HTTP/1.1 200 OK\r\n\r\n" ↔ ∃ more, described = some ("RUNNING" :: more)) := by
  have ne : utf8 "HTTP/1.1 503 Service Unavailable\r\n\r\n" ≠ utf8 "HTTP/1.1 200 OK\r\n\r\n" := by decide +kernel
  unfold healthAnswer
  by_cases h : healthy described = true
  · rw [if_pos h]
    refine ⟨.inl rfl, iff_of_true rfl ?_⟩
    match described, h with
    | some (s :: more), h => exact ⟨more, by rw [show s = "RUNNING" by simpa [healthy] using h]⟩
  · rw [if_neg h]
    refine ⟨.inr rfl, iff_of_false ne ?_⟩
    rintro ⟨more, rfl⟩
    exact h rfl

/-! ## Concrete cases -/

/-- ASCII bytes as characters. -/
def bytesLossy (b : Bytes) : String := String.ofList (b.map fun x => Char.ofNat x.toNat)

/-- The environment of the example, and a `nitro_cli` that works. -/
def sampleEnv (n : String) : Option String :=
  if n = "ENCLAVE_CID" then some "20" else if n = "LOGS" then some "true" else if n = "DEBUG" then some "true" else none

def sampleNitro : Nitro := ⟨false, true, true, true, true, true, true, true, fun n => some ("i-" ++ n), fun _ => true⟩

example : main .panics sampleEnv sampleNitro true =
    [.createDir "/run/nitro_enclaves", .run ⟨"/aws-x86_64.eif", 20, 1024, 2, true, true, "nitro"⟩, .attach 10020, .serveHealth,
     .readConsole, .terminate "i-nitro", .exitZero] := by decide +kernel

/-- A variable that makes no sense: nothing is started. -/
example : main .panics (fun n => if n = "DEBUG" then some "1" else none) sampleNitro true = [.panics] := by decide +kernel

/-- A CID near the end of its range with the console: a panic after the enclave is started, or a port that wrapped around. -/
example : main .panics (fun n => if n = "ENCLAVE_CID" then some "4294967295" else if n = "LOGS" then some "true" else none)
      sampleNitro false =
    [.createDir "/run/nitro_enclaves", .run ⟨"/aws-x86_64.eif", 4294967295, 1024, 2, false, true, "nitro"⟩, .panics] := by
  decide +kernel

/-- The console of the project's own test, in two of the ways to cut it; `console_exact` applies to it. -/
example : Framed (utf8 "first\nsecond\r\n\nthird") [utf8 "first", utf8 "second\r", []] (utf8 "third") ∧
    readLogs bytesLossy [utf8 "fir", utf8 "st\nsecond\r", utf8 "\n\nthird"] = ["first", "second", "third"] ∧
    readLogs bytesLossy [utf8 "first\nsecond\r\n\nthird"] = ["first", "second", "third"] := by
  unfold Framed
  decide +kernel

end Qos.Launcher
