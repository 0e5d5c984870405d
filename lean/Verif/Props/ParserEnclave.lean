import Verif.Props.Parser
/-!
# C40 for the enclave's own options
-/
namespace Qos.Parser

variable {args : List String} {m : TokenMap} {b : Bool}

theorem declared_enclave (b : Bool) :
    declared (enclaveTokens b) "cid" = some { name := "cid", takesValue := true, forbids := ["usock"], requires := some "port" } ∧
    declared (enclaveTokens b) "port" = some { name := "port", takesValue := true, forbids := ["usock"], requires := some "cid" } ∧
    declared (enclaveTokens b) "usock" = some { name := "usock", takesValue := true, forbids := ["port", "cid"] } ∧
    declared (enclaveTokens b) "mock" = some { name := "mock" } ∧
    declared (enclaveTokens b) "quorum-file" = some { name := "quorum-file", takesValue := true, default := some "/qos.quorum.key" } ∧
    declared (enclaveTokens b) "pivot-file" = some { name := "pivot-file", takesValue := true, default := some "/qos.pivot.bin" } ∧
    declared (enclaveTokens b) "ephemeral-file" = some { name := "ephemeral-file", takesValue := true, default := some "/qos.ephemeral.key" } ∧
    declared (enclaveTokens b) "manifest-file" = some { name := "manifest-file", takesValue := true, default := some "/qos.manifest" } := by
  cases b <;> decide +kernel

/-- The value written for a name, if exactly one item gives it. -/
theorem value_item {ts : List Token} {items : List Item} {n : String} {t : Token} {v : String} (hd : declared ts n = some t)
    (h : values t items = [v]) (hdef : t.default = none) : Item.value n v ∈ items := by
  have hm : v ∈ values t items := by rw [h]; simp
  unfold values at hm
  obtain ⟨i, hi, hv⟩ := List.mem_filterMap.1 hm
  simp only [List.mem_filter, decide_eq_true_eq] at hi
  rw [declared_name hd] at hi
  cases i with
  | flag k => cases hv
  | bare k => simp only [Item.value?] at hv; rw [hdef] at hv; cases hv
  | value k w =>
    simp only [Item.value?, Option.some.injEq] at hv
    subst hv
    obtain ⟨h1, rfl⟩ := hi
    exact h1

/-- C40: the enclave listens where its options say: `--cid` with `--port`, or `--usock`, never a mixture; with none of them it
panics. -/
theorem enclave_socket_options (hh : "--help" ∉ args) (hv : "--version" ∉ args)
    (h : parse (register (enclaveTokens b)) args = .ok m) : ∃ items, args = words items ∧
    ((∃ c p, .value "cid" c ∈ items ∧ .value "port" p ∈ items ∧ ¬ Given items "usock" ∧
        enclaveSocket m = match parseUnsigned (2 ^ 32) c.toList, parseUnsigned (2 ^ 32) p.toList with
          | some c, some p => .ok (.vsock c p)
          | _, _ => .invalid) ∨
     (∃ u, .value "usock" u ∈ items ∧ ¬ Given items "cid" ∧ ¬ Given items "port" ∧ enclaveSocket m = .ok (.unix u)) ∨
     (¬ Given items "usock" ∧ ¬ Given items "cid" ∧ ¬ Given items "port" ∧ enclaveSocket m = .panic)) := by
  obtain ⟨items, h1, ha, _, hval⟩ := values_given_or_default hh hv h
  obtain ⟨dc, dp, du, _⟩ := declared_enclave b
  refine ⟨items, h1, ?_⟩
  have readOne : ∀ {n : String} {t : Token}, declared (enclaveTokens b) n = some t → t.takesValue = true → t.allowMultiple = false →
      t.default = none → (Given items n → ∃ v, .value n v ∈ items ∧ single m n = some v) ∧ (¬ Given items n → single m n = none) := by
    intro n t hd h1 h2 h3
    have hs := (hval n t hd).1
    constructor
    · intro hg
      have hlen := given_values ha hd h1
      have hone := ha.once n t hd h2
      rw [← declared_name hd] at hone
      have hpos : 0 < (items.filter fun i => i.name = t.name).length := by
        rw [List.length_pos_iff]
        intro hc
        have := given_valueOf (t := t) (items := items) |>.2 (by rw [declared_name hd]; exact hg)
        exact this (valueOf_none.2 hc)
      obtain ⟨v, hv⟩ : ∃ v, values t items = [v] := List.length_eq_one_iff.1 (by omega)
      exact ⟨v, value_item hd hv h3, (hs v).2 (.inl ⟨hg, h1, h2, hv⟩)⟩
    · intro hg
      cases hx : single m n with
      | none => rfl
      | some v =>
        rcases (hs v).1 hx with ⟨hg', _⟩ | ⟨_, hd'⟩
        · exact absurd hg' hg
        · rw [h3] at hd'; cases hd'
  obtain ⟨c1, c2⟩ := readOne dc rfl rfl rfl
  obtain ⟨p1, p2⟩ := readOne dp rfl rfl rfl
  obtain ⟨u1, u2⟩ := readOne du rfl rfl rfl
  by_cases hu : Given items "usock"
  · have nc : ¬ Given items "cid" := ha.forbids _ _ "cid" du hu (by simp)
    have np : ¬ Given items "port" := ha.forbids _ _ "port" du hu (by simp)
    obtain ⟨u, h2, h3⟩ := u1 hu
    refine .inr (.inl ⟨u, h2, nc, np, ?_⟩)
    unfold enclaveSocket
    rw [c2 nc, p2 np, h3]
  · by_cases hc : Given items "cid"
    · have hp : Given items "port" := ha.requires _ _ "port" dc hc rfl
      obtain ⟨c, h2, h3⟩ := c1 hc
      obtain ⟨p, h4, h5⟩ := p1 hp
      refine .inl ⟨c, p, h2, h4, hu, ?_⟩
      unfold enclaveSocket
      rw [h3, h5, u2 hu]
      rfl
    · have np : ¬ Given items "port" := fun hp => hc (ha.requires _ _ "cid" dp hp rfl)
      refine .inr (.inr ⟨hu, hc, np, ?_⟩)
      unfold enclaveSocket
      rw [c2 hc, p2 np, u2 hu]

/-- C40: the four file paths of the enclave are the ones given, or the fixed defaults. -/
theorem enclave_files (hh : "--help" ∉ args) (hv : "--version" ∉ args)
    (h : parse (register (enclaveTokens b)) args = .ok m) : ∃ items, args = words items ∧ Acceptable (enclaveTokens b) items ∧
    ∀ n d, (n, d) ∈ [("quorum-file", "/qos.quorum.key"), ("pivot-file", "/qos.pivot.bin"),
        ("ephemeral-file", "/qos.ephemeral.key"), ("manifest-file", "/qos.manifest")] →
      ∃ v, single m n = some v ∧ (.value n v ∈ items ∨ (v = d ∧ ∀ w, .value n w ∉ items)) := by
  obtain ⟨items, h1, ha, _, hval⟩ := values_given_or_default hh hv h
  obtain ⟨_, _, _, _, d1, d2, d3, d4⟩ := declared_enclave b
  refine ⟨items, h1, ha, ?_⟩
  have one : ∀ {n d : String}, declared (enclaveTokens b) n = some { name := n, takesValue := true, default := some d } →
      ∃ v, single m n = some v ∧ (.value n v ∈ items ∨ (v = d ∧ ∀ w, .value n w ∉ items)) := by
    intro n d hd
    have hs := (hval n _ hd).1
    by_cases hg : Given items n
    · have hlen := given_values ha hd rfl
      have hone := ha.once n _ hd rfl
      simp only at hlen
      obtain ⟨i, hi, hin⟩ := hg
      have hpos : 0 < (items.filter fun i => i.name = n).length := by
        rw [List.length_pos_iff]
        exact List.ne_nil_of_mem (List.mem_filter.2 ⟨hi, by simpa using hin⟩)
      obtain ⟨j, hj⟩ : ∃ j, items.filter (fun i => i.name = n) = [j] := List.length_eq_one_iff.1 (by omega)
      obtain ⟨v, hv⟩ : ∃ v, values { name := n, takesValue := true, default := some d } items = [v] :=
        List.length_eq_one_iff.1 (by omega)
      have hji : i = j := by
        have : i ∈ items.filter (fun i => i.name = n) := List.mem_filter.2 ⟨hi, by simpa using hin⟩
        rw [hj] at this
        simpa using this
      subst hji
      refine ⟨v, (hs v).2 (.inl ⟨⟨i, hi, hin⟩, rfl, rfl, hv⟩), ?_⟩
      unfold values at hv
      simp only [hj] at hv
      cases i with
      | flag k => cases hv
      | value k w =>
        simp [Item.value?] at hv
        subst hv
        simp only [Item.name] at hin
        subst hin
        exact .inl hi
      | bare k =>
        simp [Item.value?] at hv
        refine .inr ⟨hv.symm, fun w hw => ?_⟩
        have : Item.value n w ∈ items.filter (fun i => i.name = n) := List.mem_filter.2 ⟨hw, by simp [Item.name]⟩
        rw [hj] at this
        simp at this
    · exact ⟨d, (hs d).2 (.inr ⟨hg, rfl⟩), .inr ⟨rfl, fun w hw => hg ⟨_, hw, rfl⟩⟩⟩
  intro n d hm
  simp only [List.mem_cons, Prod.mk.injEq, List.not_mem_nil, or_false] at hm
  rcases hm with ⟨rfl, rfl⟩ | ⟨rfl, rfl⟩ | ⟨rfl, rfl⟩ | ⟨rfl, rfl⟩
  · exact one d1
  · exact one d2
  · exact one d3
  · exact one d4

/-- C40: an options program ignores the program name before the options, and nothing else: a first argument that is no option is
dropped, every other is parsed. -/
theorem options_program (ts : List Token) (prog : String) (hp : ¬ ['-', '-'] <+: prog.toList) (args : List String) :
    parseOptions ts (prog :: args) = parse (register ts) args := by
  have h : isOption prog = false := by
    rw [Bool.eq_false_iff]
    intro hc
    exact hp (List.isPrefixOf_iff_prefix.1 hc)
  simp [parseOptions, h]

/-- C40: a command program takes the argument after the program name as the command, whatever it is, and parses the rest with the
tokens of that command; without one it reports a missing command. -/
theorem command_program {C : Type} (command : String → Option C) (tokens : C → List Token) (prog : String) :
    parseCommand command tokens [prog] = some (.error (.missingInput "No command provided")) ∧
    ∀ name args c, command name = some c →
      ∀ r, parseCommand command tokens (prog :: name :: args) = some r ↔
        (∃ m, parse (register (tokens c)) args = .ok m ∧ r = .ok (c, m)) ∨
        (∃ e, parse (register (tokens c)) args = .error e ∧ r = .error e) := by
  refine ⟨rfl, fun name args c hc r => ?_⟩
  unfold parseCommand
  simp only [hc]
  cases parse (register (tokens c)) args with
  | ok m => simp [eq_comm]
  | error e => simp [eq_comm]

/-! ### Command lines that meet the hypotheses -/

/-- A decidable check of a result and of what it holds. -/
def check {ε α : Type} (p : α → Prop) [DecidablePred p] : Except ε α → Bool
  | .ok m => decide (p m)
  | .error _ => false

theorem of_check {ε α : Type} (p : α → Prop) [DecidablePred p] {r : Except ε α} (h : check p r = true) : ∃ m, r = .ok m ∧ p m := by
  cases r with
  | ok m => exact ⟨m, rfl, by simpa [check] using h⟩
  | error e => simp [check] at h

example : ∃ m, parseOptions (enclaveTokens false) ["qos", "--cid", "6", "--port", "3999", "--mock", "--pivot-file"] = .ok m ∧
    enclaveSocket m = .ok (.vsock 6 3999) ∧ single m "quorum-file" = some "/qos.quorum.key" ∧ flag m "mock" = some true ∧
    single m "pivot-file" = some "/qos.pivot.bin" := of_check (fun m => enclaveSocket m = .ok (.vsock 6 3999) ∧
    single m "quorum-file" = some "/qos.quorum.key" ∧ flag m "mock" = some true ∧ single m "pivot-file" = some "/qos.pivot.bin")
    (by decide +kernel)

example : parseOptions (enclaveTokens false) ["qos", "--cid", "6"] = .error (.missingInput "port") := by decide +kernel
example : parseOptions (enclaveTokens false) ["qos", "--usock", "a", "--port", "1", "--cid", "2"] =
    .error (.mutuallyExclusiveInput "cid" "usock") := by decide +kernel
example : parseOptions (enclaveTokens false) ["qos", "--usock", "a", "--usock", "b"] = .error (.duplicateInput "usock") := by decide +kernel
example : parseOptions (enclaveTokens false) ["qos", "--usock"] = .error (.missingValue "usock") := by decide +kernel
example : parseOptions (enclaveTokens false) ["qos", "--usock", "a", "b"] = .error (.unexpectedInput "b") := by decide +kernel
example : parse (register [{ name := "m", takesValue := true, allowMultiple := true, required := true }])
    ["--m", "1", "--m", "2"] = .ok
      [⟨{ name := "help" }, none⟩, ⟨{ name := "m", takesValue := true, allowMultiple := true, required := true },
        some (.multiple ["1", "2"])⟩, ⟨{ name := "version" }, none⟩] := by decide +kernel

/-- A required token is asked for even if it has a default. -/
theorem default_does_not_satisfy_required :
    parse (register [{ name := "a", takesValue := true, default := some "x", required := true }]) [] =
      .error (.missingInput "a") := by decide +kernel

/-- A declared flag that is not given reads as "not registered" (`None`), not as `Some(false)` as documented. -/
theorem unset_flag_reads_as_unregistered : ∃ m, parse (register [{ name := "a" }]) [] = .ok m ∧ flag m "a" = none ∧
    flag m "b" = none := 
  of_check (fun m => flag m "a" = none ∧ flag m "b" = none) (by decide +kernel)

end Qos.Parser
