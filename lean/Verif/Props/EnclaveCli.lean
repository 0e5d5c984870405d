import Verif.Lemmas.EnclaveCli
import Verif.Props.HostCli
import Verif.Props.ParserEnclave
import Verif.Spec.Client
/-!
# C72: the enclave program does what its command line and its seed file say
-/
namespace Qos.EnclaveCli
open Parser
open HostCli (Says Silent SaysOr SaysUnix Number Reads)
open Pool (Address)
open Client (Disk ReleasePcrs NitroIn TwoWords Measured LinesOf)

variable {prog : String} {args : List String} {mockFeature : Bool} {file : String → Option Bytes}

/-- C72: a seed file is accepted exactly if every line that is not white space is `<hex> PCR<number>` with a register below 32 and
a value of a hash's length; the device then has, for each register, the value of the last line for it. -/
theorem seed_exact (path : String) (d : MockNsm.State) : seedMockPcrs file MockNsm.initial path = some d ↔
    ∃ contents lines es, file path = some contents ∧ TextFile contents lines ∧ SeedLines lines es ∧ SeededDevice es d := by
  unfold seedMockPcrs
  simp only [Option.bind_eq_some_iff]
  constructor
  · rintro ⟨c, h1, t, h2, h3⟩
    have hl : strLines t.toList = ((strLines t.toList).map String.ofList).map String.toList := by simp [Function.comp_def]
    rw [hl] at h3
    obtain ⟨es, h4, h5⟩ := seedLines_iff.mp h3
    exact ⟨c, _, es, h1, text_file.mpr ⟨t, h2, hl⟩, h4, seeded_iff.mpr h5⟩
  · rintro ⟨c, ls, es, h1, h2, h3, h4⟩
    obtain ⟨t, h5, h6⟩ := text_file.mp h2
    refine ⟨c, h1, t, h5, ?_⟩
    rw [h6]
    exact seedLines_iff.mpr ⟨es, h3, seeded_iff.mp h4⟩

theorem started_eq (tokens : List Token) (config : TokenMap → Option Config)
    (h : ∀ m, EnclaveCli.config mockFeature file m = config m) (ht : tokens = enclaveTokens mockFeature) (c : Config) :
    execute mockFeature file args = .reaper c ↔ HostCli.start tokens config args = .runs c := by
  subst ht
  unfold execute HostCli.start
  cases parseOptions (enclaveTokens mockFeature) args with
  | error e => simp
  | ok m =>
    simp only [h]
    by_cases h1 : version m = true
    · rw [if_pos h1, if_pos h1]; simp
    rw [if_neg h1, if_neg h1]
    by_cases h2 : help m = true
    · rw [if_pos h2, if_pos h2]; simp
    rw [if_neg h2, if_neg h2]
    cases config m with
    | none => simp
    | some c' => simp

theorem declared_pcrs : declared (enclaveTokens true) "mock-pcrs" = some { name := "mock-pcrs", takesValue := true, requires := some "mock" } := by
  decide +kernel

theorem device_iff {items : List Item} {m : TokenMap} (hr : Reads (enclaveTokens mockFeature) items m) (dev : Device) :
    nsm mockFeature file m = some dev ↔ SaysDevice mockFeature file items dev := by
  obtain ⟨_, _, _, dm, _⟩ := declared_enclave mockFeature
  have hf := HostCli.flag_getD (hr.2 "mock" _ dm rfl)
  unfold nsm
  by_cases hm : (.flag "mock" ∈ items)
  · rw [if_pos (hf.mpr hm)]
    cases mockFeature with
    | false => cases dev <;> simp [SaysDevice, hm]
    | true =>
      rw [if_pos rfl]
      have hs := hr.some_iff declared_pcrs rfl rfl rfl
      have hn := hr.none_iff declared_pcrs rfl rfl rfl
      cases hx : single m "mock-pcrs" with
      | none =>
        have hn' := hn.mp hx
        cases dev with
        | hardware => simp [SaysDevice, hm]
        | mock d =>
          simp only [SaysDevice, hm, true_and, Option.some.injEq, Device.mock.injEq]
          constructor
          · rintro rfl
            exact .inl ⟨hn', seeded_iff.mpr rfl⟩
          · rintro (⟨-, h⟩ | ⟨p, _, _, _, h, -⟩)
            · exact (seeded_iff.mp h).symm
            · exact absurd h (hn' p)
      | some path =>
        have hp := (hs path).mp hx
        cases dev with
        | hardware => simp [SaysDevice, hm]
        | mock d =>
          simp only [SaysDevice, hm, true_and, Option.map_eq_some_iff, Device.mock.injEq, exists_eq_right]
          rw [seed_exact]
          constructor
          · rintro ⟨c, ls, es, h⟩
            exact .inr ⟨path, c, ls, es, hp, h⟩
          · rintro (⟨h, -⟩ | ⟨p, c, ls, es, h, h'⟩)
            · exact absurd hp (h path)
            · rw [(hs p).mpr h] at hx
              cases hx
              exact ⟨c, ls, es, h'⟩
  · rw [if_neg (fun h => hm (hf.mp h))]
    cases dev with
    | hardware => simp [SaysDevice, hm]
    | mock d => simp [SaysDevice, hm]

theorem config_iff {items : List Item} {m : TokenMap} (ha : Acceptable (enclaveTokens mockFeature) items)
    (hr : Reads (enclaveTokens mockFeature) items m) (c : Config) :
    config mockFeature file m = some c ↔ EnclaveAsks mockFeature file items c := by
  obtain ⟨dc, dp, du, _, dq, dpv, de, dm⟩ := declared_enclave mockFeature
  have hsock : ∀ a, socket m = some a ↔ SaysUnix items a ∨ ∃ cid port cs ps, a = .vsock cid port 0 ∧
      Says items "cid" cs ∧ Number cs cid.toNat ∧ Says items "port" ps ∧ Number ps port.toNat := by
    intro a
    have := HostCli.socket_iff (a := a) (flags := some 0) (hr.some_iff dc rfl rfl rfl) (hr.some_iff dp rfl rfl rfl)
      (hr.some_iff du rfl rfl rfl)
      (fun v hv => HostCli.given_says ha dp rfl rfl (ha.requires _ _ "port" dc (HostCli.says_given hv) rfl))
      (fun v hv => HostCli.given_says ha dc rfl rfl (ha.requires _ _ "cid" dp (HostCli.says_given hv) rfl))
      (fun v w hv hw => ha.forbids _ _ "cid" du (HostCli.says_given hv) (by simp) (HostCli.says_given hw))
    refine Iff.trans this ?_
    refine or_congr Iff.rfl ⟨?_, ?_⟩
    · rintro ⟨cid, port, f, cs, ps, h1, h2, h3, h4, h5, h6⟩
      cases h6
      exact ⟨cid, port, cs, ps, h1, h2, h3, h4, h5⟩
    · rintro ⟨cid, port, cs, ps, h1, h2, h3, h4, h5⟩
      exact ⟨cid, port, 0, cs, ps, h1, h2, h3, h4, h5, rfl⟩
  unfold config
  simp only [Option.bind_eq_some_iff, hr.or_iff de rfl rfl rfl, hr.or_iff dq rfl rfl rfl, hr.or_iff dm rfl rfl rfl,
    hr.or_iff dpv rfl rfl rfl, device_iff hr, hsock]
  constructor
  · rintro ⟨e, h1, q, h2, mf, h3, p, h4, d, h5, s, h6, h7⟩
    cases h7
    exact ⟨h1, h2, h3, h4, h5, h6⟩
  · rintro ⟨h1, h2, h3, h4, h5, h6⟩
    exact ⟨_, h1, _, h2, _, h3, _, h4, _, h5, _, h6, rfl⟩

/-- C72: the enclave runs with some files, device and address exactly if its arguments are an acceptable command line that asks
for them. -/
theorem enclave_exact (hp : ¬ ['-', '-'] <+: prog.toList) (c : Config) : execute mockFeature file (prog :: args) = .reaper c ↔
    "--help" ∉ args ∧ "--version" ∉ args ∧
    ∃ items, args = words items ∧ Acceptable (enclaveTokens mockFeature) items ∧ EnclaveAsks mockFeature file items c := by
  rw [started_eq (enclaveTokens mockFeature) (config mockFeature file) (fun _ => rfl) rfl c]
  exact HostCli.runs_iff hp fun items m ha hr => config_iff ha hr c

/-- C72: otherwise nothing is served. It prints its help or its version when asked; it ends at once on a command line that is not
acceptable; and on an acceptable one that asks for no configuration it stays alive without ever listening. -/
theorem enclave_otherwise (hp : ¬ ['-', '-'] <+: prog.toList) :
    (execute mockFeature file (prog :: args) = .help ↔ "--help" ∈ args) ∧
    (execute mockFeature file (prog :: args) = .version ↔ "--help" ∉ args ∧ "--version" ∈ args) ∧
    (execute mockFeature file (prog :: args) = .panics ↔ "--help" ∉ args ∧ "--version" ∉ args ∧
      ¬ ∃ items, args = words items ∧ Acceptable (enclaveTokens mockFeature) items) ∧
    (execute mockFeature file (prog :: args) = .idle ↔ "--help" ∉ args ∧ "--version" ∉ args ∧
      ∃ items, args = words items ∧ Acceptable (enclaveTokens mockFeature) items ∧ ∀ c, ¬ EnclaveAsks mockFeature file items c) := by
  obtain ⟨hv1, hv2, hv3⟩ := help_version (enclaveTokens mockFeature) args
  unfold execute
  rw [options_program _ prog hp]
  by_cases hh : "--help" ∈ args
  · obtain ⟨m, h1, h2, h3⟩ := hv1 hh
    rw [h1]
    simp [h2, h3, hh]
  by_cases hv : "--version" ∈ args
  · obtain ⟨m, h1, h2, h3⟩ := hv2 hh hv
    rw [h1]
    simp [h3, hh, hv]
  have acc : (∃ m, parse (register (enclaveTokens mockFeature)) args = .ok m) ↔
      ∃ items, args = words items ∧ Acceptable (enclaveTokens mockFeature) items := accepts_iff hh hv
  cases hm : parse (register (enclaveTokens mockFeature)) args with
  | error e =>
    have hno : ¬ ∃ items, args = words items ∧ Acceptable (enclaveTokens mockFeature) items := by
      rw [← acc, hm]
      rintro ⟨m, h⟩
      cases h
    have hno' : ¬ ∃ items, args = words items ∧ Acceptable (enclaveTokens mockFeature) items ∧
        ∀ c, ¬ EnclaveAsks mockFeature file items c := fun ⟨i, h1, h2, _⟩ => hno ⟨i, h1, h2⟩
    simp only [hh, hv, not_false_eq_true, true_and, hno, hno', reduceCtorEq, and_false]
  | ok m =>
    obtain ⟨h1, h2⟩ := hv3 hh hv m hm
    obtain ⟨items, e, ha, hr⟩ := HostCli.reads_parse hh hv hm
    have hyes : ∃ items, args = words items ∧ Acceptable (enclaveTokens mockFeature) items := ⟨items, e, ha⟩
    simp only [h1, h2, Bool.false_eq_true, if_false, hh, hv, not_false_eq_true, true_and, hyes, not_true_eq_false, and_false]
    have hcfg := config_iff (file := file) ha hr
    cases hc : config mockFeature file m with
    | some c =>
      refine ⟨by simp, by simp, by simp, ?_⟩
      simp only [reduceCtorEq, false_iff]
      rintro ⟨items', e', ha', h⟩
      have : items' = items := reading_unique ha'.fits ha.fits (e'.symm.trans e)
      subst this
      exact h c ((hcfg c).mp hc)
    | none =>
      refine ⟨by simp, by simp, by simp, ?_⟩
      simp only [true_iff]
      refine ⟨items, e, ha, fun c h => ?_⟩
      rw [(hcfg c).mpr h] at hc
      cases hc

/-! ## The seeded device -/

theorem seeded_mem {es : List (UInt16 × Bytes)} {i : UInt16} {v : Bytes} (hn : (es.map (·.1)).Nodup) (h : (i, v) ∈ es) :
    seeded es i = some v := by
  have key : es.filter (fun e => e.1 = i) = [(i, v)] := by
    induction es with
    | nil => cases h
    | cons e es ih =>
      rw [List.map_cons, List.nodup_cons] at hn
      rcases List.mem_cons.mp h with rfl | h'
      · rw [List.filter_cons_of_pos (by simp)]
        congr 1
        rw [List.filter_eq_nil_iff]
        intro x hx hxi
        exact hn.1 (List.mem_map.mpr ⟨x, hx, by simpa using hxi⟩)
      · rw [List.filter_cons_of_neg ?_]
        · exact ih hn.2 h'
        · intro he
          exact hn.1 (List.mem_map.mpr ⟨(i, v), h', by simpa using (of_decide_eq_true he).symm⟩)
  unfold seeded
  rw [key]
  rfl

/-- C72: a mock device seeded with 48-byte values that leave the commitment registers zero is a device as the other theorems
assume it at the start of an enclave. -/
theorem seeded_started {es : List (UInt16 × Bytes)} {d : MockNsm.State} (h : SeededDevice es d)
    (hl : ∀ e ∈ es, e.2.length = 48) (hz : ∀ e ∈ es, e.1 = 16 ∨ e.1 = 17 → e.2 = List.replicate 48 0) : d.Started := by
  have key : ∀ i, (seeded es i).getD zeroPcr = zeroPcr ∨ ∃ e ∈ es, e.1 = i ∧ (seeded es i).getD zeroPcr = e.2 := by
    intro i
    unfold seeded
    cases hg : (es.filter fun e => e.1 = i).getLast? with
    | none => by_cases hi : i = 16 ∨ i = 17 <;> simp [hi, zeroPcr]
    | some e =>
      have hm := List.mem_filter.mp (List.mem_of_getLast? hg)
      exact .inr ⟨e, hm.1, by simpa using hm.2, rfl⟩
  have zero : ∀ i, i = 16 ∨ i = 17 → d.value i = zeroPcr := by
    intro i hi
    unfold MockNsm.State.value
    rw [h.pcrs]
    rcases key i with hk | ⟨e, he, h1, h2⟩
    · exact hk
    · rw [h2]
      exact hz e he (h1 ▸ hi)
  refine ⟨h.max, h.unlocked, zero 16 (.inl rfl), zero 17 (.inr rfl), fun i => ?_⟩
  unfold MockNsm.State.value
  rw [h.pcrs]
  rcases key i with hk | ⟨e, he, _, h2⟩
  · rw [hk]; exact List.length_replicate
  · rw [h2]; exact hl e he

theorem two_word_unique {line a b a' b' : String} (h : TwoWordLine line a b) (h' : TwoWordLine line a' b') : a = a' ∧ b = b' := by
  have key : ∀ {a b : String}, TwoWordLine line a b → splitWhitespace line.toList = [a.toList, b.toList] := by
    intro a b h
    rw [split_two, String.ofList_toList, String.ofList_toList, String.ofList_toList]
    exact h
  have := (key h).symm.trans (key h')
  simp only [List.cons.injEq, and_true] at this
  exact ⟨String.toList_inj.mp this.1, String.toList_inj.mp this.2⟩

theorem hex_bytes {raw r : Bytes} (h : Hex.decode raw = .ok r) : ∀ b ∈ raw, 43 ≤ b.toNat ∧ b.toNat < 128 := by
  have digit : ∀ {c : UInt8} {d : Nat}, Hex.Digit c d → 43 ≤ c.toNat ∧ c.toNat < 128 := by
    intro c d hd
    have l1 : ∀ b ∈ ascii "0123456789abcdef", 43 ≤ b.toNat ∧ b.toNat < 128 := by decide +kernel
    have l2 : ∀ b ∈ ascii "0123456789ABCDEF", 43 ≤ b.toNat ∧ b.toNat < 128 := by decide +kernel
    rcases hd with hd | hd
    · exact l1 c (List.mem_of_getElem? hd)
    · exact l2 c (List.mem_of_getElem? hd)
  have text : ∀ {s r : Bytes}, Hex.Text s r → ∀ b ∈ s, 43 ≤ b.toNat ∧ b.toNat < 128 := by
    intro s r ht
    induction ht with
    | nil => intro b hb; cases hb
    | cons hp _ ih =>
      intro x hx
      rcases List.mem_cons.mp hx with rfl | hx
      · cases hp with
        | digits h1 _ => exact digit h1
        | plus => decide
      · rcases List.mem_cons.mp hx with rfl | hx
        · cases hp with
          | digits _ h2 => exact digit h2
          | plus h2 => exact digit h2
        · exact ih x hx
  rcases (Hex.hex_decode_accepts_iff raw r).mp h with ⟨rfl, _⟩ | ⟨_, body, _, ht, rfl | ⟨rfl, _⟩⟩
  · intro b hb; cases hb
  · intro b hb
    rcases List.mem_append.mp hb with hb | hb
    · have l : ∀ b ∈ ascii "0x", 43 ≤ b.toNat ∧ b.toNat < 128 := by decide +kernel
      exact l b hb
    · exact text ht b hb
  · exact text ht

/-- Hex has no white space in it. -/
theorem hex_no_blank {v : String} {b : Bytes} (h : Hex.decode (utf8 v) = .ok b) : ∀ c ∈ v.toList, P256.isWhitespace c = false := by
  intro c hc
  cases he : String.utf8EncodeChar c with
  | nil => exact absurd he (encode_ne c)
  | cons x xs =>
    have hm : x ∈ String.utf8EncodeChar c := by rw [he]; simp
    have hx := hex_bytes h x (List.mem_flatMap.mpr ⟨c, hc, hm⟩)
    rcases Json.utf8EncodeChar_bytes c x hm with e | e
    · unfold P256.isWhitespace
      rw [← e]
      generalize x.toNat = n at hx
      simp only [Bool.or_eq_false_iff, Bool.and_eq_false_iff, decide_eq_false_iff_not, beq_eq_false_iff_ne]
      omega
    · omega

/-- A line the client reads and a line the enclave reads are the same two words. -/
theorem same_words {line v w a b : String} {x : Bytes} (h : TwoWords line v w) (hv : Hex.decode (utf8 v) = .ok x) (hw : Word w)
    (h' : TwoWordLine line a b) : a = v ∧ b = w := by
  have hs : splitWhitespace line.toList = [a.toList, b.toList] := by
    rw [split_two, String.ofList_toList, String.ofList_toList, String.ofList_toList]
    exact h'
  have hl : line.toList = v.toList ++ (' ' :: w.toList) := by rw [h.1]; simp
  have hw' : w.toList ≠ [] := fun e => hw.1 (String.toList_inj.mp e)
  have hsp : splitWhitespace (' ' :: w.toList) = [w.toList] := by
    rw [show ' ' :: w.toList = [' '] ++ (w.toList ++ []) by simp,
      split_blank _ _ (by intro c hc; rw [List.mem_singleton.mp hc]; decide),
      split_word _ _ hw' hw.2 (by intro c hc; cases hc)]
    rfl
  by_cases hv0 : v.toList = []
  · rw [hl, hv0, List.nil_append, hsp] at hs
    exact absurd (congrArg List.length hs) (by simp)
  · rw [hl, split_word _ _ hv0 (hex_no_blank hv) (by intro c hc; cases hc; decide), hsp] at hs
    simp only [List.cons.injEq, and_true] at hs
    exact ⟨(String.toList_inj.mp hs.1).symm, (String.toList_inj.mp hs.2).symm⟩

theorem number_unique {s : String} {i j : UInt16} (h : Number s i.toNat) (h' : Number s j.toNat) : i = j := by
  have := (HostCli.parsePort_iff.mpr h).symm.trans (HostCli.parsePort_iff.mpr h')
  cases this
  rfl

theorem line_entry {line v w number : String} {x : Bytes} {rest : List String} {es : List (UInt16 × Bytes)} {i : UInt16}
    (h : TwoWords line v w) (hv : Hex.decode (utf8 v) = .ok x) (hw : w = "PCR" ++ number) (hww : Word w)
    (hn : Number number i.toNat) (hs : SeedLines (line :: rest) es) : ∃ es', es = (i, x) :: es' ∧ SeedLines rest es' := by
  cases hs with
  | blank hb _ =>
    exfalso
    have hmem : ∃ c ∈ line.toList, P256.isWhitespace c = false := by
      cases hc : w.toList with
      | nil => exact absurd (String.toList_inj.mp hc) hww.1
      | cons c cs => exact ⟨c, by rw [h.1]; simp [hc], hww.2 c (by rw [hc]; simp)⟩
    obtain ⟨c, hc, hf⟩ := hmem
    rw [hb c hc] at hf
    cases hf
  | @entry _ _ es' j y he hr =>
    obtain ⟨hex, n, h1, h2, h3, h4, h5⟩ := he
    obtain ⟨rfl, e⟩ := same_words h hv hww h1
    have e' : n = number := by
      have := congrArg String.toList (e.trans hw)
      rw [String.toList_append, String.toList_append, List.append_cancel_left_eq] at this
      exact String.toList_inj.mp this
    subst e'
    rw [h4] at hv
    cases hv
    rw [number_unique h2 hn]
    exact ⟨es', rfl, hr⟩

theorem digit_number (d : Nat) (hd : d < 10) : Number (String.ofList [Char.ofNat (48 + d)]) d := by
  left
  rw [String.toList_ofList]
  exact .one d hd

/-- C72: a release file seeds the mock device with the values that the client puts into manifests: if the enclave accepts the
file, which gives no register twice, its first registers are the ones the client reads. -/
theorem release_seeds {disk : Disk} {dir path : String} {p0 p1 p2 : Bytes} {contents : Bytes} {lines : List String}
    {es : List (UInt16 × Bytes)} {d : MockNsm.State} (hr : ReleasePcrs disk dir p0 p1 p2)
    (hf : disk.file (Client.pathJoin dir "aws-x86_64.pcrs") = some contents) (hfile : file path = some contents)
    (ht : TextFile contents lines) (hs : SeedLines lines es) (hn : (es.map (·.1)).Nodup) (hd : SeededDevice es d) :
    seedMockPcrs file MockNsm.initial path = some d ∧ d.value 0 = p0 ∧ d.value 1 = p1 ∧ d.value 2 = p2 := by
  refine ⟨(seed_exact path d).mpr ⟨contents, lines, es, hfile, ht, hs, hd⟩, ?_⟩
  obtain ⟨c, v0, v1, v2, l0, l1, l2, rest, h1, h2, t0, t1, t2, _, x0, x1, x2⟩ := hr
  rw [hf] at h1
  cases h1
  have hl : lines = l0 :: l1 :: l2 :: rest := by
    have h3 : Client.textLines contents = some lines := by
      unfold Client.textLines
      rw [(Client.lines_exact _ _).mp ht]
      clear ht hs h2 hd
      induction lines with
      | nil => rfl
      | cons l ls ih => rw [List.map_cons, List.mapM_cons, utf8Decode_utf8, ih]; rfl
    rw [h2] at h3
    cases h3
    rfl
  subst hl
  have w0 : Word "PCR0" := ⟨by decide, by decide +kernel⟩
  have w1 : Word "PCR1" := ⟨by decide, by decide +kernel⟩
  have w2 : Word "PCR2" := ⟨by decide, by decide +kernel⟩
  obtain ⟨es0, rfl, hs0⟩ := line_entry (i := 0) t0 x0 (number := "0") (by decide) w0 (digit_number 0 (by decide)) hs
  obtain ⟨es1, rfl, hs1⟩ := line_entry (i := 1) t1 x1 (number := "1") (by decide) w1 (digit_number 1 (by decide)) hs0
  obtain ⟨es2, rfl, hs2⟩ := line_entry (i := 2) t2 x2 (number := "2") (by decide) w2 (digit_number 2 (by decide)) hs1
  have val : ∀ i v, (i, v) ∈ (0, p0) :: (1, p1) :: (2, p2) :: es2 → d.value i = v := by
    intro i v h
    unfold MockNsm.State.value
    rw [hd.pcrs, seeded_mem hn h]
    rfl
  exact ⟨val 0 p0 (by simp), val 1 p1 (by simp), val 2 p2 (by simp)⟩

/-- C72: with the role's value for register 3 in the file too, the device is measured as a manifest for that release and role
demands. -/
theorem release_measured {p : Prims} {root : Bytes} {disk : Disk} {dir rolePath path role : String} {m : VersionedManifest}
    {contents : Bytes} {lines : List String} {es : List (UInt16 × Bytes)} {d : MockNsm.State}
    (hm : NitroIn p root disk dir rolePath m.enclave) (hrole : Client.RoleIn disk rolePath role)
    (hf : disk.file (Client.pathJoin dir "aws-x86_64.pcrs") = some contents) (hfile : file path = some contents)
    (ht : TextFile contents lines) (hs : SeedLines lines es) (hn : (es.map (·.1)).Nodup)
    (h3 : (3, Client.rolePcr3 p role) ∈ es) (hd : SeededDevice es d) :
    seedMockPcrs file MockNsm.initial path = some d ∧ Measured d m := by
  obtain ⟨h, e0, e1, e2⟩ := release_seeds hm.pcrs hf hfile ht hs hn hd
  refine ⟨h, e0.symm, e1.symm, e2.symm, ?_⟩
  obtain ⟨r, hr, e3⟩ := hm.role
  obtain ⟨c, rest, k1, k2⟩ := hr
  obtain ⟨c', rest', k3, k4⟩ := hrole
  rw [k1] at k3
  cases k3
  rw [k2] at k4
  cases k4
  rw [e3]
  unfold MockNsm.State.value
  rw [hd.pcrs, seeded_mem hn h3]
  rfl

/-! ## Concrete cases -/

theorem of_some {α : Type} {x : Option α} {p : α → Bool} (h : (x.map p) = some true) : ∃ a, x = some a ∧ p a = true := by
  cases x with
  | none => cases h
  | some a => exact ⟨a, rfl, by simpa using h⟩

/-- A seed file: a release's three values, a line of white space, and a line for register 3 that a later one replaces. -/
def toySeedLines : List String :=
  ["0101010101010101010101010101010101010101010101010101010101010101 PCR0", "  \t",
   "\t0x0202020202020202020202020202020202020202020202020202020202020202  PCR+3 ",
   "0303030303030303030303030303030303030303030303030303030303030303 PCR3"]

/-- The same as a file. -/
def toySeed : List Char := toySeedLines.flatMap fun l => l.toList ++ ['\n']

/-- It is accepted, and the last line for register 3 counts. -/
theorem toy_seeded : ∃ d, seedMockPcrs (fun _ => some (bytesOf toySeed)) MockNsm.initial "seed" = some d ∧
    d.pcrs 0 = some (List.replicate 32 1) ∧ d.pcrs 3 = some (List.replicate 32 3) ∧ d.pcrs 4 = none ∧ d.pcrs 17 = some zeroPcr := by
  have hd : utf8Decode (bytesOf toySeed) = some (String.ofList toySeed) := by
    have := utf8Decode_utf8 (String.ofList toySeed)
    unfold utf8 at this
    rwa [String.toList_ofList] at this
  have hs : ((strLines toySeed).foldlM seedLine MockNsm.initial).map (fun d => decide (d.pcrs 0 = some (List.replicate 32 1) ∧
      d.pcrs 3 = some (List.replicate 32 3) ∧ d.pcrs 4 = none ∧ d.pcrs 17 = some zeroPcr)) = some true := by decide +kernel
  obtain ⟨d, h1, h2⟩ := of_some hs
  refine ⟨d, ?_, of_decide_eq_true h2⟩
  unfold seedMockPcrs
  rw [Option.bind_some, hd, Option.bind_some, String.toList_ofList]
  exact h1

/-- So the lines meet the specification. -/
example : ∃ contents lines es d, TextFile contents lines ∧ SeedLines lines es ∧ SeededDevice es d ∧
    seeded es 3 = some (List.replicate 32 3) := by
  obtain ⟨d, h1, _, h3, _⟩ := toy_seeded
  obtain ⟨c, ls, es, _, k1, k2, k3⟩ := (seed_exact _ _).mp h1
  exact ⟨c, ls, es, d, k1, k2, k3, (k3.pcrs 3).symm.trans h3⟩

/-- Lines that are refused: three words, no label, a register past the last, a value that is no hash, no hex. -/
example : ∀ l ∈ ["00 PCR0 x", "0000000000000000000000000000000000000000000000000000000000000000",
    "0000000000000000000000000000000000000000000000000000000000000000 PCR32",
    "0000000000000000000000000000000000000000000000000000000000000000 pcr1",
    "0000000000000000000000000000000000000000000000000000000000000000 PCR-1", "00 PCR1",
    "zz00000000000000000000000000000000000000000000000000000000000000 PCR1"],
    seedLine MockNsm.initial l.toList = none := by decide +kernel

def isReaper (p : Config → Bool) : Outcome → Bool
  | .reaper c => p c
  | _ => false
def isIdle : Outcome → Bool
  | .idle => true
  | _ => false
def isMock : Device → Bool
  | .mock _ => true
  | .hardware => false

theorem of_reaper {o : Outcome} {p : Config → Bool} (h : isReaper p o = true) : ∃ c, o = .reaper c ∧ p c = true := by
  cases o with
  | reaper c => exact ⟨c, rfl, h⟩
  | panics => cases h
  | version => cases h
  | help => cases h
  | idle => cases h

/-- A command line for the hardware. -/
theorem toy_hardware : ∃ c, execute false (fun _ => none) ["qos", "--cid", "16", "--port", "3", "--pivot-file", "/p"] = .reaper c ∧
    c.socket = .vsock 16 3 0 ∧ c.pivot = "/p" ∧ c.manifest = "/qos.manifest" ∧ isMock c.device = false := by
  obtain ⟨c, h1, h2⟩ := of_reaper (o := execute false (fun _ => none) ["qos", "--cid", "16", "--port", "3", "--pivot-file", "/p"])
    (p := fun c => decide (c.socket = .vsock 16 3 0 ∧ c.pivot = "/p" ∧ c.manifest = "/qos.manifest" ∧ isMock c.device = false))
    (by decide +kernel)
  exact ⟨c, h1, of_decide_eq_true h2⟩

example : ∃ items c, EnclaveAsks false (fun _ => none) items c ∧ c.socket = .vsock 16 3 0 := by
  obtain ⟨c, h, hs, _⟩ := toy_hardware
  obtain ⟨_, _, items, _, _, ha⟩ := (enclave_exact (by decide +kernel) c).mp h
  exact ⟨items, c, ha, hs⟩

/-- Without the `mock` feature, with a seed file that is missing, with no address, or with a port that is no number, the process
stays alive and serves nothing. -/
theorem toy_idle :
    isIdle (execute false (fun _ => none) ["qos", "--usock", "s", "--mock"]) = true ∧
    isIdle (execute true (fun _ => none) ["qos", "--usock", "s", "--mock", "--mock-pcrs", "f"]) = true ∧
    isIdle (execute true (fun _ => none) ["qos"]) = true ∧
    isIdle (execute true (fun _ => none) ["qos", "--cid", "1", "--port", "x"]) = true := by decide +kernel

/-- `--mock-pcrs` is no option of a build without the feature, and needs `--mock`. -/
example : (match execute false (fun _ => none) ["qos", "--usock", "s", "--mock", "--mock-pcrs", "f"] with
      | .panics => true | _ => false) = true ∧
    (match execute true (fun _ => none) ["qos", "--usock", "s", "--mock-pcrs", "f"] with | .panics => true | _ => false) = true := by
  decide +kernel

end Qos.EnclaveCli
