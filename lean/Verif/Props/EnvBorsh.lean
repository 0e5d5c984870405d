import Verif.Model.EnvBorsh
import Verif.Spec.EnvBorsh
import Verif.Props.Format
import Verif.Props.FormatBytes
/-!
# C75: the Borsh form of the pivot environment
-/
namespace Qos.Format

open Borsh (tryFromSlice)

theorem valid_name_short {s : String} (h : Env.ValidName s) : (utf8 s).length < 2 ^ 32 := by
  have := h.2; omega

theorem valid_value_short {s : String} (h : Env.ValidValue s) : (utf8 s).length < 2 ^ 32 := by
  have := h.2; omega

theorem lawful_envName : Borsh.Lawful Borsh.envName where
  dec_enc a r h := by
    have hv := ((Env.newName_iff a a).mp h).2
    have := Borsh.lawful_string.dec_enc a r (valid_name_short hv)
    simp only [Borsh.envName, this]
    rw [show Env.newName a = some a from h]; rfl
  enc_dec bs a r h := by
    simp only [Borsh.envName] at h ⊢
    cases hs : Borsh.string.dec bs with
    | none => simp only [hs] at h; cases h
    | some p =>
      obtain ⟨s, r'⟩ := p
      simp only [hs, Option.map_eq_some_iff] at h
      obtain ⟨n, hn, he⟩ := h
      obtain ⟨rfl, _⟩ := (Env.newName_iff s n).mp hn
      cases he
      exact ⟨(Borsh.lawful_string.enc_dec bs _ _ hs).1, hn⟩

theorem lawful_envValue : Borsh.Lawful Borsh.envValue where
  dec_enc a r h := by
    have hv := ((Env.newValue_iff a a).mp h).2
    have := Borsh.lawful_string.dec_enc a r (valid_value_short hv)
    simp only [Borsh.envValue, List.cons_append, Borsh.u8, if_true, this]
    rw [show Env.newValue a = some a from h]; rfl
  enc_dec bs a r h := by
    cases bs with
    | nil => simp only [Borsh.envValue, Borsh.u8] at h; cases h
    | cons b bs =>
      simp only [Borsh.envValue, Borsh.u8] at h ⊢
      by_cases hb : b = 0
      · rw [if_pos hb] at h
        cases hs : Borsh.string.dec bs with
        | none => simp only [hs] at h; cases h
        | some p =>
          obtain ⟨s, r'⟩ := p
          simp only [hs, Option.map_eq_some_iff] at h
          obtain ⟨n, hn, he⟩ := h
          obtain ⟨rfl, _⟩ := (Env.newValue_iff s n).mp hn
          cases he
          have := (Borsh.lawful_string.enc_dec bs _ _ hs).1
          exact ⟨by rw [hb, List.cons_append, ← this], hn⟩
      · rw [if_neg hb] at h; cases h

theorem lawful_envEntries : Borsh.Lawful Borsh.envEntries := Borsh.lawful_vec (Borsh.lawful_pair lawful_envName lawful_envValue)

theorem entries_enc (given : List (String × String)) : Borsh.envEntries.enc given = entriesBytes given := by
  have h : ∀ kv : String × String, (Borsh.pair Borsh.envName Borsh.envValue).enc kv = text kv.1 ++ [0] ++ text kv.2 := by
    intro kv
    simp [Borsh.pair, Borsh.envName, Borsh.envValue, Borsh.string, bytes_enc, text]
  exact vec_enc h given

theorem entries_ok {given : List (String × String)} : Borsh.envEntries.ok given ↔
    given.length < 2 ^ 32 ∧ ∀ g ∈ given, Env.ValidName g.1 ∧ Env.ValidValue g.2 := by
  show (_ ∧ ∀ a ∈ given, (Env.newName a.1 = some a.1 ∧ Env.newValue a.2 = some a.2)) ↔ _
  simp only [Env.newName_iff, Env.newValue_iff, true_and]

theorem means_iff {given : List (String × String)} {m : Env.Map} : Means given m ↔ m = Env.collect given := by
  have hsc : Env.Sorted (Env.collect given) := Env.sorted_collect given
  have hc : ∀ k x, (k, x) ∈ Env.collect given ↔ ∃ before after, given = before ++ (k, x) :: after ∧ ∀ g ∈ after, g.1 ≠ k := by
    intro k x
    rw [← get_mem hsc, Env.env_collect_last, last_given]
  constructor
  · rintro ⟨h3, h4⟩
    exact sorted_ext h3 hsc fun ⟨k, x⟩ => by rw [h4, hc]
  · rintro rfl; exact ⟨hsc, hc⟩

theorem decode_means {given : List (String × String)} {m : Env.Map} : Env.decode given = some m ↔
    (∀ g ∈ given, Env.ValidName g.1 ∧ Env.ValidValue g.2) ∧ Means given m ∧ m.length ≤ 512 := by
  rw [Env.env_decode_iff, means_iff]

theorem lawful_envPlainValue : Borsh.Lawful Borsh.envPlainValue where
  dec_enc a r h := by
    have hv := ((Env.newValue_iff a a).mp h).2
    have := Borsh.lawful_string.dec_enc a r (valid_value_short hv)
    simp only [Borsh.envPlainValue, this]
    rw [show Env.newValue a = some a from h]; rfl
  enc_dec bs a r h := by
    simp only [Borsh.envPlainValue] at h ⊢
    cases hs : Borsh.string.dec bs with
    | none => simp only [hs] at h; cases h
    | some p =>
      obtain ⟨s, r'⟩ := p
      simp only [hs, Option.map_eq_some_iff] at h
      obtain ⟨n, hn, he⟩ := h
      obtain ⟨rfl, _⟩ := (Env.newValue_iff s n).mp hn
      cases he
      exact ⟨(Borsh.lawful_string.enc_dec bs _ _ hs).1, hn⟩

theorem part_iff {c : Borsh.Codec String} (h : Borsh.Lawful c) {f : String → Bytes} {P : String → Prop}
    (he : ∀ s, c.enc s = f s) (ho : ∀ s, c.ok s ↔ P s) (bs : Bytes) (s : String) :
    tryFromSlice c bs = some s ↔ bs = f s ∧ P s := by
  constructor
  · intro hs
    obtain ⟨e, ok⟩ := Borsh.tryFromSlice_some h hs
    exact ⟨by rw [e, he], (ho s).mp ok⟩
  · rintro ⟨rfl, hp⟩
    rw [← he]
    exact Borsh.tryFromSlice_enc h ((ho s).mpr hp)

/-- C75: a name, a plain value and a value on their own: exactly the bytes of a valid one are read. -/
theorem env_parts_read (bs : Bytes) (s : String) :
    (tryFromSlice Borsh.envName bs = some s ↔ bs = text s ∧ Env.ValidName s) ∧
    (tryFromSlice Borsh.envPlainValue bs = some s ↔ bs = text s ∧ Env.ValidValue s) ∧
    (tryFromSlice Borsh.envValue bs = some s ↔ bs = 0 :: text s ∧ Env.ValidValue s) :=
  ⟨part_iff lawful_envName (fun _ => bytes_enc _) (fun s => by
      show Env.newName s = some s ↔ _
      rw [Env.newName_iff]; simp) bs s,
   part_iff lawful_envPlainValue (fun _ => bytes_enc _) (fun s => by
      show Env.newValue s = some s ↔ _
      rw [Env.newValue_iff]; simp) bs s,
   part_iff lawful_envValue (f := fun s => 0 :: text s) (fun s => congrArg (0 :: ·) (bytes_enc (utf8 s))) (fun s => by
      show Env.newValue s = some s ↔ _
      rw [Env.newValue_iff]; simp) bs s⟩

/-- Reading from the front of a stream of bytes: exactly the bytes of a valid environment are consumed. -/
theorem env_stream (bs rest : Bytes) (m : Env.Map) :
    Borsh.pivotEnv.dec bs = some (m, rest) ↔ ∃ front, bs = front ++ rest ∧ EnvBytes front m := by
  constructor
  · intro h
    simp only [Borsh.pivotEnv] at h
    cases hd : Borsh.envEntries.dec bs with
    | none => simp only [hd] at h; cases h
    | some p =>
      obtain ⟨ps, r⟩ := p
      simp only [hd] at h
      by_cases hl : Env.withinLimits (Env.collect ps) = true
      · rw [if_pos hl] at h
        cases h
        obtain ⟨e, ok⟩ := lawful_envEntries.enc_dec bs ps rest hd
        obtain ⟨o1, o2⟩ := entries_ok.mp ok
        exact ⟨entriesBytes ps, by rw [e, entries_enc], ps, rfl, o1, o2, means_iff.mpr rfl, (Env.withinLimits_iff _).mp hl⟩
      · rw [if_neg hl] at h; cases h
  · rintro ⟨_, rfl, ps, rfl, o1, o2, hm, hl⟩
    have := lawful_envEntries.dec_enc ps rest (entries_ok.mpr ⟨o1, o2⟩)
    rw [entries_enc] at this
    have hm := means_iff.mp hm
    subst hm
    simp only [Borsh.pivotEnv, this]
    rw [if_pos ((Env.withinLimits_iff _).mpr hl)]

/-- C75: bytes are read as an environment exactly if they say it. -/
theorem env_borsh_read (bs : Bytes) (m : Env.Map) : tryFromSlice Borsh.pivotEnv bs = some m ↔ EnvBytes bs m := by
  have key := env_stream bs [] m
  simp only [List.append_nil] at key
  constructor
  · intro h
    unfold tryFromSlice at h
    cases hd : Borsh.pivotEnv.dec bs with
    | none => simp only [hd] at h; cases h
    | some p =>
      obtain ⟨m', r⟩ := p
      cases r with
      | nil =>
        simp only [hd, Option.some.injEq] at h
        subst h
        obtain ⟨f, rfl, hf⟩ := key.mp hd
        exact hf
      | cons b r => simp only [hd] at h; cases h
  · intro h
    unfold tryFromSlice
    simp only [key.mpr ⟨bs, rfl, h⟩]

/-- C75: every environment that can be made – by inserting, reading and resetting in any order – is written as the bytes of its
entries in order, and read back. -/
theorem env_borsh_roundtrip (ops : List Env.Op) :
    Borsh.pivotEnv.enc (Env.run ops) = entriesBytes (Env.run ops) ∧
      tryFromSlice Borsh.pivotEnv (Borsh.pivotEnv.enc (Env.run ops)) = some (Env.run ops) := by
  obtain ⟨h1, h2, h3⟩ := Env.inv_run ops
  have he : Borsh.pivotEnv.enc (Env.run ops) = entriesBytes (Env.run ops) := entries_enc _
  refine ⟨he, ?_⟩
  rw [he, env_borsh_read]
  refine ⟨Env.run ops, rfl, by omega, h3, ⟨h2, fun k x => ?_⟩, h1⟩
  constructor
  · intro hm
    obtain ⟨b, a, e⟩ := List.append_of_mem hm
    refine ⟨b, a, e, fun g hg => ?_⟩
    have hp : Env.Sorted (b ++ (k, x) :: a) := e ▸ h2
    have := (List.pairwise_cons.mp (List.pairwise_append.mp hp).2.1).1 g hg
    exact fun hk => absurd (hk ▸ this) (String.lt_irrefl _)
  · rintro ⟨b, a, e, _⟩
    rw [e]; simp

/-- C75: the three ways to obtain an environment – the methods, JSON and Borsh – lead to the same environments: exactly those with
at most 512 variables, distinct names in order, and valid names and values. -/
theorem env_same_values (m : Env.Map) :
    ((∃ bs, tryFromSlice Borsh.pivotEnv bs = some m) ↔ ∃ ops, Env.run ops = m) ∧
    ((∃ v, JCodec.pivotEnv.dec v = some m) ↔ ∃ ops, Env.run ops = m) ∧
    ((∃ ops, Env.run ops = m) ↔ m.length ≤ 512 ∧ m.Pairwise (fun a b => a.1 < b.1) ∧ ∀ kv ∈ m, Env.ValidName kv.1 ∧ Env.ValidValue kv.2) := by
  have hone : ∀ given, Env.decode given = some m → ∃ ops, Env.run ops = m := by
    intro given h
    exact ⟨[.decode given], by simp [Env.run, Env.apply, h]⟩
  have hself : Env.Inv m → Env.decode m = some m := by
    rintro ⟨h1, h2, h3⟩
    refine decode_means.mpr ⟨h3, ⟨h2, fun k x => ?_⟩, h1⟩
    constructor
    · intro hm
      obtain ⟨b, a, e⟩ := List.append_of_mem hm
      refine ⟨b, a, e, fun g hg => ?_⟩
      have hp : Env.Sorted (b ++ (k, x) :: a) := e ▸ h2
      have := (List.pairwise_cons.mp (List.pairwise_append.mp hp).2.1).1 g hg
      exact fun hk => absurd (hk ▸ this) (String.lt_irrefl _)
    · rintro ⟨b, a, e, _⟩
      rw [e]; simp
  refine ⟨⟨?_, ?_⟩, ⟨?_, ?_⟩, ?_, ?_⟩
  · rintro ⟨bs, h⟩
    obtain ⟨given, _, _, hv, hm, hl⟩ := (env_borsh_read bs m).mp h
    exact hone given (decode_means.mpr ⟨hv, hm, hl⟩)
  · rintro ⟨ops, rfl⟩
    exact ⟨_, (env_borsh_roundtrip ops).2⟩
  · rintro ⟨v, h⟩
    cases v with
    | obj kvs =>
      simp only [JCodec.pivotEnv] at h
      cases hp : JCodec.envPairs kvs with
      | none => simp only [hp] at h; cases h
      | some ps => simp only [hp] at h; exact hone ps h
    | _ => cases h
  · rintro ⟨ops, rfl⟩
    exact ⟨_, JCodec.lawful_pivotEnv.dec_enc _ (hself (Env.inv_run ops))⟩
  · rintro ⟨ops, rfl⟩; exact Env.inv_run ops
  · intro h; exact hone m (hself h)

/-- C75: different environments have different bytes, and none is a prefix of another's. -/
theorem env_borsh_prefix_free (ops ops' : List Env.Op) (r s : Bytes)
    (h : Borsh.pivotEnv.enc (Env.run ops) ++ r = Borsh.pivotEnv.enc (Env.run ops') ++ s) :
    Env.run ops = Env.run ops' ∧ r = s := by
  have hok : ∀ ops, Borsh.envEntries.ok (Env.run ops) := fun ops => by
    obtain ⟨h1, _, h3⟩ := Env.inv_run ops
    exact entries_ok.mpr ⟨by omega, h3⟩
  exact Borsh.enc_prefix_free lawful_envEntries (hok ops) (hok ops') h

/-- C75: reading does not ask for the written form: entries may be repeated and in any order, and what is read from them is
written back differently. -/
theorem env_borsh_not_canonical : ∃ bs m, tryFromSlice Borsh.pivotEnv bs = some m ∧ Borsh.pivotEnv.enc m ≠ bs := by
  refine ⟨entriesBytes [("B", "1"), ("A", "2"), ("B", "3")], [("A", "2"), ("B", "3")], ?_, ?_⟩
  · rw [env_borsh_read]
    have hd : Env.decode [("B", "1"), ("A", "2"), ("B", "3")] = some [("A", "2"), ("B", "3")] := by decide +kernel
    obtain ⟨h1, h2, h3⟩ := decode_means.mp hd
    exact ⟨_, rfl, by decide, h1, h2, h3⟩
  · rw [show Borsh.pivotEnv.enc [("A", "2"), ("B", "3")] = entriesBytes [("A", "2"), ("B", "3")] from entries_enc _]
    decide +kernel

/-- The bytes of an environment of two variables, written out, are read as it. -/
example : tryFromSlice Borsh.pivotEnv [2, 0, 0, 0, 1, 0, 0, 0, 65, 0, 1, 0, 0, 0, 49, 2, 0, 0, 0, 95, 66, 0, 0, 0, 0, 0] =
    some [("A", "1"), ("_B", "")] := by
  have hd : Env.decode [("A", "1"), ("_B", "")] = some [("A", "1"), ("_B", "")] := by decide +kernel
  obtain ⟨h1, h2, h3⟩ := decode_means.mp hd
  exact (env_borsh_read _ _).mpr ⟨[("A", "1"), ("_B", "")], by decide +kernel, by decide, h1, h2, h3⟩

/-- An unknown variant, a name beginning with a digit and a left-over byte are refused. -/
example : tryFromSlice Borsh.pivotEnv [1, 0, 0, 0, 1, 0, 0, 0, 65, 1, 0, 0, 0, 0] = none ∧
    tryFromSlice Borsh.pivotEnv [1, 0, 0, 0, 1, 0, 0, 0, 49, 0, 0, 0, 0, 0] = none ∧
    tryFromSlice Borsh.pivotEnv [0, 0, 0, 0, 0] = none ∧ tryFromSlice Borsh.pivotEnv [0, 0, 0, 0] = some [] := by
  decide +kernel

/-- The hypothesis of `env_borsh_prefix_free` is met by two histories that differ. -/
example : Env.run [.insert "A" "1"] = Env.run [.insert "A" "0", .insert "1" "x", .insert "A" "1"] :=
  (env_borsh_prefix_free [.insert "A" "1"] [.insert "A" "0", .insert "1" "x", .insert "A" "1"] [] [] (by decide +kernel)).1

end Qos.Format
