import Verif.Lemmas.JsonCanon
/-!
# C28: canonical JSON is canonical

The specification is `Verif/Spec/Json.lean`: `observe v p` says what a reader sees at path `p` of the
document `v`, where null members count as absent and integers as their decimal strings.
-/
namespace Qos.Json

/-- A sample document used by the non-vacuity examples. -/
def sampleDoc : Json :=
  .obj [("version", .str "v2"), ("gone", .null), ("n", .int (-7)),
    ("items", .arr [.null, .obj [("b", .bool true), ("a", .null)]]), ("€", .str "x"), ("😀", .str "y")]

/-- The same document, members reordered, nulls dropped, number as text. -/
def sampleDoc' : Json :=
  .obj [("😀", .str "y"), ("n", .str "-7"), ("€", .str "x"),
    ("items", .arr [.null, .obj [("b", .bool true)]]), ("version", .str "v2")]

mutual
/-- Some path shows a non-integer number iff the tree contains one (proof helper). -/
theorem noFloat_iff_aux : ∀ v, UniqueKeys v → ((∀ p, observe v p ≠ some .nonInteger) ↔ NoFloat v)
  | .null, _ => by
    refine ⟨fun _ => trivial, fun _ p => ?_⟩
    cases p <;> simp [observe, shape]
  | .bool _, _ => by
    refine ⟨fun _ => trivial, fun _ p => ?_⟩
    cases p <;> simp [observe, shape]
  | .int _, _ => by
    refine ⟨fun _ => trivial, fun _ p => ?_⟩
    cases p <;> simp [observe, shape]
  | .float _, _ => by
    refine ⟨fun h => absurd rfl (h []), fun h => ?_⟩
    simp [NoFloat] at h
  | .str _, _ => by
    refine ⟨fun _ => trivial, fun _ p => ?_⟩
    cases p <;> simp [observe, shape]
  | .arr vs, hu => by
    simp only [UniqueKeys] at hu
    rw [NoFloat, ← noFloatArr_iff_aux vs hu]
    constructor
    · intro h v hv p
      obtain ⟨n, hn, rfl⟩ := List.getElem_of_mem hv
      have := h (.idx n :: p)
      simpa [observe, hn] using this
    · intro h p
      cases p with
      | nil => simp [observe, shape]
      | cons s p =>
        cases s with
        | key k => simp [observe]
        | idx n =>
          simp only [observe]
          cases hn : vs[n]? with
          | none => simp
          | some w => exact h w (List.mem_of_getElem? hn) p
  | .obj kvs, hu => by
    simp only [UniqueKeys] at hu
    rw [NoFloat, ← noFloatObj_iff_aux kvs hu.2]
    constructor
    · intro h kv hkv p
      obtain ⟨k, v⟩ := kv
      have := h (.key k :: p)
      simp only [observe, lookup_of_mem hu.1 hkv] at this
      cases v with
      | null => cases p <;> simp [observe, shape]
      | _ => exact this
    · intro h p
      cases p with
      | nil => simp [observe, shape]
      | cons s p =>
        cases s with
        | idx n => simp [observe]
        | key k =>
          simp only [observe]
          cases hl : lookup k kvs with
          | none => simp
          | some w =>
            have := h _ (lookup_mem hl) p
            cases w <;> simp_all
theorem noFloatArr_iff_aux : ∀ vs, UniqueKeysArr vs →
    ((∀ v ∈ vs, ∀ p, observe v p ≠ some .nonInteger) ↔ NoFloatArr vs)
  | [], _ => by simp [NoFloatArr]
  | v :: vs, hu => by
    simp only [NoFloatArr, List.mem_cons, forall_eq_or_imp]
    rw [noFloat_iff_aux v hu.1, noFloatArr_iff_aux vs hu.2]
theorem noFloatObj_iff_aux : ∀ kvs, UniqueKeysObj kvs →
    ((∀ kv ∈ kvs, ∀ p, observe kv.2 p ≠ some .nonInteger) ↔ NoFloatObj kvs)
  | [], _ => by simp [NoFloatObj]
  | (k, v) :: kvs, hu => by
    simp only [NoFloatObj, List.mem_cons, forall_eq_or_imp]
    rw [noFloat_iff_aux v hu.1, noFloatObj_iff_aux kvs hu.2]
end

/-- Canonicalisation fails exactly on documents that show a non-integer number somewhere. -/
theorem canonical_defined_iff (v : Json) (hu : UniqueKeys v) :
    (∃ b, canonBytes v = some b) ↔ ∀ p, observe v p ≠ some .nonInteger := by
  rw [noFloat_iff_aux v hu]
  constructor
  · rintro ⟨b, hb⟩; exact (canonBytes_some hb).1
  · intro h; exact ⟨_, canonBytes_eq h⟩

example : ∃ b, canonBytes sampleDoc = some b := ⟨_, rfl⟩
example : canonBytes (.obj [("a", .arr [.float "1.5".toList])]) = none := by decide +kernel

/-- Two documents have the same canonical bytes if and only if no reader can tell them apart:
every path shows the same thing in both, where null members are absent and integers are their
decimal strings. This is both invariance (order, nulls, number notation) and injectivity. -/
theorem canonical_eq_iff (v w : Json) (hv : UniqueKeys v) (hw : UniqueKeys w) {a b : Bytes}
    (ha : canonBytes v = some a) (hb : canonBytes w = some b) :
    a = b ↔ ∀ p, observe v p = observe w p := by
  obtain ⟨fv, rfl⟩ := canonBytes_some ha
  obtain ⟨fw, rfl⟩ := canonBytes_some hb
  constructor
  · intro h p
    have := writeBytes_injective (plain_norm v fv) (plain_norm w fw) h
    rw [← observe_norm p v hv, ← observe_norm p w hw, this]
  · intro h
    have : norm v = norm w := canonical_ext _ _ (canonical_norm v hv fv) (canonical_norm w hw fw)
      (fun p => by rw [observe_norm p v hv, observe_norm p w hw, h])
    rw [this]

example : UniqueKeys sampleDoc ∧ UniqueKeys sampleDoc' ∧ canonBytes sampleDoc = canonBytes sampleDoc'
    ∧ (canonBytes sampleDoc).isSome ∧ sampleDoc ≠ sampleDoc' := by
  refine ⟨?_, ?_, by decide +kernel, by decide +kernel, by decide +kernel⟩
  · simp [sampleDoc, UniqueKeys, UniqueKeysArr, UniqueKeysObj]
  · simp [sampleDoc', UniqueKeys, UniqueKeysArr, UniqueKeysObj]

/-- Reordering the members of an object does not change its canonical bytes. -/
theorem canonical_order_invariant (l m : List (String × Json)) (h : l.Perm m)
    (hu : UniqueKeys (.obj l)) : canonBytes (.obj l) = canonBytes (.obj m) := by
  have nodup := hu.1
  have hum : UniqueKeys (.obj m) := by
    refine ⟨(h.map _).nodup_iff.mp nodup, ?_⟩
    have : ∀ l, UniqueKeysObj l ↔ ∀ kv ∈ l, UniqueKeys kv.2 := by
      intro l
      induction l with
      | nil => simp [UniqueKeysObj]
      | cons kv l ih => obtain ⟨k, v⟩ := kv; simp [UniqueKeysObj, ih]
    rw [this]
    intro kv hkv
    exact uniqueKeysObj_mem hu.2 (h.mem_iff.mpr hkv)
  have hobs : ∀ p, observe (.obj l) p = observe (.obj m) p := by
    intro p
    cases p with
    | nil => rfl
    | cons s p =>
      cases s with
      | idx n => rfl
      | key k => simp only [observe, lookup_perm h nodup k]
  cases hl : canonBytes (.obj l) with
  | some a =>
    have hd : ∃ b, canonBytes (.obj m) = some b := by
      rw [canonical_defined_iff _ hum]
      intro p; rw [← hobs]; exact (canonical_defined_iff _ hu).mp ⟨a, hl⟩ p
    obtain ⟨b, hb⟩ := hd
    rw [hb, (canonical_eq_iff _ _ hu hum hl hb).mpr hobs]
  | none =>
    cases hm : canonBytes (.obj m) with
    | none => rfl
    | some b =>
      have hd : ∃ a, canonBytes (.obj l) = some a := by
        rw [canonical_defined_iff _ hu]
        intro p; rw [hobs]; exact (canonical_defined_iff _ hum).mp ⟨b, hm⟩ p
      obtain ⟨a, ha⟩ := hd
      rw [hl] at ha; cases ha

example : UniqueKeys (.obj [("b", .int 1), ("a", .int 2)]) ∧
    canonBytes (.obj [("b", .int 1), ("a", .int 2)]) = some (utf8 "{\"a\":\"2\",\"b\":\"1\"}") := by
  refine ⟨?_, by decide +kernel⟩
  simp [UniqueKeys, UniqueKeysObj]

/-- Adding a null member anywhere in an object does not change its canonical bytes. -/
theorem canonical_null_invariant (l m : List (String × Json)) (k : String) :
    canonBytes (.obj (l ++ (k, .null) :: m)) = canonBytes (.obj (l ++ m)) := by
  have : canonObj (l ++ (k, .null) :: m) = canonObj (l ++ m) := by
    induction l with
    | nil => simp [canonObj, isNull]
    | cons kv l ih => obtain ⟨k', v⟩ := kv; simp only [List.cons_append, canonObj, ih]
  simp only [canonBytes, canon, this]

example : canonBytes (.obj ([("a", .bool true)] ++ ("z", .null) :: [("b", .bool false)]))
    = some (utf8 "{\"a\":true,\"b\":false}") := by decide +kernel

/-- Array elements that are null are data: they are never dropped. -/
theorem canonical_array_null_kept (l m : List Json) {a b : Bytes}
    (hu : UniqueKeys (.arr (l ++ .null :: m))) (hu' : UniqueKeys (.arr (l ++ m)))
    (ha : canonBytes (.arr (l ++ .null :: m)) = some a) (hb : canonBytes (.arr (l ++ m)) = some b) :
    a ≠ b := by
  intro h
  have := (canonical_eq_iff _ _ hu hu' ha hb).mp h []
  simp [observe, shape] at this

example : canonBytes (.arr [.null, .str "1"]) = some (utf8 "[null,\"1\"]") ∧
    canonBytes (.arr [.str "1"]) = some (utf8 "[\"1\"]") := by decide +kernel

/-- The canonical bytes parse (nesting below serde_json's limit of 128), to a canonical tree: member
names strictly increasing in UTF-16 order, no null members, no numbers; the bytes are exactly that
tree without any white space; it shows what the original document shows; and canonicalising it again
changes nothing. -/
theorem canonical_form (v : Json) (hu : UniqueKeys v) {b : Bytes} (hb : canonBytes v = some b)
    (hh : height v < 128) :
    ∃ u, parse b = some u ∧ Canonical u ∧ writeBytes u = b ∧ (∀ p, observe u p = observe v p) ∧
      canonBytes u = some b := by
  obtain ⟨hf, hb'⟩ := canonBytes_some hb
  have hc := canonical_norm v hu hf
  refine ⟨norm v, parse_canonBytes hb hh, hc, hb'.symm, fun p => observe_norm p v hu, ?_⟩
  rw [canonBytes_eq (noFloat_of_canonical _ hc), norm_of_canonical _ hc, hb']

example : height sampleDoc = 3 ∧ UniqueKeys sampleDoc ∧ (canonBytes sampleDoc).isSome := by
  refine ⟨by decide +kernel, ?_, by decide +kernel⟩
  simp [sampleDoc, UniqueKeys, UniqueKeysArr, UniqueKeysObj]

/-- Plain (`serde_json`) text of a value without floats and with 64-bit integers reads back as that
value. -/
theorem plain_roundtrip (v : Json) (hp : Plain v) (hh : height v < 128) :
    parse (writeBytes v) = some v := parse_writeBytes v hp hh

example : Plain sampleDoc ∧ height sampleDoc < 128 := by
  refine ⟨?_, by decide +kernel⟩
  simp [sampleDoc, Plain, PlainArr, PlainObj]

/-- SPEC.md sample order: carriage return, `1`, U+0080, ö, €, emoji, U+FB33 (UTF-16, not code point
order: the emoji sorts before U+FB33). -/
example : canonBytes (.obj [("€", .str "a"), ("\r", .str "b"), ("\uFB33", .str "c"), ("1", .str "d"),
    ("😀", .str "e"), ("\u0080", .str "f"), ("ö", .str "g")])
    = some (utf8 "{\"\\r\":\"b\",\"1\":\"d\",\"\u0080\":\"f\",\"ö\":\"g\",\"€\":\"a\",\"😀\":\"e\",\"\uFB33\":\"c\"}") := by
  decide +kernel

end Qos.Json
