import Verif.Props.Storage
import Verif.Props.FormatBytes
import Verif.Lemmas.JsonCanon
/-!
# C41: the hash of a V2 manifest is never that of an older one

The hashed bytes of a V1 and of a V0 manifest can coincide (`hashInput_version_ambiguous`). Those of a V2 manifest are
text, which read as Borsh would be a namespace name of more than 1.6 GB.
-/
namespace Qos

namespace Json

theorem canonObj_keys : ∀ {kvs : List (String × Json)} {ts : List (String × List Char)}, canonObj kvs = some ts →
    ∀ e ∈ ts, e.1 ∈ kvs.map Prod.fst
  | [], ts, h, e, he => by
    rw [canonObj, Option.some.injEq] at h
    subst h
    cases he
  | (k, v) :: kvs, ts, h, e, he => by
    rw [canonObj] at h
    by_cases hn : v.isNull = true
    · rw [if_pos hn] at h
      exact List.mem_cons_of_mem _ (canonObj_keys h e he)
    · rw [if_neg hn] at h
      cases hc : canon v with
      | none => rw [hc] at h; cases h
      | some t =>
        cases ho : canonObj kvs with
        | none => rw [hc, ho] at h; cases h
        | some ts' =>
          rw [hc, ho, Option.some.injEq] at h
          subst h
          rcases List.mem_cons.mp he with rfl | he
          · exact List.mem_cons_self
          · exact List.mem_cons_of_mem _ (canonObj_keys ho e he)

/-- The canonical text of an object is `{}` or begins with one of its keys. -/
theorem canon_obj_begins {kvs : List (String × Json)} {t : List Char} (h : canon (.obj kvs) = some t) :
    t = ['{', '}'] ∨ ∃ k ∈ kvs.map Prod.fst, ∃ r, t = '{' :: (writeString k ++ r) := by
  rw [canon] at h
  cases ho : canonObj kvs with
  | none => rw [ho] at h; cases h
  | some ts =>
    rw [ho] at h
    have h := (Option.some.inj h).symm
    cases hs : sortEntries ts with
    | nil => left; rw [h, hs]; rfl
    | cons e r =>
      right
      have he : e ∈ ts := (sortEntries_perm ts).subset (by rw [hs]; exact List.mem_cons_self)
      refine ⟨e.1, canonObj_keys ho e he, ?_⟩
      rw [h, hs, List.map_cons]
      cases r with
      | nil => exact ⟨':' :: (e.2 ++ ['}']), by simp [commaSep]⟩
      | cons f r => exact ⟨':' :: (e.2 ++ ',' :: (commaSep ((f :: r).map fun kt => writeString kt.1 ++ ':' :: kt.2) ++ ['}'])), by simp [commaSep]⟩

end Json

/-- The names of the members of a V2 manifest. -/
def v2Keys : List String := ["version", "namespace", "pivot", "manifestSet", "shareSet", "enclave", "dns"]

theorem v2_keys (m : ManifestV2) : ∃ kvs, JCodec.manifestV2.enc m = .obj kvs ∧ ∀ k ∈ kvs.map Prod.fst, k ∈ v2Keys := by
  refine ⟨_, rfl, ?_⟩
  intro k hk
  cases hd : m.dns with
  | none =>
    simp [JCodec.manifestV2, Fields.imap, Fields.both, Fields.req, Fields.opt, hd] at hk
    simp [v2Keys]
    tauto
  | some d =>
    simp [JCodec.manifestV2, Fields.imap, Fields.both, Fields.req, Fields.opt, hd] at hk
    simp [v2Keys]
    tauto

/-- The first four bytes: `{`, `"`, and two letters. -/
theorem v2_begins (m : ManifestV2) (b : Bytes) (h : (VersionedManifest.v2 m).hashInput = some b) :
    b = [123, 125] ∨ ∃ x y r, b = 123 :: 34 :: x :: y :: r ∧ 97 ≤ y.toNat := by
  obtain ⟨kvs, he, hk⟩ := v2_keys m
  show b = _ ∨ _
  have h : Json.canonBytes (JCodec.manifestV2.enc m) = some b := h
  rw [he] at h
  unfold Json.canonBytes at h
  rw [Option.map_eq_some_iff] at h
  obtain ⟨t, ht, hb⟩ := h
  rcases Json.canon_obj_begins ht with rfl | ⟨k, hkm, r, rfl⟩
  · left
    rw [← hb]
    decide +kernel
  · right
    rw [← hb, List.flatMap_cons, List.flatMap_append]
    have h2 : ∃ x y r', (Json.writeString k).flatMap String.utf8EncodeChar = 34 :: x :: y :: r' ∧ 97 ≤ y.toNat := by
      have := hk k hkm
      simp only [v2Keys, List.mem_cons, List.not_mem_nil, or_false] at this
      rcases this with rfl | rfl | rfl | rfl | rfl | rfl | rfl <;> exact ⟨_, _, _, rfl, by decide +kernel⟩
    obtain ⟨x, y, r', h3, h4⟩ := h2
    rw [h3]
    exact ⟨x, y, _, rfl, h4⟩

theorem four_big {n : Nat} {a b c d : UInt8} {r s : Bytes} (h : leBytes 4 n ++ s = a :: b :: c :: d :: r) (hd : 97 ≤ d.toNat) :
    97 * 2 ^ 24 ≤ n := by
  simp only [leBytes, List.cons_append, List.nil_append, List.cons.injEq] at h
  obtain ⟨-, -, -, h, -⟩ := h
  rw [← h, UInt8.toNat_ofNat'] at hd
  omega

/-- C41: the bytes hashed for a V2 manifest are those of no V1 and no V0 manifest, unless its namespace has a name of more
than 1.6 GB. So an approval of a V2 manifest is no approval of an older one, up to SHA-256 collisions. -/
theorem hashInput_v2_separate (m : ManifestV2) (m' : VersionedManifest) (hv : m'.versionLabel ≠ "v2")
    (hn : (utf8 m'.namespaceOf.name).length < 97 * 2 ^ 24) : (VersionedManifest.v2 m).hashInput ≠ m'.hashInput := by
  intro he
  have hs : m'.hashInput.isSome = true := by
    cases m' with
    | v2 _ => exact absurd rfl hv
    | v1 _ => rfl
    | v0 _ => rfl
  obtain ⟨b, hb'⟩ := Option.isSome_iff_exists.mp hs
  have hb := he.trans hb'
  rw [hb] at he
  have key : ∀ (name : String) (s : Bytes), (utf8 name).length < 97 * 2 ^ 24 →
      b = leBytes 4 (utf8 name).length ++ s → False := by
    intro name s hl hbs
    rcases v2_begins m b hb with rfl | ⟨x, y, r, rfl, hy⟩
    · have := congrArg List.length hbs
      simp [leBytes] at this
    · have := four_big hbs.symm hy
      omega
  cases m' with
  | v2 _ => exact hv rfl
  | v1 m' =>
    have he := Option.some.inj he
    exact key m'.namespace.name _ hn (by rw [he]; simp only [Borsh.manifest]; rfl)
  | v0 m' =>
    have he := Option.some.inj he
    exact key m'.namespace.name _ hn (by rw [he]; simp only [Borsh.manifestV0]; rfl)

/-- C41: two manifests of any versions with the same hashed bytes are equal in every field, or one is a V1 and the other a
V0 manifest (names of namespaces above 1.6 GB apart). -/
theorem hashInput_identifies (m m' : VersionedManifest) (h : m.Fits) (h' : m'.Fits)
    (hn : (utf8 m.namespaceOf.name).length < 97 * 2 ^ 24) (hn' : (utf8 m'.namespaceOf.name).length < 97 * 2 ^ 24)
    (heq : m.hashInput = m'.hashInput) :
    m = m' ∨ (∃ x y, m = .v1 x ∧ m' = .v0 y) ∨ (∃ x y, m = .v0 x ∧ m' = .v1 y) := by
  cases m with
  | v2 x =>
    by_cases hv : m'.versionLabel = "v2"
    · exact .inl (hashInput_injective _ _ h h' hv.symm heq)
    · exact absurd heq (hashInput_v2_separate x m' hv hn')
  | v1 x =>
    cases m' with
    | v2 y => exact absurd heq.symm (hashInput_v2_separate y (.v1 x) (show "v1" ≠ "v2" by decide) hn)
    | v1 y => exact .inl (hashInput_injective _ _ h h' rfl heq)
    | v0 y => exact .inr (.inl ⟨x, y, rfl, rfl⟩)
  | v0 x =>
    cases m' with
    | v2 y => exact absurd heq.symm (hashInput_v2_separate y (.v0 x) (show "v0" ≠ "v2" by decide) hn)
    | v1 y => exact .inr (.inr ⟨x, y, rfl, rfl⟩)
    | v0 y => exact .inl (hashInput_injective _ _ h h' rfl heq)

/-- It applies: the sample V2 manifest and the V0 manifest of the repository's ambiguity test. -/
example : (VersionedManifest.v2 sampleV2.manifest).hashInput ≠ (VersionedManifest.v0 ambiguousV0).hashInput :=
  hashInput_v2_separate _ (.v0 ambiguousV0) (by decide) (by decide +kernel)

end Qos
