import Verif.Lemmas.Manifest
/-!
# C25: the Borsh forms round-trip, are prefix-free, and reject trailing or ambiguous bytes
-/
namespace Qos.Borsh

/-! ## Specification -/

/-- What a user relies on from a Borsh form. `c.enc` writes, `tryFromSlice c` reads a whole buffer;
`c.ok` holds of the values that fit (lengths below `2^32`, 32-byte hashes), see `fits_*` below. -/
structure WireSafe {α : Type} (c : Codec α) : Prop where
  /-- Reading what was written gives the value back. -/
  roundtrip : ∀ a, c.ok a → tryFromSlice c (c.enc a) = some a
  /-- No encoding is a proper prefix of, or equal to, the encoding of another value. -/
  prefixFree : ∀ a b r s, c.ok a → c.ok b → c.enc a ++ r = c.enc b ++ s → a = b ∧ r = s
  /-- Anything after a complete value makes the whole buffer unreadable. -/
  noTrailing : ∀ bs a x, tryFromSlice c bs = some a → x ≠ [] → tryFromSlice c (bs ++ x) = none
  /-- A readable buffer is exactly the encoding of the value read. -/
  canonical : ∀ bs a, tryFromSlice c bs = some a → bs = c.enc a ∧ c.ok a

/-- Every lawful codec is safe. -/
theorem wireSafe_of_lawful {α : Type} {c : Codec α} (h : Lawful c) : WireSafe c where
  roundtrip a ha := tryFromSlice_enc h ha
  prefixFree a b r s ha hb e := enc_prefix_free h ha hb e
  noTrailing bs a x ha hx := by
    obtain ⟨rfl, ok⟩ := tryFromSlice_some h ha
    cases hb : tryFromSlice c (c.enc a ++ x) with
    | none => rfl
    | some b =>
      obtain ⟨e, okb⟩ := tryFromSlice_some h hb
      have := (enc_prefix_free h ok okb (r := x) (s := []) (by simpa using e)).2
      exact absurd this hx
  canonical bs a ha := tryFromSlice_some h ha

/-! ## Property theorems -/

/-- C25: every legacy type that travels or is hashed as Borsh. -/
theorem borsh_wire_safe :
    WireSafe quorumMember ∧ WireSafe quorumSet ∧ WireSafe patchSet ∧ WireSafe «namespace» ∧
    WireSafe nitroConfig ∧ WireSafe bridgeConfig ∧ WireSafe pivotConfig ∧ WireSafe pivotConfigV0 ∧
    WireSafe approval ∧ WireSafe manifest ∧ WireSafe manifestV0 ∧
    WireSafe (envelopeOf manifest) ∧ WireSafe (envelopeOf manifestV0) :=
  ⟨wireSafe_of_lawful lawful_quorumMember, wireSafe_of_lawful lawful_quorumSet,
   wireSafe_of_lawful lawful_patchSet, wireSafe_of_lawful lawful_namespace,
   wireSafe_of_lawful lawful_nitroConfig, wireSafe_of_lawful lawful_bridgeConfig,
   wireSafe_of_lawful lawful_pivotConfig, wireSafe_of_lawful lawful_pivotConfigV0,
   wireSafe_of_lawful lawful_approval, wireSafe_of_lawful lawful_manifest,
   wireSafe_of_lawful lawful_manifestV0, wireSafe_of_lawful (lawful_envelopeOf lawful_manifest),
   wireSafe_of_lawful (lawful_envelopeOf lawful_manifestV0)⟩

/-- What "fits" means for a member: both lengths below `2^32`. -/
theorem fits_quorumMember (m : QuorumMember) :
    quorumMember.ok m ↔ (utf8 m.aliasName).length < 2 ^ 32 ∧ m.pubKey.length < 2 ^ 32 := Iff.rfl

/-- What "fits" means for a namespace. -/
theorem fits_namespace (n : Namespace) :
    «namespace».ok n ↔ (utf8 n.name).length < 2 ^ 32 ∧ n.quorumKey.length < 2 ^ 32 :=
  ⟨fun h => ⟨h.1, h.2.2⟩, fun h => ⟨h.1, ok_u32 _, h.2⟩⟩

/-- What "fits" means for a set. -/
theorem fits_quorumSet (s : QuorumSet) :
    quorumSet.ok s ↔ s.members.length < 2 ^ 32 ∧ ∀ m ∈ s.members, quorumMember.ok m :=
  ⟨fun h => h.2, fun h => ⟨ok_u32 _, h⟩⟩

/-- What "fits" means for an approval. -/
theorem fits_approval (a : Approval) :
    approval.ok a ↔ a.signature.length < 2 ^ 32 ∧ quorumMember.ok a.member := Iff.rfl

/-- What "fits" means for an original-format pivot configuration: in particular a 32-byte hash. -/
theorem fits_pivotConfigV0 (p : PivotConfigV0) :
    pivotConfigV0.ok p ↔
      p.hash.length = 32 ∧ p.args.length < 2 ^ 32 ∧ ∀ a ∈ p.args, (utf8 a).length < 2 ^ 32 := by
  constructor
  · intro h; exact ⟨h.1, h.2.2⟩
  · intro h; refine ⟨h.1, ?_, h.2⟩
    show restartPolicy.ok p.restart
    cases p.restart <;> trivial

/-- C25: an envelope is read from Borsh exactly when the bytes are the encoding of a value of one
schema and of no value of the other. -/
theorem borsh_envelope_decode_iff (bs : Bytes) (e : Envelope) :
    decodeEnvelope bs = some e ↔
      (∃ x, e = .v1 x ∧ (envelopeOf manifest).ok x ∧ bs = (envelopeOf manifest).enc x ∧
        ¬ ∃ y, (envelopeOf manifestV0).ok y ∧ bs = (envelopeOf manifestV0).enc y) ∨
      (∃ y, e = .v0 y ∧ (envelopeOf manifestV0).ok y ∧ bs = (envelopeOf manifestV0).enc y ∧
        ¬ ∃ x, (envelopeOf manifest).ok x ∧ bs = (envelopeOf manifest).enc x) := by
  have l1 := lawful_envelopeOf lawful_manifest
  have l0 := lawful_envelopeOf lawful_manifestV0
  have n1 : tryFromSlice (envelopeOf manifest) bs = none →
      ¬ ∃ x, (envelopeOf manifest).ok x ∧ bs = (envelopeOf manifest).enc x := by
    rintro hn ⟨x, hx, rfl⟩; rw [tryFromSlice_enc l1 hx] at hn; cases hn
  have n0 : tryFromSlice (envelopeOf manifestV0) bs = none →
      ¬ ∃ x, (envelopeOf manifestV0).ok x ∧ bs = (envelopeOf manifestV0).enc x := by
    rintro hn ⟨x, hx, rfl⟩; rw [tryFromSlice_enc l0 hx] at hn; cases hn
  unfold decodeEnvelope decodeBorsh
  cases h1 : tryFromSlice (envelopeOf manifest) bs with
  | some x =>
    obtain ⟨e1, o1⟩ := tryFromSlice_some l1 h1
    cases h0 : tryFromSlice (envelopeOf manifestV0) bs with
    | some y =>
      obtain ⟨e0, o0⟩ := tryFromSlice_some l0 h0
      simp only [reduceCtorEq, false_iff]
      rintro (⟨_, _, _, _, hno⟩ | ⟨_, _, _, _, hno⟩)
      · exact hno ⟨y, o0, e0⟩
      · exact hno ⟨x, o1, e1⟩
    | none =>
      simp only [Option.some.injEq]
      constructor
      · rintro rfl; exact Or.inl ⟨x, rfl, o1, e1, n0 h0⟩
      · rintro (⟨x', rfl, o', e', _⟩ | ⟨_, _, _, _, hno⟩)
        · rw [enc_injective l1 o1 o' (e1 ▸ e')]
        · exact absurd ⟨x, o1, e1⟩ hno
  | none =>
    cases h0 : tryFromSlice (envelopeOf manifestV0) bs with
    | some y =>
      obtain ⟨e0, o0⟩ := tryFromSlice_some l0 h0
      simp only [Option.some.injEq]
      constructor
      · rintro rfl; exact Or.inr ⟨y, rfl, o0, e0, n1 h1⟩
      · rintro (⟨_, _, _, _, hno⟩ | ⟨y', rfl, o', e', _⟩)
        · exact absurd ⟨y, o0, e0⟩ hno
        · rw [enc_injective l0 o0 o' (e0 ▸ e')]
    | none =>
      simp only [reduceCtorEq, false_iff]
      rintro (⟨x, _, o, e', _⟩ | ⟨x, _, o, e', _⟩)
      · exact n1 h1 ⟨x, o, e'⟩
      · exact n0 h0 ⟨x, o, e'⟩

/-- C25: writing a legacy envelope and reading it back never yields a different envelope: it is the
same one, or nothing because the bytes are also a value of the other schema. -/
theorem borsh_envelope_never_confused (e e' : Envelope) (bs : Bytes) (h : encodeEnvelope e = some bs)
    (hok : match e with
      | .v1 x => (envelopeOf manifest).ok x
      | .v0 y => (envelopeOf manifestV0).ok y
      | .v2 _ => True)
    (hd : decodeEnvelope bs = some e') : e' = e := by
  have l1 := lawful_envelopeOf lawful_manifest
  have l0 := lawful_envelopeOf lawful_manifestV0
  cases e with
  | v2 x => simp [encodeEnvelope] at h
  | v1 x =>
    simp only [encodeEnvelope, Option.some.injEq] at h; subst h
    rcases (borsh_envelope_decode_iff _ _).mp hd with ⟨y, rfl, oy, ey, _⟩ | ⟨_, _, _, _, hno⟩
    · rw [enc_injective l1 hok oy ey]
    · exact absurd ⟨x, hok, rfl⟩ hno
  | v0 x =>
    simp only [encodeEnvelope, Option.some.injEq] at h; subst h
    rcases (borsh_envelope_decode_iff _ _).mp hd with ⟨_, _, _, _, hno⟩ | ⟨y, rfl, oy, ey, _⟩
    · exact absurd ⟨x, hok, rfl⟩ hno
    · rw [enc_injective l0 hok oy ey]

/-! ## Concrete cases -/

/-- A small V0 manifest whose Borsh bytes are unambiguous. -/
def sampleV0 (args : List String) : ManifestV0 :=
  { «namespace» := ⟨"ns", 7, [1, 2]⟩
    pivot := ⟨List.replicate 32 5, .always, args⟩
    manifestSet := ⟨2, [⟨"a", [1]⟩, ⟨"b", [2]⟩]⟩
    shareSet := ⟨1, [⟨"a", [1]⟩]⟩
    enclave := ⟨[0], [1], [2], [3], [4], "commit"⟩
    patchSet := ⟨0, []⟩ }

example : decodeEnvelope ((envelopeOf manifestV0).enc ⟨sampleV0 ["--x"], [⟨[9], ⟨"a", [1]⟩⟩], []⟩) =
    some (.v0 ⟨sampleV0 ["--x"], [⟨[9], ⟨"a", [1]⟩⟩], []⟩) := by decide +kernel

/-- The ambiguous manifest of the repository's own test (boot/manifest.rs:888-908): readable under both
schemas, hence refused. -/
example :
    (tryFromSlice (envelopeOf manifestV0) ((envelopeOf manifestV0).enc
      ⟨sampleV0 ["\u0001", "\u0000\u0000\u0000\u0000"], [], []⟩)).isSome ∧
    (tryFromSlice (envelopeOf manifest) ((envelopeOf manifestV0).enc
      ⟨sampleV0 ["\u0001", "\u0000\u0000\u0000\u0000"], [], []⟩)).isSome ∧
    decodeEnvelope ((envelopeOf manifestV0).enc
      ⟨sampleV0 ["\u0001", "\u0000\u0000\u0000\u0000"], [], []⟩) = none := by decide +kernel

example : manifestV0.ok (sampleV0 ["--x"]) := by
  simp [manifestV0, imap, pair, «namespace», pivotConfigV0, quorumSet, nitroConfig, patchSet, string,
    bytes, u32, le, vec, fixed, restartPolicy, sum, unit, quorumMember, sampleV0]
  decide +kernel

end Qos.Borsh
