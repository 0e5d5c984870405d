import Verif.Spec.Attest
import Verif.Props.CanonicalJson
import Verif.Props.P256
import Verif.Props.Hex
/-!
# C29, C30: attestation documents
-/
namespace Qos.Attest

/-! ## C30 -/

theorem validatePcrs_iff (l : List (Nat × Bytes)) : validatePcrs l = .ok () ↔
    (1 ≤ l.length ∧ l.length ≤ 32) ∧
      ∀ i v, (i, v) ∈ l → i ≤ 32 ∧ (v.length = 32 ∨ v.length = 48 ∨ v.length = 64) := by
  unfold validatePcrs
  simp only
  split
  · rename_i h
    constructor
    · intro h'; cases h'
    · rintro ⟨h1, h2⟩
      exfalso
      simp only [Bool.or_eq_true, Bool.not_eq_true', Bool.and_eq_false_iff] at h
      rcases h with h | h
      · rw [List.all_eq_false] at h
        obtain ⟨⟨i, v⟩, hm, hn⟩ := h
        have := h2 i v hm
        apply hn
        simp only [Bool.and_eq_true, decide_eq_true_eq]
        refine ⟨this.1, ?_⟩
        rcases this.2 with h | h | h <;> simp [h]
      · simp only [decide_eq_false_iff_not] at h; omega
  · rename_i h
    simp only [Bool.or_eq_true, Bool.not_eq_true', not_or, Bool.not_eq_false, List.all_eq_true,
      Bool.and_eq_true, decide_eq_true_eq] at h
    refine ⟨fun _ => ⟨by omega, fun i v hm => ?_⟩, fun _ => rfl⟩
    have := h.1 (i, v) hm
    simpa [or_assoc] using this

theorem validateCabundle_iff (b : List Bytes) : validateCabundle b = .ok () ↔
    b ≠ [] ∧ ∀ c ∈ b, 1 ≤ c.length ∧ c.length ≤ 1024 := by
  unfold validateCabundle
  simp only
  split
  · rename_i h
    constructor
    · intro h'; cases h'
    · rintro ⟨h1, h2⟩
      exfalso
      simp only [Bool.or_eq_true, Bool.not_eq_true', decide_eq_false_iff_not] at h
      rcases h with h | h
      · exact h1 (List.length_eq_zero_iff.1 (by omega))
      · rw [List.all_eq_false] at h
        obtain ⟨c, hm, hn⟩ := h
        have := h2 c hm
        apply hn
        simpa using this
  · rename_i h
    simp only [Bool.or_eq_true, Bool.not_eq_true', not_or, Bool.not_eq_false, List.all_eq_true,
      Bool.and_eq_true, decide_eq_true_eq] at h
    refine ⟨fun _ => ⟨fun e => by simp [e] at h, fun c hm => h.2 c hm⟩, fun _ => rfl⟩

theorem bind_unit_ok {ε α : Type} (x : Except ε Unit) (f : Unit → Except ε α) (a : α) :
    (x >>= f) = .ok a ↔ x = .ok () ∧ f () = .ok a := by
  cases x <;> simp [bind, Except.bind]

theorem validatePublicKey_iff (k : Option Bytes) : validatePublicKey k = .ok () ↔
    OptAll (fun k => 1 ≤ k.length ∧ k.length ≤ 1024) k := by
  cases k with
  | none => simp [validatePublicKey, OptAll]
  | some k =>
    simp only [validatePublicKey, OptAll]
    split <;> rename_i h <;> simp at h ⊢ <;> omega

theorem validateBytes512_iff (k : Option Bytes) : validateBytes512 k = .ok () ↔
    OptAll (fun u => u.length ≤ 512) k := by
  cases k with
  | none => simp [validateBytes512, OptAll]
  | some k =>
    simp only [validateBytes512, OptAll]
    split <;> rename_i h <;> simp <;> omega

/-- **C30.** The syntactic validator accepts exactly the well-formed documents. -/
theorem validate_exact (d : AttestationDoc) : validateDoc d = .ok () ↔ WellFormed d := by
  unfold validateDoc
  simp only [bind_unit_ok, validatePcrs_iff, validateCabundle_iff, validatePublicKey_iff, validateBytes512_iff]
  have h1 : validateModuleId d.moduleId = .ok () ↔ d.moduleId ≠ "" := by
    unfold validateModuleId; split <;> rename_i h <;> simpa using h
  have h2 : validateDigest d.digest = .ok () ↔ d.digest = .sha384 := by
    unfold validateDigest; split <;> rename_i h <;> simpa using h
  have h3 : validateTimestamp d.timestamp = .ok () ↔ d.timestamp ≠ 0 := by
    unfold validateTimestamp; split <;> rename_i h <;> simpa using h
  rw [h1, h2, h3]
  constructor
  · rintro ⟨h1, h2, ⟨hp1, hp2⟩, ⟨hc1, hc2⟩, ht, hk, hu, hn⟩
    exact ⟨h1, h2, hp1, hp2, hc1, hc2, ht, hk, hu, hn⟩
  · intro h
    exact ⟨h.moduleId, h.digest, ⟨h.pcrCount, h.pcrEntries⟩, ⟨h.bundle, h.certs⟩, h.timestamp, h.publicKey,
      h.userData, h.nonce⟩

/-- A small well-formed document. -/
def sampleDoc : AttestationDoc where
  moduleId := "m"
  digest := .sha384
  timestamp := 1
  pcrs := [(0, zeroPcr), (32, List.replicate 64 7)]
  certificate := []
  cabundle := [[1], [2]]
  publicKey := some [4]
  userData := none
  nonce := none

example : WellFormed sampleDoc := (validate_exact sampleDoc).1 (by decide +kernel)
example : ¬ WellFormed { sampleDoc with pcrs := [(33, zeroPcr)] } := fun h => by
  have := (validate_exact _).2 h; revert this; decide +kernel
example : ¬ WellFormed { sampleDoc with cabundle := [] } := fun h => h.bundle rfl

/-- The slice `cabundle[1..]` taken after validation is within bounds. -/
theorem validateDoc_cabundle (d : AttestationDoc) (h : validateDoc d = .ok ()) : 1 ≤ d.cabundle.length := by
  have := ((validate_exact d).1 h).bundle
  cases hd : d.cabundle with
  | nil => exact absurd hd this
  | cons => simp

/-- A document accepted by `attestation_doc_from_der` decodes from the signed bytes, is well formed, its
certificate chains to the given root at the given time and signs the bytes; and nothing else is needed. -/
theorem fromDer_exact (pki : Pki) (der root : Bytes) (time : Nat) (d : AttestationDoc) :
    fromDer pki der root time = .ok d ↔
      pki.decode der = .ok d ∧ WellFormed d ∧
        pki.chain d.cabundle.tail root d.certificate time = .ok () ∧
        pki.signature d.certificate der = .ok () := by
  unfold fromDer
  cases hd : pki.decode der with
  | error e => simp [bind, Except.bind]
  | ok x =>
    have : ∀ f : AttestationDoc → Except AttestError AttestationDoc,
      ((Except.ok x : Except AttestError AttestationDoc) >>= f) = f x := fun f => rfl
    rw [this]
    simp only [bind_unit_ok, validate_exact, List.drop_one]
    constructor
    · rintro ⟨h1, h2, h3, h4⟩
      cases h4
      exact ⟨rfl, h1, h2, h3⟩
    · rintro ⟨h0, h1, h2, h3⟩
      cases h0
      exact ⟨h1, h2, h3, rfl⟩

/-! ## C29 -/

theorem firstMissing_none (d : AttestationDoc) (l : List Nat) :
    firstMissing d l = none ↔ ∀ i ∈ l, (d.pcr i).isSome := by
  induction l with
  | nil => simp [firstMissing]
  | cons i l ih =>
    unfold firstMissing
    by_cases h : (d.pcr i).isSome
    · rw [if_pos h, ih]; simp [h]
    · rw [if_neg h]; simp [h]

theorem expectedPcr_eq (p : Prims) (kind : Kind) (h k : Bytes) : expectedPcr p kind h k = committed p kind h k := by
  simp [expectedPcr, pcrExtend, committed, commitment, zeroPcr]

theorem comparePcr_iff (d : AttestationDoc) (i : Nat) (x : Bytes) (m : AttestError)
    (f : String → String → AttestError) : comparePcr d i x m f = .ok () ↔ d.pcr i = some x := by
  unfold comparePcr
  cases d.pcr i with
  | none => simp
  | some y =>
    by_cases h : x = y <;> simp [h, eq_comm]

theorem verifyUserInput_iff (d : AttestationDoc) (u p0 p1 p2 p3 : Bytes) :
    verifyUserInput d u p0 p1 p2 p3 = .ok () ↔
      d.userData = some u ∧ d.nonce = none ∧ d.pcr 0 = some p0 ∧ d.pcr 1 = some p1 ∧ d.pcr 2 = some p2 ∧
        d.pcr 3 = some p3 := by
  unfold verifyUserInput
  cases hu : d.userData with
  | none => simp
  | some v =>
    simp only
    by_cases h : u = v
    · rw [if_neg (by simpa using h)]
      by_cases hn : d.nonce.isSome
      · rw [if_pos hn]
        constructor
        · intro h; cases h
        · rintro ⟨_, h', _⟩; rw [h'] at hn; cases hn
      · rw [if_neg hn]
        simp only [bind_unit_ok, comparePcr_iff]
        simp [h] at hn ⊢
        simp [hn]
    · rw [if_pos h]
      constructor
      · intro h; cases h
      · rintro ⟨h', _⟩; cases h'; exact absurd rfl h

/-- **C29.** Verification against a manifest is exact. -/
theorem verify_manifest_exact (p : Prims) (kind : Kind) (d : AttestationDoc) (i : Input) :
    verifyManifest p kind d i = .ok () ↔ ∃ key, Matches p kind d i key := by
  unfold verifyManifest
  rw [bind_unit_ok, verifyUserInput_iff]
  unfold verifyCommitment
  constructor
  · rintro ⟨⟨h1, h2, h3, h4, h5, h6⟩, hc⟩
    split at hc
    · cases hc
    rename_i hm
    rw [firstMissing_none] at hm
    split at hc
    · cases hc
    rename_i k hk
    split at hc
    · cases hc
    rename_i a ha
    split at hc
    · cases hc
    rename_i he
    simp only [ne_eq, not_not, expectedPcr_eq] at he
    refine ⟨k, h1, h2, h3, h4, h5, h6, fun n hn => hm n (by simpa using hn), hk, ?_⟩
    cases kind <;> simpa [Kind.pcrIndex, he] using ha
  · rintro ⟨k, h⟩
    refine ⟨⟨h.userData, h.nonce, h.pcr0, h.pcr1, h.pcr2, h.pcr3⟩, ?_⟩
    have hm : firstMissing d (List.range 32) = none :=
      (firstMissing_none _ _).2 fun n hn => h.allPcrs n (by simpa using hn)
    have hc : d.pcr kind.pcrIndex = some (committed p kind i.manifestHash k) := by
      have := h.commitment
      cases kind <;> exact this
    simp [hm, h.publicKey, hc, expectedPcr_eq]

theorem hexString_injective (a b : Bytes) (h : hexString a = hexString b) : a = b := by
  unfold hexString at h
  have h1 := String.ofList_injective h
  apply Hex.hex_encode_injective
  have inj : Function.Injective (fun x : UInt8 => Char.ofNat x.toNat) := by
    intro x y hxy
    have := congrArg Char.toNat hxy
    simp only [P256.charOf_toNat] at this
    exact UInt8.toNat_inj.1 this
  exact List.map_injective_iff.2 inj h1

/-- The pre-image exists: the `expect` in the code is never reached. -/
theorem preimage_defined (kind : Kind) (h k : Bytes) :
    Json.canonBytes (.obj [("domain", .str kind.domain), ("manifestHash", .str (hexString h)),
      ("ephemeralPublicKey", .str (hexString k))]) = some (preimage kind h k) := by
  have hu : Json.UniqueKeys (.obj [("domain", .str kind.domain), ("manifestHash", .str (hexString h)),
      ("ephemeralPublicKey", .str (hexString k))]) := by
    simp [Json.UniqueKeys, Json.UniqueKeysObj]
  have : Json.canonBytes (.obj [("domain", .str kind.domain), ("manifestHash", .str (hexString h)),
      ("ephemeralPublicKey", .str (hexString k))]) ≠ none := by
    simp [Json.canonBytes, Json.canon, Json.canonObj, Json.isNull]
  unfold preimage
  cases hc : Json.canonBytes (.obj [("domain", .str kind.domain), ("manifestHash", .str (hexString h)),
      ("ephemeralPublicKey", .str (hexString k))]) with
  | none => exact absurd hc this
  | some b => rfl

/-- **C29.** Pre-images are injective in (kind, manifest hash, key). -/
theorem preimage_injective (kind kind' : Kind) (h h' k k' : Bytes)
    (he : preimage kind h k = preimage kind' h' k') : kind = kind' ∧ h = h' ∧ k = k' := by
  have hu : ∀ kind h k, Json.UniqueKeys (.obj [("domain", .str (Kind.domain kind)),
      ("manifestHash", .str (hexString h)), ("ephemeralPublicKey", .str (hexString k))]) := by
    intro kind h k; simp [Json.UniqueKeys, Json.UniqueKeysObj]
  have key := (Json.canonical_eq_iff _ _ (hu kind h k) (hu kind' h' k') (preimage_defined kind h k)
    (preimage_defined kind' h' k')).1 he
  have k1 := key [.key "domain"]
  have k2 := key [.key "manifestHash"]
  have k3 := key [.key "ephemeralPublicKey"]
  simp [Json.observe, Json.lookup, Json.shape] at k1 k2 k3
  refine ⟨?_, hexString_injective _ _ k2, hexString_injective _ _ k3⟩
  cases kind <;> cases kind' <;> first | rfl | (exfalso; revert k1; decide +kernel)

/-- **C29.** Two different commitments give the same register value only through a SHA-384 collision. -/
theorem commitment_collision (p : Prims) (hp : p.Laws) (kind kind' : Kind) (h h' k k' : Bytes)
    (he : committed p kind h k = committed p kind' h' k') :
    (kind = kind' ∧ h = h' ∧ k = k') ∨ ∃ x y, x ≠ y ∧ p.sha384 x = p.sha384 y := by
  by_cases hs : preimage kind h k = preimage kind' h' k'
  · exact .inl (preimage_injective _ _ _ _ _ _ hs)
  · right
    by_cases hc : p.sha384 (preimage kind h k) = p.sha384 (preimage kind' h' k')
    · exact ⟨_, _, hs, hc⟩
    · refine ⟨_, _, ?_, he⟩
      intro h; exact hc (List.append_cancel_left h)

/-- **C29.** A document that verifies for both a setup and a live commitment under the same register value
exhibits a SHA-384 collision; in particular a bank holding one commitment in both registers is impossible
without one. -/
theorem setup_live_not_interchangeable (p : Prims) (hp : p.Laws) (d : AttestationDoc) (i j : Input)
    (hs : verifyManifest p .setup d i = .ok ()) (hl : verifyManifest p .live d j = .ok ())
    (same : d.pcr 16 = d.pcr 17) : ∃ x y, x ≠ y ∧ p.sha384 x = p.sha384 y := by
  obtain ⟨k, hk⟩ := (verify_manifest_exact ..).1 hs
  obtain ⟨k', hk'⟩ := (verify_manifest_exact ..).1 hl
  have h1 := hk.commitment
  have h2 := hk'.commitment
  simp only at h1 h2
  rw [same, h2] at h1
  rcases commitment_collision p hp _ _ _ _ _ _ (Option.some.inj h1) with h | h
  · exact absurd h.1 (by decide)
  · exact h

/-- **C29.** The key of a verified document is the committed one: two documents verified for the same kind and
manifest with the same register value carry the same key, up to a SHA-384 collision. -/
theorem attested_key_unique (p : Prims) (hp : p.Laws) (kind : Kind) (d d' : AttestationDoc) (i j : Input)
    (hs : verifyManifest p kind d i = .ok ()) (hl : verifyManifest p kind d' j = .ok ())
    (same : d.pcr kind.pcrIndex = d'.pcr kind.pcrIndex) :
    (d.publicKey = d'.publicKey ∧ i.manifestHash = j.manifestHash) ∨ ∃ x y, x ≠ y ∧ p.sha384 x = p.sha384 y := by
  obtain ⟨k, hk⟩ := (verify_manifest_exact ..).1 hs
  obtain ⟨k', hk'⟩ := (verify_manifest_exact ..).1 hl
  have h1 := hk.commitment
  have h2 := hk'.commitment
  have hcc : committed p kind i.manifestHash k = committed p kind j.manifestHash k' := by
    cases kind <;> simp only [Kind.pcrIndex] at h1 h2 same <;> rw [same, h2] at h1 <;>
      exact (Option.some.inj h1).symm
  rcases commitment_collision p hp _ _ _ _ _ _ hcc with h | h
  · exact .inl ⟨by rw [hk.publicKey, hk'.publicKey, h.2.2], h.2.1⟩
  · exact .inr h

/-- A document that matches: 32 registers, registers 16 and 17 holding the setup and live commitments. -/
def goodDoc (p : Prims) (hash key : Bytes) : AttestationDoc where
  moduleId := "m"
  digest := .sha384
  timestamp := 1
  pcrs := (List.range 32).map fun n => (n, if n = 16 then committed p .setup hash key
    else if n = 17 then committed p .live hash key else [UInt8.ofNat n])
  certificate := []
  cabundle := [[1]]
  publicKey := some key
  userData := some hash
  nonce := none

theorem goodDoc_pcr (p : Prims) (hash key : Bytes) (n : Nat) (hn : n < 32) : (goodDoc p hash key).pcr n =
    some (if n = 16 then committed p .setup hash key
      else if n = 17 then committed p .live hash key else [UInt8.ofNat n]) := by
  have : n ∈ List.range 32 := by simpa using hn
  revert n
  simp only [AttestationDoc.pcr, goodDoc]
  intro n hn hm
  rcases n with _ | _ | _ | _ | _ | _ | _ | _ | _ | _ | _ | _ | _ | _ | _ | _ | _ | _ | _ | _ | _ | _ | _ | _ | _ |
    _ | _ | _ | _ | _ | _ | _ | n
  all_goals first | rfl | (exfalso; omega)

/-- Non-vacuity of C29, for every hash, key and any primitives: the document verifies for both kinds. -/
theorem goodDoc_matches (p : Prims) (kind : Kind) (hash key : Bytes) :
    verifyManifest p kind (goodDoc p hash key) ⟨hash, [0], [1], [2], [3]⟩ = .ok () := by
  refine (verify_manifest_exact ..).2 ⟨key, rfl, rfl, ?_, ?_, ?_, ?_, ?_, rfl, ?_⟩
  · exact goodDoc_pcr p hash key 0 (by omega)
  · exact goodDoc_pcr p hash key 1 (by omega)
  · exact goodDoc_pcr p hash key 2 (by omega)
  · exact goodDoc_pcr p hash key 3 (by omega)
  · intro n hn; rw [goodDoc_pcr p hash key n hn]; rfl
  · cases kind
    · exact goodDoc_pcr p hash key 16 (by omega)
    · exact goodDoc_pcr p hash key 17 (by omega)

end Qos.Attest
