import Verif.Conformance.RealPrimes
import Verif.Conformance.Real
/-!
# Sizes of the digests, and AES-256-GCM decrypts what it encrypted

Not part of the model: see `Sha.lean`.
-/
namespace Qos.Conformance

theorem split_length (k n : Nat) : (split k n).length = k := by
  induction k with
  | zero => rfl
  | succ k ih => simp only [split, force_eq, List.length_cons, ih]

theorem be_length (k n : Nat) : (be k n).length = k := by
  induction k with
  | zero => rfl
  | succ k ih => simp only [be, force_eq, List.length_cons, ih]

theorem digestOf_length (p : Sha) (s : Words) (n : Nat) (m : List Nat) : (digestOf p s n m).length = 8 * (p.bits / 8) := by
  simp only [digestOf, List.flatMap_cons, List.flatMap_nil, List.length_append, List.length_nil, split_length]
  omega

theorem sha_length (p : Sha) (s : Words) (n : Nat) (m : List Nat) : (sha p s n m).length = 8 * (p.bits / 8) := by
  rw [sha, force_eq, digestOf_length]

theorem sha256N_length (m : List Nat) : (sha256N m).length = 32 := by
  rw [sha256N, force_eq, sha_length]; rfl

theorem sha512N_length (m : List Nat) : (sha512N m).length = 64 := by
  rw [sha512N, force_eq, sha_length]; rfl

theorem sha256_length (m : List UInt8) : (sha256 m).length = 32 := by
  rw [sha256, bytesOf, List.length_map, sha256N_length]

theorem sha512_length (m : List UInt8) : (sha512 m).length = 64 := by
  rw [sha512, bytesOf, List.length_map, sha512N_length]

theorem sha384_length (m : List UInt8) : (sha384 m).length = 48 := by
  rw [sha384, bytesOf, List.length_map, List.length_take, force_eq, sha_length]; rfl

theorem hmac512_length (k m : List UInt8) : (hmac512 k m).length = 64 := by
  rw [hmac512, bytesOf, List.length_map, hmacN]
  split <;> rw [hmacShort, sha512N_length]

theorem keystream_length (ks : List Nat) (nonce n i : Nat) : (keystream ks nonce n i).length = 16 * n := by
  induction n generalizing i with
  | zero => rfl
  | succ n ih => rw [keystream, List.length_append, be_length, ih]; omega

theorem xorStream_length (a b : List UInt8) (h : a.length ≤ b.length) : (xorStream a b).length = a.length := by
  induction a generalizing b with
  | nil => cases b <;> rfl
  | cons x a ih =>
    cases b with
    | nil => exact absurd h (by simp)
    | cons y b => rw [xorStream, List.length_cons, List.length_cons, ih b (by simpa using h)]

theorem xorStream_twice (a b : List UInt8) (h : a.length ≤ b.length) : xorStream (xorStream a b) b = a := by
  induction a generalizing b with
  | nil => cases b <;> rfl
  | cons x a ih =>
    cases b with
    | nil => exact absurd h (by simp)
    | cons y b =>
      rw [xorStream, xorStream, ih b (by simpa using h), UInt8.xor_assoc, UInt8.xor_self, UInt8.xor_zero]

theorem ctr_length (k n m : List UInt8) : (ctr k n m).length = m.length := by
  rw [ctr, xorStream_length]
  rw [keystream_length]; omega

theorem ctr_twice (k n m : List UInt8) : ctr k n (ctr k n m) = m := by
  have h := ctr_length k n m
  rw [ctr, h]
  rw [ctr, xorStream_twice]
  rw [keystream_length]; omega

theorem gcmTag_length (k n ad ct : List UInt8) : (gcmTag k n ad ct).length = 16 := by
  rw [gcmTag, force_eq, be_length]

theorem aesEnc_iff (k n ad m c : List UInt8) : aesEnc k n ad m = some c ↔
    k.length = 32 ∧ n.length = 12 ∧ c = ctr k n m ++ gcmTag k n ad (ctr k n m) := by
  rw [aesEnc]
  split
  · rename_i h
    constructor
    · intro e; exact ⟨h.1, h.2, (Option.some.inj e).symm⟩
    · intro e; rw [e.2.2]
  · rename_i h
    constructor
    · intro e; cases e
    · intro e; exact absurd ⟨e.1, e.2.1⟩ h

/-- Decryption undoes encryption. -/
theorem aesDec_aesEnc (k n ad m c : List UInt8) (h : aesEnc k n ad m = some c) : aesDec k n ad c = some m := by
  obtain ⟨hk, hn, rfl⟩ := (aesEnc_iff k n ad m c).mp h
  have hl : (ctr k n m ++ gcmTag k n ad (ctr k n m)).length - 16 = (ctr k n m).length := by
    rw [List.length_append, gcmTag_length]; omega
  have hg : 16 ≤ (ctr k n m ++ gcmTag k n ad (ctr k n m)).length := by
    rw [List.length_append, gcmTag_length]; omega
  rw [aesDec, hl, List.take_left, List.drop_left, if_pos ⟨hk, hn, hg, rfl⟩, ctr_twice]

/-- Decryption accepts exactly what encryption produces: nothing else carries the right tag. -/
theorem aesDec_iff (k n ad m c : List UInt8) : aesDec k n ad c = some m ↔ aesEnc k n ad m = some c := by
  refine ⟨fun h => ?_, aesDec_aesEnc k n ad m c⟩
  rw [aesDec] at h
  split at h
  · rename_i hc
    obtain ⟨hk, hn, hl, ht⟩ := hc
    have hm := (Option.some.inj h).symm
    rw [aesEnc_iff]
    refine ⟨hk, hn, ?_⟩
    rw [hm, ctr_twice, ht, List.take_append_drop]
  · cases h

theorem aesEnc_ok (k n ad m : List UInt8) (hk : k.length = 32) (hn : n.length = 12) :
    ∃ c, aesEnc k n ad m = some c ∧ c.length = m.length + 16 :=
  ⟨_, (aesEnc_iff k n ad m _).mpr ⟨hk, hn, rfl⟩, by rw [List.length_append, gcmTag_length, ctr_length]⟩

end Qos.Conformance
