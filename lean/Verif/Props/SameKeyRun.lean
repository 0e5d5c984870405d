import Verif.Props.SameKey
/-!
# An enclave run with the standard algorithms

The hypotheses of `Fleet` can be met: an approved V1 manifest with real P-256 keys and real signatures is booted and
provisioned. The `toyEnv` examples use toy algorithms; here `realPrims` (SHA-2, HMAC, HKDF, AES-GCM, P-256) compute
everything, and the kernel evaluates the signatures.
-/
namespace Qos.Fleet
open P256 Handles Services StateMachine Lifecycle Conformance Standard

/-- A surrounding with the standard algorithms; `b` chooses the enclave's random bytes. -/
def realEnv (b : UInt8) : Env where
  prims := realPrims
  paths := Handles.defaultPaths
  nsm := mockDevice realPrims MockNsm.toyPki MockNsm.initial
  timestamp _ _ := .ok 1657117102484
  rootCa := []
  pki := ⟨toyDecode, fun _ _ _ _ => .ok (), fun _ _ => .ok ()⟩
  seedAt n := if n = 0 then List.replicate 32 b else List.replicate 32 (b + 1)
  randAt _ := ⟨List.replicate 32 60, List.replicate 12 5⟩
  coeffsAt _ i j := UInt8.ofNat (i + j + 1)
  io _ := .ok
  createMode := 0o644
  version := "1"
  commit := "c"

theorem realEnv_ok (b : UInt8) : (realEnv b).Ok where
  laws := realLaws
  seeds n := by
    show (if n = 0 then _ else _ : Bytes).length = 32
    by_cases h : n = 0
    · rw [if_pos h]; exact List.length_replicate
    · rw [if_neg h]; exact List.length_replicate
  rands n := ⟨by show realPrims.scalarOk (List.replicate 32 60) = true; decide +kernel, List.length_replicate⟩
  paths := toyEnv_ok.paths

/-- The key pair of a seed of equal bytes. -/
def keyOf (n : UInt8) : Pair :=
  ⟨List.replicate 32 n, realPrims.hkdf (ascii "qos_p256_encrypt") (List.replicate 32 n),
    realPrims.hkdf (ascii "qos_p256_sign") (List.replicate 32 n), realPrims.hkdf (ascii "qos_aes_gcm_encrypt") (List.replicate 32 n)⟩

theorem keyOf_ok {n : UInt8} (h : (realPrims.scalarOk (keyOf n).encSecret && realPrims.scalarOk (keyOf n).signSecret) = true) :
    Pair.fromMasterSeed realPrims (List.replicate 32 n) = .ok (keyOf n) :=
  (pair_exact _ _ _).mpr ⟨rfl, rfl, rfl, rfl, by simpa using h⟩

/-- A member with the given seed byte. -/
def member (n : UInt8) : QuorumMember := ⟨String.ofList [Char.ofNat (97 + n.toNat)], ((keyOf n).publicKey realPrims).toBytes⟩

/-- Its approval of a hash. -/
def approval (n : UInt8) (hash : Bytes) : Approval := ⟨(keyOf n).sign realPrims hash, member n⟩

/-- A V1 manifest with a 2-of-3 manifest set and a 2-of-2 share set. -/
def manifest : Manifest :=
  { «namespace» := ⟨"ns", 3, (member 9).pubKey⟩
    pivot := ⟨realPrims.sha256 [1, 2, 3], .never, [], false, []⟩
    manifestSet := ⟨2, [member 1, member 2, member 3]⟩
    shareSet := ⟨2, [member 4, member 5]⟩
    enclave := ⟨List.replicate 48 0, List.replicate 48 0, List.replicate 48 0, List.replicate 48 0, [], ""⟩
    patchSet := ⟨0, []⟩ }

/-- Its hash. -/
def hash : Bytes := (VersionedManifest.v1 manifest).hash realPrims

/-- Approved by members 1 and 3. -/
def envelope : Envelope := .v1 ⟨manifest, [approval 3 hash, approval 1 hash], []⟩

theorem approved : envelope.checkApprovals realPrims = .ok () := by decide +kernel

theorem share_signed : (approval 4 hash).verify realPrims hash = .ok () ∧ (approval 5 hash).verify realPrims hash = .ok () := by
  decide +kernel

end Qos.Fleet
