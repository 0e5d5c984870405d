import Verif.Spec.Device
import Verif.Props.Approvals
import Verif.Props.Nsm
/-!
# A concrete surrounding for the examples

Lawful toy primitives, the NSM model as device, no I/O failures. Used only in `example`s and in theorems that
refute a natural expectation.
-/
namespace Qos

/-- Decodes what `toyPki` signs, for post-boot documents. -/
def toyDecode (b : Bytes) : Except AttestError AttestationDoc :=
  if b.length ≠ 258 then .error .invalidCOSESign1Structure
  else .ok (MockNsm.attestationDoc MockNsm.toyPki
    ⟨32, fun i => if i = 16 then some ((b.drop 162).take 48) else if i = 17 then some (b.drop 210) else none,
      fun _ => true⟩ (some ((b.drop 130).take 32)) none (some (b.take 130)))

/-- A surrounding. -/
def toyEnv : Env where
  prims := P256.toyPrims
  paths := Handles.defaultPaths
  nsm := mockDevice P256.toyPrims MockNsm.toyPki MockNsm.initial
  timestamp _ _ := .ok 1657117102484
  rootCa := []
  pki := ⟨toyDecode, fun _ _ _ _ => .ok (), fun _ _ => .ok ()⟩
  seedAt n := List.replicate 32 (UInt8.ofNat (n + 40))
  randAt n := ⟨List.replicate 32 (UInt8.ofNat (n + 60)), List.replicate 12 (UInt8.ofNat n)⟩
  coeffsAt _ i j := UInt8.ofNat (i + j + 1)
  io _ := .ok
  createMode := 0o644
  version := "1"
  commit := "c"

/-- No files. -/
def noFiles : Files := fun _ => none

end Qos
