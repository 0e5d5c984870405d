import Verif.Model.Basic
/-!
# Shamir secret sharing over GF(2^8)

`/repo/src/qos_crypto/src/shamir.rs:16-44` delegates to `vsss_rs::Gf256::{split_array, combine_array}`, whose
source is not in the repository. The model below is the documented scheme of that crate: bytes are shared
independently with random polynomials of degree `threshold - 1` over GF(2^8) (AES polynomial
x^8 + x^4 + x^3 + x + 1), identifiers are 1, 2, …, a share is the identifier followed by the values, and
reconstruction interpolates at 0 after rejecting too few shares, unequal lengths, zero and repeated
identifiers. The random coefficients are a parameter.
-/
namespace Qos.Shamir

/-- Multiplication by x. External crate `vsss_rs`, called at shamir.rs:17-26. -/
def xtime (a : UInt8) : UInt8 := (a <<< 1) ^^^ (if a &&& 128 = 128 then 0x1b else 0)

/-- Shift-and-add multiplication, `n` bits of `b`. External crate `vsss_rs`, called at shamir.rs:17-26. -/
def mulBits : Nat → UInt8 → UInt8 → UInt8
  | 0, _, _ => 0
  | n + 1, a, b => (if b &&& 1 = 1 then a else 0) ^^^ mulBits n (xtime a) (b >>> 1)

/-- Product in GF(2^8). External crate `vsss_rs`, called at shamir.rs:17-26. -/
def mul (a b : UInt8) : UInt8 := mulBits 8 a b

/-- Power. External crate `vsss_rs`, called at shamir.rs:17-26. -/
def pow (a : UInt8) : Nat → UInt8
  | 0 => 1
  | n + 1 => mul a (pow a n)

/-- Inverse: the 254th power (0 for 0). External crate `vsss_rs`, called at shamir.rs:17-26. -/
def inv (a : UInt8) : UInt8 := pow a 254

/-- Value of a polynomial, lowest coefficient first. External crate `vsss_rs`, called at shamir.rs:17-26. -/
def eval (x : UInt8) : List UInt8 → UInt8
  | [] => 0
  | c :: cs => c ^^^ mul x (eval x cs)

/-- One share: the identifier, then for each byte of the secret the value of its polynomial. `coeffs j` are the
random coefficients (degrees 1, 2, …) for byte `j`. External crate `vsss_rs`, called at shamir.rs:17-26. -/
def shareBytes (coeffs : Nat → List UInt8) (x : UInt8) : Nat → Bytes → Bytes
  | _, [] => []
  | j, b :: bs => eval x (b :: coeffs j) :: shareBytes coeffs x (j + 1) bs

/-- `Gf256::split_array`; error texts are the crate's error names. The polynomial of each byte has
`threshold - 1` random coefficients. External crate `vsss_rs`, called at shamir.rs:17-26. -/
def splitArray (threshold limit : Nat) (secret : Bytes) (coeffs : Nat → Nat → UInt8) :
    Except String (List Bytes) :=
  if limit > 255 then .error "InvalidSizeRequest"
  else if secret.isEmpty then .error "InvalidSecret"
  else if threshold < 2 then .error "SharingMinThreshold"
  else if limit < threshold then .error "SharingLimitLessThanThreshold"
  else .ok ((List.range limit).map fun i =>
    UInt8.ofNat (i + 1) ::
      shareBytes (fun j => (List.range (threshold - 1)).map (coeffs j)) (UInt8.ofNat (i + 1)) 0 secret)

/-- Lagrange basis at 0 for the point `x` among the identifiers `xs`.
External crate `vsss_rs`, called at shamir.rs:33-41. -/
def basis (x : UInt8) : List UInt8 → UInt8
  | [] => 1
  | y :: ys => if y = x then basis x ys else mul (mul y (inv (y ^^^ x))) (basis x ys)

/-- Interpolation at 0 of the points `pts`. External crate `vsss_rs`, called at shamir.rs:33-41. -/
def interpolate (xs : List UInt8) : List (UInt8 × UInt8) → UInt8
  | [] => 0
  | (x, y) :: pts => mul y (basis x xs) ^^^ interpolate xs pts

/-- Identifier of a share (first byte). External crate `vsss_rs`, called at shamir.rs:33-41. -/
def ident (s : Bytes) : UInt8 := s.headD 0

/-- `Gf256::combine_array`. External crate `vsss_rs`, called at shamir.rs:33-41. -/
def combineArray (shares : List Bytes) : Except String Bytes :=
  if shares.length < 2 then .error "SharingMinThreshold"
  else if (shares.headD []).length < 2 then .error "InvalidShare"
  else if shares.any (fun s => s.length ≠ (shares.headD []).length) then .error "InvalidShare"
  else if shares.any (fun s => ident s = 0) then .error "SharingInvalidIdentifier"
  else if (shares.map ident).Nodup then
    .ok ((List.range ((shares.headD []).length - 1)).map fun j =>
      interpolate (shares.map ident) (shares.map fun s => (ident s, s.getD (j + 1) 0)))
  else .error "SharingDuplicateIdentifier"

/-- `shares_generate` (shamir.rs:17-26): secret, share count, threshold. -/
def sharesGenerate (secret : Bytes) (count threshold : Nat) (coeffs : Nat → Nat → UInt8) :
    Except String (List Bytes) := splitArray threshold count secret coeffs

/-- `shares_reconstruct` (shamir.rs:33-41). -/
def sharesReconstruct (shares : List Bytes) : Except String Bytes := combineArray shares

end Qos.Shamir
