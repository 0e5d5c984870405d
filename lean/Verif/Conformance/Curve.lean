import Verif.Conformance.Sha
/-!
# NIST P-256: points, ECDH, ECDSA (RFC 6979), computable by the kernel

Not part of the model: see `Sha.lean`.
-/
namespace Qos.Conformance

/-- The field prime. -/
def fp : Nat := 0xffffffff00000001000000000000000000000000ffffffffffffffffffffffff
/-- The order of the group. -/
def fn : Nat := 0xffffffff00000000ffffffffffffffffbce6faada7179e84f3b9cac2fc632551
/-- The constant term of the curve equation `y² = x³ - 3x + b`. -/
def fb : Nat := 0x5ac635d8aa3a93e7b3ebbd55769886bc651d06b0cc53b0f63bce3c3e27d2604b
/-- Base point. -/
def gx : Nat := 0x6b17d1f2e12c4247f8bce6e563a440f277037d812deb33a0f4a13945d898c296
/-- Base point. -/
def gy : Nat := 0x4fe342e2fe1a7f9b8ee7eb4a7c0f9e162bce33576b315ececbb6406837bf51f5

/-- A point in Jacobian coordinates; `z = 0` is the point at infinity. -/
structure Pt where
  (x y z : Nat)

/-- Doubling, for `a = -3`. -/
def Pt.dbl : Pt → Pt
  | ⟨x, y, z⟩ =>
    force (z * z % fp) fun d =>
    force (y * y % fp) fun g =>
    force (x * g % fp) fun b =>
    force (3 * ((x + fp - d) * (x + d)) % fp) fun a =>
    force ((a * a + 8 * (fp - b)) % fp) fun x3 =>
    force (((y + z) * (y + z) + (fp - g) + (fp - d)) % fp) fun z3 =>
    force ((a * (4 * b + (fp - x3)) + 8 * (fp - g) * g) % fp) fun y3 =>
    ⟨x3, y3, z3⟩

/-- Addition. -/
def Pt.add : Pt → Pt → Pt
  | ⟨x1, y1, z1⟩, ⟨x2, y2, z2⟩ =>
    if z1 = 0 then ⟨x2, y2, z2⟩ else if z2 = 0 then ⟨x1, y1, z1⟩ else
    force (z1 * z1 % fp) fun z11 =>
    force (z2 * z2 % fp) fun z22 =>
    force (x1 * z22 % fp) fun u1 =>
    force (x2 * z11 % fp) fun u2 =>
    force (y1 * z2 * z22 % fp) fun s1 =>
    force (y2 * z1 * z11 % fp) fun s2 =>
    if u1 = u2 then (if s1 = s2 then Pt.dbl ⟨x1, y1, z1⟩ else ⟨1, 1, 0⟩) else
    force ((u2 + (fp - u1)) % fp) fun h =>
    force ((s2 + (fp - s1)) % fp) fun r =>
    force (h * h % fp) fun hh =>
    force (h * hh % fp) fun hhh =>
    force (u1 * hh % fp) fun v =>
    force ((r * r + (fp - hhh) + 2 * (fp - v)) % fp) fun x3 =>
    force ((r * (v + (fp - x3)) + s1 * (fp - hhh)) % fp) fun y3 =>
    force (h * z1 * z2 % fp) fun z3 =>
    ⟨x3, y3, z3⟩

/-- The top `n` bits of `k` below `2 ^ n`, most significant first. -/
def Pt.mulFrom (q : Pt) (k : Nat) : Nat → Pt → Pt
  | 0, acc => acc
  | n + 1, acc =>
    match acc.dbl with
    | ⟨x, y, z⟩ => if (k >>> n) % 2 = 1 then q.mulFrom k n (Pt.add ⟨x, y, z⟩ q) else q.mulFrom k n ⟨x, y, z⟩

/-- `k` times `q`, for `k < 2 ^ 256`. -/
def Pt.mul (k : Nat) (q : Pt) : Pt := force k fun k => q.mulFrom k 256 ⟨1, 1, 0⟩

/-- `b ^ e` modulo `m`, for `e < 2 ^ n`. -/
def powMod (m b e : Nat) : Nat → Nat → Nat
  | 0, acc => acc
  | n + 1, acc => force (acc * acc % m) fun s =>
    if (e >>> n) % 2 = 1 then force (s * b % m) fun t => powMod m b e n t else powMod m b e n s

/-- Inverse modulo a prime of 256 bits. -/
def inv (m x : Nat) : Nat := powMod m x (m - 2) 256 1

/-- Affine coordinates. -/
def Pt.affine : Pt → Option (Nat × Nat)
  | ⟨x, y, z⟩ => if z = 0 then none else
    force (inv fp z) fun i => force (i * i % fp) fun i2 => force (x * i2 % fp) fun x => force (y * i2 * i % fp) fun y => some (x, y)

/-- The base point. -/
def base : Pt := ⟨gx, gy, 1⟩

/-- `SecretKey::from_slice`: 32 bytes, between 1 and the order minus 1. -/
def scalarOk (s : List UInt8) : Bool := s.length == 32 && 0 < ofBe s && ofBe s < fn

/-- Uncompressed SEC1 bytes. -/
def sec1 : Option (Nat × Nat) → List UInt8
  | some (x, y) => 4 :: (be 32 x ++ be 32 y)
  | none => [0]

/-- Public point of a scalar. -/
def point (s : List UInt8) : List UInt8 := sec1 (Pt.mul (ofBe s) base).affine

/-- `PublicKey::from_sec1_bytes` on 65 bytes: uncompressed, reduced coordinates, on the curve. -/
def readPoint : List UInt8 → Option (Nat × Nat)
  | 4 :: r => force (ofBe (r.take 32)) fun x => force (ofBe (r.drop 32)) fun y =>
    if r.length = 64 ∧ x < fp ∧ y < fp ∧ y * y % fp = (x * x * x + (fp - 3) * x + fb) % fp then some (x, y) else none
  | _ => none

/-- ECDH: the `x` coordinate of the shared point. -/
def dh (s p : List UInt8) : List UInt8 :=
  match readPoint p with
  | some (x, y) => match (Pt.mul (ofBe s) ⟨x, y, 1⟩).affine with
    | some (x, _) => be 32 x
    | none => []
  | none => []

/-- The two halves of a fixed-width signature, both between 1 and the order minus 1. -/
def readSig (sig : List UInt8) : Option (Nat × Nat) :=
  force (ofBe (sig.take 32)) fun r => force (ofBe (sig.drop 32)) fun s =>
    if sig.length = 64 ∧ 0 < r ∧ r < fn ∧ 0 < s ∧ s < fn then some (r, s) else none

/-- ECDSA verification of a message hashed with SHA-256 (FIPS 186-4, 6.4). -/
def ecdsaVerify (key msg sig : List UInt8) : Bool :=
  match readPoint key, readSig sig with
  | some (x, y), some (r, s) =>
    force (inv fn s) fun w =>
    force (ofBe (sha256 msg) * w % fn) fun u1 =>
    force (r * w % fn) fun u2 =>
    match (Pt.add (Pt.mul u1 base) (Pt.mul u2 ⟨x, y, 1⟩)).affine with
    | some (x, _) => x % fn == r
    | none => false
  | _, _ => false

/-- ECDSA with the nonce `k`: nothing if the nonce or one half of the signature is out of range (FIPS 186-4, 6.3). -/
def signWith (h d k : Nat) : Option (List UInt8) :=
  if 0 < k ∧ k < fn then
    match (Pt.mul k base).affine with
    | some (x, _) =>
      force (x % fn) fun r => force (inv fn k * ((h + r * d) % fn) % fn) fun s =>
        if r = 0 ∨ s = 0 then none else some (be 32 r ++ be 32 s)
    | none => none
  else none

/-- The nonce candidates of RFC 6979, 3.2, step h. RFC 6979 tries candidates for ever; here there is a bound, after
which the nonces 1 and 2 are tried (one of them works). -/
def signFrom (h d : Nat) : Nat → List UInt8 → List UInt8 → List UInt8
  | 0, _, _ => ((signWith h d 1).or (signWith h d 2)).getD []
  | n + 1, k, v =>
    match signWith h d (ofBe (hmac256 k v)) with
    | some sig => sig
    | none => signFrom h d n (hmac256 k (hmac256 k v ++ [0])) (hmac256 (hmac256 k (hmac256 k v ++ [0])) (hmac256 k v))

/-- The state of RFC 6979, 3.2 after step g, with HMAC-SHA256. -/
def nonceState (secret : List UInt8) (hash : Nat) : List UInt8 × List UInt8 :=
  let x := secret ++ be 32 (hash % fn)
  let v := List.replicate 32 1
  let k := hmac256 (List.replicate 32 0) (v ++ 0 :: x)
  let v := hmac256 k v
  let k := hmac256 k (v ++ 1 :: x)
  (k, hmac256 k v)

/-- Deterministic ECDSA (RFC 6979) of a message hashed with SHA-256. The first nonce candidate is usable except with
probability 2^-32, and the bound of eight candidates is not reached except with probability 2^-256. -/
def ecdsaSign (secret msg : List UInt8) : List UInt8 :=
  force (ofBe (sha256 msg)) fun h => signFrom h (ofBe secret) 8 (nonceState secret h).1 (nonceState secret h).2

end Qos.Conformance
