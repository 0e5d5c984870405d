import Verif.Model.Hex
/-!
# SHA-2, HMAC and HKDF, computable by the kernel

Not part of the model: the property theorems are about every `Prims`. These are the standard functions (FIPS 180-4,
RFC 2104, RFC 5869), written so that the kernel can run them, and used only to replay the repository's test vectors
and fixtures on the model.
-/
namespace Qos.Conformance

/-- Run `k` on `n` after `n` has been computed. -/
def force {α : Sort _} (n : Nat) (k : Nat → α) : α :=
  match n with
  | 0 => k 0
  | m + 1 => k (Nat.succ m)

/-- `n`, big-endian, in `k` bytes. -/
def be : Nat → Nat → List UInt8
  | 0, _ => []
  | k + 1, n => force ((n >>> (8 * k)) % 256) fun b => UInt8.ofNat b :: be k n

/-- Big-endian number, from an accumulator. -/
def ofBeFrom : Nat → List UInt8 → Nat
  | a, [] => a
  | a, b :: r => force (a * 256 + b.toNat) fun a => ofBeFrom a r

/-- Big-endian number. -/
def ofBe (bs : List UInt8) : Nat := ofBeFrom 0 bs

/-- Right rotation of an `s`-bit word. -/
def rotr (s n x : Nat) : Nat := (x >>> n) ||| ((x <<< (s - n)) % 2 ^ s)

/-- What SHA-256 and SHA-512 differ in: word size, message rotations and shift, round rotations, round constants. -/
structure Sha where
  bits : Nat
  (s0a s0b s0c s1a s1b s1c e0a e0b e0c e1a e1b e1c : Nat)
  ks : List Nat

/-- FIPS 180-4, 4.1.2 and 4.2.2. -/
def sha256Params : Sha := ⟨32, 7, 18, 3, 17, 19, 10, 2, 13, 22, 6, 11, 25, [
  0x428a2f98,0x71374491,0xb5c0fbcf,0xe9b5dba5,0x3956c25b,0x59f111f1,0x923f82a4,0xab1c5ed5,
  0xd807aa98,0x12835b01,0x243185be,0x550c7dc3,0x72be5d74,0x80deb1fe,0x9bdc06a7,0xc19bf174,
  0xe49b69c1,0xefbe4786,0x0fc19dc6,0x240ca1cc,0x2de92c6f,0x4a7484aa,0x5cb0a9dc,0x76f988da,
  0x983e5152,0xa831c66d,0xb00327c8,0xbf597fc7,0xc6e00bf3,0xd5a79147,0x06ca6351,0x14292967,
  0x27b70a85,0x2e1b2138,0x4d2c6dfc,0x53380d13,0x650a7354,0x766a0abb,0x81c2c92e,0x92722c85,
  0xa2bfe8a1,0xa81a664b,0xc24b8b70,0xc76c51a3,0xd192e819,0xd6990624,0xf40e3585,0x106aa070,
  0x19a4c116,0x1e376c08,0x2748774c,0x34b0bcb5,0x391c0cb3,0x4ed8aa4a,0x5b9cca4f,0x682e6ff3,
  0x748f82ee,0x78a5636f,0x84c87814,0x8cc70208,0x90befffa,0xa4506ceb,0xbef9a3f7,0xc67178f2]⟩

/-- FIPS 180-4, 4.1.3 and 4.2.3. -/
def sha512Params : Sha := ⟨64, 1, 8, 7, 19, 61, 6, 28, 34, 39, 14, 18, 41, [
  0x428a2f98d728ae22, 0x7137449123ef65cd, 0xb5c0fbcfec4d3b2f, 0xe9b5dba58189dbbc,
0x3956c25bf348b538, 0x59f111f1b605d019, 0x923f82a4af194f9b, 0xab1c5ed5da6d8118,
0xd807aa98a3030242, 0x12835b0145706fbe, 0x243185be4ee4b28c, 0x550c7dc3d5ffb4e2,
0x72be5d74f27b896f, 0x80deb1fe3b1696b1, 0x9bdc06a725c71235, 0xc19bf174cf692694,
0xe49b69c19ef14ad2, 0xefbe4786384f25e3, 0xfc19dc68b8cd5b5, 0x240ca1cc77ac9c65,
0x2de92c6f592b0275, 0x4a7484aa6ea6e483, 0x5cb0a9dcbd41fbd4, 0x76f988da831153b5,
0x983e5152ee66dfab, 0xa831c66d2db43210, 0xb00327c898fb213f, 0xbf597fc7beef0ee4,
0xc6e00bf33da88fc2, 0xd5a79147930aa725, 0x6ca6351e003826f, 0x142929670a0e6e70,
0x27b70a8546d22ffc, 0x2e1b21385c26c926, 0x4d2c6dfc5ac42aed, 0x53380d139d95b3df,
0x650a73548baf63de, 0x766a0abb3c77b2a8, 0x81c2c92e47edaee6, 0x92722c851482353b,
0xa2bfe8a14cf10364, 0xa81a664bbc423001, 0xc24b8b70d0f89791, 0xc76c51a30654be30,
0xd192e819d6ef5218, 0xd69906245565a910, 0xf40e35855771202a, 0x106aa07032bbd1b8,
0x19a4c116b8d2d0c8, 0x1e376c085141ab53, 0x2748774cdf8eeb99, 0x34b0bcb5e19b48a8,
0x391c0cb3c5c95a63, 0x4ed8aa4ae3418acb, 0x5b9cca4f7763e373, 0x682e6ff3d6b2b8a3,
0x748f82ee5defb2fc, 0x78a5636f43172f60, 0x84c87814a1f0ab72, 0x8cc702081a6439ec,
0x90befffa23631e28, 0xa4506cebde82bde9, 0xbef9a3f7b2c67915, 0xc67178f2e372532b,
0xca273eceea26619c, 0xd186b8c721c0c207, 0xeada7dd6cde0eb1e, 0xf57d4f7fee6ed178,
0x6f067aa72176fba, 0xa637dc5a2c898a6, 0x113f9804bef90dae, 0x1b710b35131c471b,
0x28db77f523047d84, 0x32caab7b40c72493, 0x3c9ebe0a15c9bebc, 0x431d67c49c100d4c,
0x4cc5d4becb3e42b6, 0x597f299cfc657e2a, 0x5fcb6fab3ad6faec, 0x6c44198c4a475817]⟩

/-- Working variables. -/
structure Words where
  (a b c d e f g h : Nat)

/-- FIPS 180-4, 5.3.3. -/
def init256 : Words := ⟨0x6a09e667, 0xbb67ae85, 0x3c6ef372, 0xa54ff53a, 0x510e527f, 0x9b05688c, 0x1f83d9ab, 0x5be0cd19⟩
/-- FIPS 180-4, 5.3.5. -/
def init512 : Words := ⟨0x6a09e667f3bcc908, 0xbb67ae8584caa73b, 0x3c6ef372fe94f82b, 0xa54ff53a5f1d36f1,
  0x510e527fade682d1, 0x9b05688c2b3e6c1f, 0x1f83d9abfb41bd6b, 0x5be0cd19137e2179⟩
/-- FIPS 180-4, 5.3.4. -/
def init384 : Words := ⟨0xcbbb9d5dc1059ed8, 0x629a292a367cd507, 0x9159015a3070dd17, 0x152fecd8f70e5939,
  0x67332667ffc00b31, 0x8eb44a8768581511, 0xdb0c2e0d64f98fa7, 0x47b5481dbefa4fa4⟩

/-- Message schedule, latest word first. -/
def schedule (p : Sha) : Nat → List Nat → List Nat
  | 0, ws => ws
  | n + 1, ws =>
    force (((rotr p.bits p.s1a (ws.getD 1 0) ^^^ rotr p.bits p.s1b (ws.getD 1 0) ^^^ (ws.getD 1 0 >>> p.s1c)) + ws.getD 6 0 +
      (rotr p.bits p.s0a (ws.getD 14 0) ^^^ rotr p.bits p.s0b (ws.getD 14 0) ^^^ (ws.getD 14 0 >>> p.s0c)) + ws.getD 15 0) % 2 ^ p.bits) fun w =>
    schedule p n (w :: ws)

/-- The rounds. -/
def rounds (p : Sha) : List Nat → List Nat → Words → Words
  | k :: ks, w :: ws, ⟨a, b, c, d, e, f, g, h⟩ =>
    force (h + (rotr p.bits p.e1a e ^^^ rotr p.bits p.e1b e ^^^ rotr p.bits p.e1c e) + ((e &&& f) ^^^ ((2 ^ p.bits - 1 - e) &&& g)) + k + w) fun t1 =>
    force ((t1 + (rotr p.bits p.e0a a ^^^ rotr p.bits p.e0b a ^^^ rotr p.bits p.e0c a) + ((a &&& b) ^^^ (a &&& c) ^^^ (b &&& c))) % 2 ^ p.bits) fun na =>
    force ((d + t1) % 2 ^ p.bits) fun ne =>
    rounds p ks ws ⟨na, a, b, c, ne, e, f, g⟩
  | _, _, s => s

/-- Big-endian number of bytes given as numbers, from an accumulator. -/
def joinFrom : Nat → List Nat → Nat
  | a, [] => a
  | a, b :: r => force (a * 256 + b) fun a => joinFrom a r

/-- Bytes, given as numbers, as words of `k` bytes. -/
def wordsOf (k : Nat) : Nat → List Nat → List Nat
  | 0, _ => []
  | n + 1, bs => force (joinFrom 0 (bs.take k)) fun w => w :: wordsOf k n (bs.drop k)

/-- Bytes as numbers. -/
def nats : List UInt8 → List Nat
  | [] => []
  | b :: r => force b.toNat fun n => n :: nats r

/-- `n`, big-endian, in `k` bytes given as numbers. -/
def split : Nat → Nat → List Nat
  | 0, _ => []
  | k + 1, n => force ((n >>> (8 * k)) % 256) fun b => b :: split k n

/-- Bytes as words. -/
def words (k n : Nat) (bs : List UInt8) : List Nat := wordsOf k n (nats bs)

/-- One block. -/
def block (p : Sha) (ws : List Nat) (s : Words) : Words :=
  match rounds p p.ks (schedule p (p.ks.length - 16) ws.reverse).reverse s with
  | ⟨a, b, c, d, e, f, g, h⟩ =>
    force ((a + s.a) % 2 ^ p.bits) fun a => force ((b + s.b) % 2 ^ p.bits) fun b => force ((c + s.c) % 2 ^ p.bits) fun c =>
    force ((d + s.d) % 2 ^ p.bits) fun d => force ((e + s.e) % 2 ^ p.bits) fun e => force ((f + s.f) % 2 ^ p.bits) fun f =>
    force ((g + s.g) % 2 ^ p.bits) fun g => force ((h + s.h) % 2 ^ p.bits) fun h =>
    ⟨a, b, c, d, e, f, g, h⟩

/-- All blocks. -/
def blocks (p : Sha) : Nat → List Nat → Words → Words
  | 0, _, s => s
  | n + 1, ws, s => blocks p n (ws.drop 16) (block p (ws.take 16) s)

/-- Padding of a message of `n` bytes: `blk` bytes per block, `len` bytes of length. -/
def padding (blk len n : Nat) : List Nat :=
  128 :: (List.replicate ((2 * blk - 1 - len - n % blk) % blk) 0 ++ split len (8 * n))

/-- The blocks of a padded message. -/
def digestOf (p : Sha) (s : Words) (n : Nat) (m : List Nat) : List Nat :=
  match blocks p (n / (2 * p.bits)) (wordsOf (p.bits / 8) (n / (p.bits / 8)) m) s with
  | ⟨a, b, c, d, e, f, g, h⟩ => [a, b, c, d, e, f, g, h].flatMap (split (p.bits / 8))

/-- The digest of a whole message of `n` bytes. -/
def sha (p : Sha) (s : Words) (n : Nat) (m : List Nat) : List Nat :=
  force (n + (padding (2 * p.bits) (p.bits / 4) n).length) fun total =>
    digestOf p s total (m ++ padding (2 * p.bits) (p.bits / 4) n)

/-- Numbers as bytes. -/
def bytesOf (ns : List Nat) : List UInt8 := ns.map UInt8.ofNat

/-- SHA-256 of bytes given as numbers. -/
def sha256N (m : List Nat) : List Nat := force m.length fun n => sha sha256Params init256 n m
/-- SHA-512 of bytes given as numbers. -/
def sha512N (m : List Nat) : List Nat := force m.length fun n => sha sha512Params init512 n m

/-- SHA-256. -/
def sha256 (m : List UInt8) : List UInt8 := bytesOf (sha256N (nats m))
/-- SHA-512. -/
def sha512 (m : List UInt8) : List UInt8 := bytesOf (sha512N (nats m))
/-- SHA-384. -/
def sha384 (m : List UInt8) : List UInt8 := bytesOf ((force m.length fun n => sha sha512Params init384 n (nats m)).take 48)

/-- Every byte combined with `c`. -/
def mask (c : Nat) : List Nat → List Nat
  | [] => []
  | b :: r => force (b ^^^ c) fun b => b :: mask c r

/-- RFC 2104 with a hash of `blk`-byte blocks, for a key no longer than a block. -/
def hmacShort (hash : List Nat → List Nat) (blk : Nat) (key msg : List Nat) : List Nat :=
  let k := key ++ List.replicate (blk - key.length) 0
  hash (mask 0x5c k ++ hash (mask 0x36 k ++ msg))

/-- RFC 2104 with a hash of `blk`-byte blocks. -/
def hmacN (hash : List Nat → List Nat) (blk : Nat) (key msg : List Nat) : List Nat :=
  if key.length > blk then hmacShort hash blk (hash key) msg else hmacShort hash blk key msg

/-- HMAC-SHA512. -/
def hmac512 (key msg : List UInt8) : List UInt8 := bytesOf (hmacN sha512N 128 (nats key) (nats msg))
/-- HMAC-SHA256. -/
def hmac256 (key msg : List UInt8) : List UInt8 := bytesOf (hmacN sha256N 64 (nats key) (nats msg))

/-- HKDF-SHA512 with empty info, 32 bytes (RFC 5869: extract, then the first block of expand). -/
def hkdf512 (salt ikm : List UInt8) : List UInt8 :=
  bytesOf ((hmacN sha512N 128 (hmacN sha512N 128 (nats salt) (nats ikm)) [1]).take 32)

end Qos.Conformance
