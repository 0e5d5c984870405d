import Verif.Conformance.Curve
import Verif.Model.P256
/-!
# AES-256-GCM, and the primitives of the crates the code uses

Not part of the model: see `Sha.lean`.
-/
namespace Qos.Conformance

/-- The S-box of FIPS 197, entry `i` at bits `8i`. -/
def sboxTable : Nat :=
  0x16bb54b00f2d99416842e6bf0d89a18cdf2855cee9871e9b948ed9691198f8e19e1dc186b95735610ef6034866b53e708a8bbd4b1f74dde8c6b4a61c2e2578ba08ae7a65eaf4566ca94ed58d6d37c8e779e4959162acd3c25c2406490a3a32e0db0b5ede14b8ee4688902a22dc4f816073195d643d7ea7c41744975fec130ccdd2f3ff1021dab6bcf5389d928f40a351a89f3c507f02f94585334d43fbaaefd0cf584c4a39becb6a5bb1fc20ed00d153842fe329b3d63b52a05a6e1b1a2c830975b227ebe28012079a059618c323c7041531d871f1e5a534ccf73f362693fdb7c072a49cafa2d4adf04759fa7dc982ca76abd7fe2b670130c56f6bf27b777c63

/-- Substitution of one byte. -/
def sub (b : Nat) : Nat := (sboxTable >>> (8 * b)) % 256

/-- Multiplication by `x` in the field of FIPS 197. -/
def xtime (b : Nat) : Nat := if b < 128 then 2 * b else (2 * b) ^^^ 0x11b

/-- Substitution of every byte of a word. -/
def subWord (w : Nat) : Nat :=
  sub (w >>> 24) * 16777216 + sub ((w >>> 16) % 256) * 65536 + sub ((w >>> 8) % 256) * 256 + sub (w % 256)

/-- Key expansion for a 256-bit key, latest word first; `i` is the index of the next word, `rc` the round constant. -/
def expand : Nat → Nat → Nat → List Nat → List Nat
  | 0, _, _, ws => ws
  | n + 1, i, rc, ws =>
    let t := ws.getD 0 0
    let w := ws.getD 7 0
    if i % 8 = 0 then force (w ^^^ subWord ((t <<< 8) % 4294967296 + (t >>> 24)) ^^^ (rc <<< 24)) fun v => expand n (i + 1) (xtime rc) (v :: ws)
    else if i % 8 = 4 then force (w ^^^ subWord t) fun v => expand n (i + 1) rc (v :: ws)
    else force (w ^^^ t) fun v => expand n (i + 1) rc (v :: ws)

/-- The 60 words of the key schedule. -/
def keySchedule (key : List UInt8) : List Nat := (expand 52 8 1 (words 4 8 key).reverse).reverse

/-- The bytes of a round key. -/
def keyBytes (ws : List Nat) : List Nat := ws.flatMap fun w => [w >>> 24, (w >>> 16) % 256, (w >>> 8) % 256, w % 256]

/-- Two byte lists combined. -/
def xorBytes : List Nat → List Nat → List Nat
  | a :: as, b :: bs => force (a ^^^ b) fun c => c :: xorBytes as bs
  | _, _ => []

/-- Substitution of all bytes. -/
def subAll : List Nat → List Nat
  | [] => []
  | b :: r => force (sub b) fun c => c :: subAll r

/-- Row shift on the 16 bytes, column by column. -/
def shiftRows : List Nat → List Nat
  | [a0, a1, a2, a3, b0, b1, b2, b3, c0, c1, c2, c3, d0, d1, d2, d3] =>
    [a0, b1, c2, d3, b0, c1, d2, a3, c0, d1, a2, b3, d0, a1, b2, c3]
  | s => s

/-- Column mixing. -/
def mixColumns : List Nat → List Nat
  | a :: b :: c :: d :: r =>
    force (xtime a ^^^ xtime b ^^^ b ^^^ c ^^^ d) fun e =>
    force (a ^^^ xtime b ^^^ xtime c ^^^ c ^^^ d) fun f =>
    force (a ^^^ b ^^^ xtime c ^^^ xtime d ^^^ d) fun g =>
    force (xtime a ^^^ a ^^^ b ^^^ c ^^^ xtime d) fun h => e :: f :: g :: h :: mixColumns r
  | _ => []

/-- `n` rounds with column mixing, then the last one. -/
def aesRounds : Nat → List Nat → List Nat → List Nat
  | 0, ks, s => xorBytes (shiftRows (subAll s)) (keyBytes (ks.take 4))
  | n + 1, ks, s => aesRounds n (ks.drop 4) (xorBytes (mixColumns (shiftRows (subAll s))) (keyBytes (ks.take 4)))

/-- AES-256 of one block, as a number. -/
def aesBlock (ks : List Nat) (x : Nat) : Nat :=
  ofBe ((aesRounds 13 (ks.drop 4) (xorBytes ((be 16 x).map UInt8.toNat) (keyBytes (ks.take 4)))).map UInt8.ofNat)

/-- Multiplication in the field of GCM (NIST SP 800-38D, 6.3): `n` bits of `x` left, `v` the running multiple. -/
def gmulFrom (x : Nat) : Nat → Nat → Nat → Nat
  | 0, _, z => z
  | n + 1, v, z =>
    force (if (x >>> n) % 2 = 1 then z ^^^ v else z) fun z =>
    force (if v % 2 = 1 then (v >>> 1) ^^^ 0xe1000000000000000000000000000000 else v >>> 1) fun v => gmulFrom x n v z

/-- Multiplication in the field of GCM. -/
def gmul (x y : Nat) : Nat := gmulFrom x 128 y 0

/-- GHASH over 16-byte blocks. -/
def ghash (h : Nat) : List Nat → Nat → Nat
  | [], acc => acc
  | b :: r, acc => force (gmul (acc ^^^ b) h) fun a => ghash h r a

/-- The blocks of a byte string, the last one zero padded. -/
def gblocks (bs : List UInt8) : List Nat :=
  let n := (bs.length + 15) / 16
  words 16 n (bs ++ List.replicate (16 * n - bs.length) 0)

/-- Key stream, `n` blocks from counter `i`. -/
def keystream (ks : List Nat) (nonce : Nat) : Nat → Nat → List UInt8
  | 0, _ => []
  | n + 1, i => be 16 (aesBlock ks (nonce * 4294967296 + i)) ++ keystream ks nonce n (i + 1)

/-- Two byte strings combined, as long as the first. -/
def xorStream : List UInt8 → List UInt8 → List UInt8
  | a :: as, b :: bs => (a ^^^ b) :: xorStream as bs
  | _, _ => []

/-- Counter mode. -/
def ctr (key nonce msg : List UInt8) : List UInt8 :=
  xorStream msg (keystream (keySchedule key) (ofBe nonce) ((msg.length + 15) / 16) 2)

/-- The tag of a ciphertext. -/
def gcmTag (key nonce ad ct : List UInt8) : List UInt8 :=
  force (aesBlock (keySchedule key) 0) fun h =>
  be 16 (ghash h (gblocks ad ++ gblocks ct ++ [8 * ad.length * 2 ^ 64 + 8 * ct.length]) 0 ^^^
    aesBlock (keySchedule key) (ofBe nonce * 4294967296 + 1))

/-- AES-256-GCM encryption with a 12-byte nonce. -/
def aesEnc (key nonce ad msg : List UInt8) : Option (List UInt8) :=
  if key.length = 32 ∧ nonce.length = 12 then
    some (ctr key nonce msg ++ gcmTag key nonce ad (ctr key nonce msg))
  else none

/-- AES-256-GCM decryption. -/
def aesDec (key nonce ad ct : List UInt8) : Option (List UInt8) :=
  if key.length = 32 ∧ nonce.length = 12 ∧ 16 ≤ ct.length ∧
      gcmTag key nonce ad (ct.take (ct.length - 16)) = ct.drop (ct.length - 16) then
    some (ctr key nonce (ct.take (ct.length - 16)))
  else none

/-- The primitives of `sha2`, `hmac`, `hkdf`, `p256` and `aes-gcm`, in place of the parameters of the model. -/
def realPrims : Prims where
  sha256 := sha256
  sha384 := sha384
  sha512 := sha512
  hkdf := hkdf512
  hmac := hmac512
  scalarOk := scalarOk
  point := point
  pointOk := fun b => (readPoint b).isSome
  dh := dh
  aesEnc := aesEnc
  aesDec := aesDec
  ecdsaSign := ecdsaSign
  sigOk := fun s => (readSig s).isSome
  ecdsaVerify := ecdsaVerify

/-- Stops the build unless `b`. -/
def check (b : Bool) : IO Unit := if b then pure () else throw (IO.userError "the model differs from the program")

end Qos.Conformance
