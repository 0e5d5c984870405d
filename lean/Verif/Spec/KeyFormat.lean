import Verif.Model.P256
import Verif.Props.Hex
/-!
# The formats of keys and ciphertexts

Every byte and every fixed text written out.
-/
namespace Qos.P256

/-- The code points that Unicode calls white space. -/
def whiteSpace : List Nat :=
  [9, 10, 11, 12, 13, 32, 133, 160, 5760, 8192, 8193, 8194, 8195, 8196, 8197, 8198, 8199, 8200, 8201, 8202, 8232, 8233, 8239,
   8287, 12288]

/-- Only white space. -/
def Blank (cs : List Char) : Prop := ∀ c ∈ cs, c.toNat ∈ whiteSpace

/-- The contents of a seed file: hexadecimal of 32 bytes, possibly after `0x`, possibly with white space around. -/
def SeedFile (contents seed : Bytes) : Prop :=
  ∃ (before after : List Char) (digits : Bytes), Blank before ∧ Blank after ∧ Hex.Text digits seed ∧ seed.length = 32 ∧
    (contents = utf8 (String.ofList before) ++ digits ++ utf8 (String.ofList after) ∨
     contents = utf8 (String.ofList before) ++ (ascii "0x" ++ digits) ++ utf8 (String.ofList after))

/-- The pair of a seed: three secrets, each made by HKDF from the seed with a salt of its own; the first two are scalars. -/
structure Derived (p : Prims) (seed : Bytes) (k : Pair) : Prop where
  kept : k.seed = seed
  encryption : k.encSecret = p.hkdf (ascii "qos_p256_encrypt") seed
  signing : k.signSecret = p.hkdf (ascii "qos_p256_sign") seed
  symmetric : k.aesSecret = p.hkdf (ascii "qos_aes_gcm_encrypt") seed
  scalars : p.scalarOk k.encSecret = true ∧ p.scalarOk k.signSecret = true

/-- The AES key between two points with this shared secret. -/
def sharedKey (p : Prims) (sender receiver shared : Bytes) : Bytes :=
  (p.hmac (sender ++ receiver ++ shared) (ascii "qos_encryption_hmac_message")).take 32

/-- The bytes of a ciphertext: nonce, sender, length of the body, body. -/
def Ciphertext (nonce sender body buf : Bytes) : Prop :=
  nonce.length = 12 ∧ sender.length = 65 ∧ body.length < 2 ^ 32 ∧ buf = nonce ++ sender ++ (leBytes 4 body.length ++ body)

/-- The bytes of a symmetric ciphertext: nonce, length of the body, body. -/
def SymmetricCiphertext (nonce body buf : Bytes) : Prop :=
  nonce.length = 12 ∧ body.length < 2 ^ 32 ∧ buf = nonce ++ (leBytes 4 body.length ++ body)

end Qos.P256
