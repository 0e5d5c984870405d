import Verif.Model.ClientTools
import Verif.Spec.Client
/-!
# What the operator's smaller commands promise

Files before and after a command, secret key files, signature files. Hexadecimal and UTF-8 decoding, trimming and key
derivation are those of claims C22, C23 and C21.
-/
namespace Qos.Client
open P256 (Pair Public)

/-- The last contents written to a path. -/
def lastWrite (path : String) : List Event → Option Bytes
  | [] => none
  | .wrote p c :: es => (lastWrite path es).or (if p = path then some c else none)
  | _ :: es => lastWrite path es

/-- The disk after a command did this. -/
def Disk.after (d : Disk) (es : List Event) : Disk := { d with file := fun p => (lastWrite p es).or (d.file p) }

/-- The text, without surrounding white space, is hexadecimal for the 32-byte seed of this key pair. -/
def SeedText (p : Prims) (contents : Bytes) (pair : Pair) : Prop :=
  ∃ text seed, utf8Decode contents = some text ∧ Hex.decodeToBuf (utf8 (P256.trim text)) 32 = .ok seed ∧
    Pair.fromMasterSeed p seed = .ok pair

/-- The file holds the seed of this key pair. -/
def SeedIn (p : Prims) (d : Disk) (path : String) (pair : Pair) : Prop := ∃ c, d.file path = some c ∧ SeedText p c pair

/-- The file holds this signature in hexadecimal, possibly surrounded by white space. -/
def SignatureIn (d : Disk) (path : String) (sig : Bytes) : Prop :=
  ∃ c text, d.file path = some c ∧ utf8Decode c = some text ∧ Hex.decode (utf8 (P256.trim text)) = .ok sig

/-- The signature is one of `payload` under the second half of a 130-byte public key. -/
def SignedBy (p : Prims) (key payload sig : Bytes) : Prop := p.sigOk sig ∧ p.ecdsaVerify (key.drop 65) payload sig

/-- `1.share`, `2.share`, … in a directory. -/
def sharePath (dir : String) (number : Nat) : String := pathJoin dir (String.ofList (natText number) ++ ".share")

end Qos.Client
