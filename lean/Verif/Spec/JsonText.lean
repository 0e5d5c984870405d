import Verif.Model.Json
/-!
# The grammar of JSON text (RFC 8259), independent of the reader

Which texts are JSON and which value each denotes, as inductive rules read off the RFC. Texts are lists
of characters. The only departures from the RFC are the two limits of the reader: nesting, and integers
that do not fit in 64 bits (or are `-0`), which are kept as text (`float`).
-/
namespace Qos.JsonText

/-- RFC 8259, section 2: insignificant white space. -/
def Space (t : List Char) : Prop := ∀ c ∈ t, c = ' ' ∨ c = '\t' ∨ c = '\n' ∨ c = '\r'

/-- A decimal digit. -/
def Digit (c : Char) : Prop := c ∈ "0123456789".toList

/-- A hexadecimal digit of either case and its value. -/
def HexDigit (c : Char) (n : Nat) : Prop :=
  "0123456789abcdef".toList[n]? = some c ∨ "0123456789ABCDEF".toList[n]? = some c

/-- Four hexadecimal digits, most significant first, and the code unit they stand for. -/
def CodeUnit (t : List Char) (n : Nat) : Prop :=
  ∃ a b c d w x y z, t = [a, b, c, d] ∧ HexDigit a w ∧ HexDigit b x ∧ HexDigit c y ∧ HexDigit d z ∧
    n = 16 * (16 * (16 * w + x) + y) + z

/-- RFC 8259, section 7: the letter after a backslash and the character it stands for. -/
def shortEscapes : List (Char × Nat) :=
  [('"', 0x22), ('\\', 0x5C), ('/', 0x2F), ('b', 0x08), ('f', 0x0C), ('n', 0x0A), ('r', 0x0D), ('t', 0x09)]

/-- RFC 8259, section 7: the text between the quotes of a string and the characters it denotes. A
`\u` escape denotes a character by its code point, or by the two halves of a surrogate pair. Half a pair
on its own denotes no character. -/
inductive Body : List Char → List Char → Prop
  | done : Body [] []
  | plain {c t s} : c ≠ '"' → c ≠ '\\' → 0x20 ≤ c.toNat → Body t s → Body (c :: t) (c :: s)
  | short {e c t s} : (e, c.toNat) ∈ shortEscapes → Body t s → Body ('\\' :: e :: t) (c :: s)
  | unit {h c t s} : CodeUnit h c.toNat → Body t s → Body ('\\' :: 'u' :: (h ++ t)) (c :: s)
  | pair {h l c t s} {hi lo : Nat} : CodeUnit h (0xD800 + hi) → hi < 0x400 →
      CodeUnit l (0xDC00 + lo) → lo < 0x400 → c.toNat = 0x10000 + 0x400 * hi + lo → Body t s →
      Body ('\\' :: 'u' :: (h ++ '\\' :: 'u' :: (l ++ t))) (c :: s)

/-- RFC 8259, section 6: digits of the integer part, without a superfluous leading zero. -/
def IntPart (t : List Char) : Prop := t = ['0'] ∨ ∃ d r, t = d :: r ∧ Digit d ∧ d ≠ '0' ∧ ∀ c ∈ r, Digit c

/-- RFC 8259, section 6: one or more digits. -/
def Digits (t : List Char) : Prop := t ≠ [] ∧ ∀ c ∈ t, Digit c

/-- RFC 8259, section 6: an optional fraction. -/
def FracPart (t : List Char) : Prop := t = [] ∨ ∃ r, t = '.' :: r ∧ Digits r

/-- RFC 8259, section 6: an optional exponent. -/
def ExpPart (t : List Char) : Prop :=
  t = [] ∨ ∃ e s r, t = e :: (s ++ r) ∧ (e = 'e' ∨ e = 'E') ∧ (s = [] ∨ s = ['+'] ∨ s = ['-']) ∧ Digits r

/-- RFC 8259, section 6: the text of a number. -/
def NumberText (t : List Char) : Prop :=
  ∃ s i f e, t = s ++ i ++ f ++ e ∧ (s = [] ∨ s = ['-']) ∧ IntPart i ∧ FracPart f ∧ ExpPart e

/-- The text is the decimal notation of an integer of 64 bits, signed or unsigned. -/
def Fits (t : List Char) (i : Int) : Prop :=
  t = (toString i).toList ∧ -(2 ^ 63) ≤ i ∧ i < 2 ^ 64

/-- What the text of a number denotes: an integer of 64 bits, or else a number known by its text. -/
def Number (t : List Char) (v : Json) : Prop :=
  NumberText t ∧ ((∃ i, Fits t i ∧ v = .int i) ∨ ((¬ ∃ i, Fits t i) ∧ v = .float t))

mutual
/-- RFC 8259, sections 3 to 5: a value nested at most `n` deep, its text without surrounding space. -/
inductive Value : Nat → List Char → Json → Prop
  | null {n} : Value n "null".toList .null
  | yes {n} : Value n "true".toList (.bool true)
  | no {n} : Value n "false".toList (.bool false)
  | number {n t v} : Number t v → Value n t v
  | string {n t s} : Body t s → Value n ('"' :: (t ++ ['"'])) (.str (String.ofList s))
  | emptyArray {n w} : Space w → Value (n + 1) ('[' :: (w ++ [']'])) (.arr [])
  | array {n t vs} : Elements n t vs → Value (n + 1) ('[' :: (t ++ [']'])) (.arr vs)
  | emptyObject {n w} : Space w → Value (n + 1) ('{' :: (w ++ ['}'])) (.obj [])
  | object {n t kvs} : Members n t kvs → Value (n + 1) ('{' :: (t ++ ['}'])) (.obj kvs)
/-- Array elements separated by commas, space around each. -/
inductive Elements : Nat → List Char → List Json → Prop
  | one {n a t b v} : Space a → Value n t v → Space b → Elements n (a ++ t ++ b) [v]
  | more {n a t b v r vs} : Space a → Value n t v → Space b → Elements n r vs →
      Elements n (a ++ t ++ b ++ ',' :: r) (v :: vs)
/-- Object members separated by commas, space around every name, colon and value. -/
inductive Members : Nat → List Char → List (String × Json) → Prop
  | one {n a k s b c t d v} : Space a → Body k s → Space b → Space c → Value n t v → Space d →
      Members n (a ++ '"' :: (k ++ '"' :: (b ++ ':' :: (c ++ t ++ d)))) [(String.ofList s, v)]
  | more {n a k s b c t d v r kvs} : Space a → Body k s → Space b → Space c → Value n t v → Space d →
      Members n r kvs →
      Members n (a ++ '"' :: (k ++ '"' :: (b ++ ':' :: (c ++ t ++ d ++ ',' :: r)))) ((String.ofList s, v) :: kvs)
end

/-- RFC 8259, section 2, with the reader's nesting limit: at most 127 arrays and objects inside one
another. -/
def Document (t : List Char) (v : Json) : Prop :=
  ∃ a m b, t = a ++ m ++ b ∧ Space a ∧ Value 127 m v ∧ Space b

end Qos.JsonText
