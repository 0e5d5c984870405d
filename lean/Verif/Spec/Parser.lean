import Verif.Model.Parser
/-!
# Which command lines are acceptable, and what they mean

Independent of how the parser reads them.
-/
namespace Qos.Parser

/-- A part of a command line: `--name`, `--name value`, or `--name` for a token whose value is left to its default. -/
inductive Item where
  | flag (name : String)
  | value (name v : String)
  | bare (name : String)
  deriving DecidableEq

def Item.name : Item → String
  | .flag n => n
  | .value n _ => n
  | .bare n => n

/-- The arguments it is written as. -/
def Item.words : Item → List String
  | .flag n => ["--" ++ n]
  | .value n v => ["--" ++ n, v]
  | .bare n => ["--" ++ n]

/-- A whole command line. -/
def words (items : List Item) : List String := items.flatMap Item.words

/-- The value it gives. -/
def Item.value? (t : Token) : Item → Option String
  | .flag _ => none
  | .value _ v => some v
  | .bare _ => t.default

/-- The declaration of a name: the last one counts; `--help` and `--version` are always declared. -/
def declared (ts : List Token) (name : String) : Option Token :=
  (({ name := "help" } :: { name := "version" } :: ts).filter fun t => t.name = name).getLast?

/-- The name is given. -/
def Given (items : List Item) (name : String) : Prop := ∃ i ∈ items, i.name = name

/-- The values given for a token, in order. -/
def values (t : Token) (items : List Item) : List String := (items.filter fun i => i.name = t.name).filterMap (Item.value? t)

/-- An item fits the declaration of its name. -/
def Item.Fits (ts : List Token) : Item → Prop
  | .flag n => ∃ t, declared ts n = some t ∧ t.takesValue = false
  | .value n v => ∃ t, declared ts n = some t ∧ t.takesValue = true ∧ ¬ ['-', '-'] <+: v.toList
  | .bare n => ∃ t, declared ts n = some t ∧ t.takesValue = true ∧ t.default ≠ none

/-- Acceptable command lines. -/
structure Acceptable (ts : List Token) (items : List Item) : Prop where
  /-- every token is declared and has a value exactly if it takes one -/
  fits : ∀ i ∈ items, i.Fits ts
  /-- at most once, unless declared otherwise -/
  once : ∀ n t, declared ts n = some t → t.allowMultiple = false → (items.filter fun i => i.name = n).length ≤ 1
  /-- required tokens are given -/
  required : ∀ n t, declared ts n = some t → t.required = true → Given items n
  /-- what a given token requires is given -/
  requires : ∀ n t o, declared ts n = some t → Given items n → t.requires = some o → Given items o
  /-- what a given token forbids is not given -/
  forbids : ∀ n t o, declared ts n = some t → Given items n → o ∈ t.forbids → ¬ Given items o

end Qos.Parser
