import Verif.Model.Prompts
import Verif.Spec.Client
/-! # What a prompt has to tell the operator -/
namespace Qos.Client

/-- A name that fits on one line. -/
def OneLine (s : String) : Prop := '\n' ∉ s.toList

/-- The list of approvers is shown one per line, so the aliases must fit on a line; nothing is asked of the other prompts. -/
def Readable : Question → Prop
  | .approvers as => ∀ a ∈ as, OneLine a
  | _ => True

/-- The texts of these prompts, in order. -/
def texts (odd : Char → Bool) (qs : List Question) : List (List Char) := qs.map (promptText odd)

end Qos.Client
