import Verif.Model.Reprint
/-!
# What the reprinted output must be
-/
namespace Qos.Reprint

/-- What the pivot has written to a stream before closing it. -/
def written (src : Source) : List Ev → Bytes
  | [] => []
  | .write s bytes :: evs => if s = src then bytes ++ written src evs else written src evs
  | .close s :: evs => if s = src then [] else written src evs
  | .poll _ :: evs => written src evs

/-- The stream is these lines, each ended by a newline, and an unfinished rest. -/
def Framed (stream : Bytes) (lines : List Bytes) (rest : Bytes) : Prop :=
  stream = lines.flatMap (fun l => l ++ [10]) ++ rest ∧ (∀ l ∈ lines, (10 : UInt8) ∉ l) ∧ (10 : UInt8) ∉ rest

/-- What has to be printed for a line with these bytes: its text, of which one `\r` is left out if a newline followed; or that it
is not text. -/
inductive Shown (newline : Bool) (bytes : Bytes) : Printed → Prop
  | text (t : String) : bytes = utf8 t → (newline = true → t.toList.getLast? ≠ some '\r') → Shown newline bytes (.line t)
  | cr (t : String) : bytes = utf8 t ++ [13] → newline = true → Shown newline bytes (.line t)
  | bad : (∀ t, bytes ≠ utf8 t) → Shown newline bytes .failed

/-- What was printed of one stream, in order. -/
def printedOf (src : Source) (ps : List (Source × Printed)) : List Printed :=
  ps.filterMap fun x => if x.1 = src then some x.2 else none

end Qos.Reprint
