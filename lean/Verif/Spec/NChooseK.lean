import Mathlib.Data.Nat.Choose.Basic
import Mathlib.Data.List.Basic
/-!
# Choosing `k` of `n`, textbook definition
-/
namespace Qos.NChooseK

/-- All ways to choose `k` elements of a list, keeping their order; those with the first element come first. -/
def choose {α : Type} : Nat → List α → List (List α)
  | 0, _ => [[]]
  | _ + 1, [] => []
  | k + 1, x :: xs => (choose k xs).map (x :: ·) ++ choose (k + 1) xs

end Qos.NChooseK
