import Verif.Model.Basic
/-!
# `qos_crypto::n_choose_k`

`/repo/src/qos_crypto/src/n_choose_k.rs`. `usize` is 64 bits wide.
-/
namespace Qos.NChooseK

/-- What happens to arithmetic overflow: a panic (debug builds, and the commented-out release setting of
`/repo/Cargo.toml` lines 136-138) or wrap-around (release builds). -/
inductive Overflow where
  | panics | wraps
  deriving DecidableEq

/-- `usize` multiplication. `none` is a panic. n_choose_k.rs:68-70. -/
def mul (m : Overflow) (a b : Nat) : Option Nat :=
  if a * b < 2 ^ 64 then some (a * b) else match m with
    | .panics => none
    | .wraps => some (a * b % 2 ^ 64)

/-- `factorial` (n_choose_k.rs:68-70): `(2..=n).product()`. -/
def factorial (m : Overflow) : Nat → Option Nat
  | 0 => some 1
  | 1 => some 1
  | n + 2 => (factorial m (n + 1)).bind fun f => mul m f (n + 2)

/-- `expected_combinations_count` (n_choose_k.rs:64-66). Division by zero panics. -/
def expectedCount (m : Overflow) (n k : Nat) : Option Nat :=
  (factorial m n).bind fun a => (factorial m k).bind fun b => (factorial m (n - k)).bind fun c =>
    (mul m b c).bind fun d => if d = 0 then none else some (a / d)

/-- `Vec::<Vec<T>>::with_capacity` (n_choose_k.rs:37-38): panics above `isize::MAX` bytes, 24 bytes per entry.
Simplification: the allocator never fails. -/
def withCapacity (c : Nat) : Option Unit := if c * 24 < 2 ^ 63 then some () else none

/-- `while i > 1 && indices[i - 1] == n - k + i - 1 { i -= 1; }` (n_choose_k.rs:49-51). -/
def scan (n k : Nat) (indices : List Nat) : Nat → Nat
  | 0 => 0
  | i + 1 => if i + 1 > 1 ∧ indices.getD i 0 = n - k + i then scan n k indices i else i + 1

/-- `for j in i..k { indices[j] = indices[j - 1] + 1; }` (n_choose_k.rs:55-57), `todo` iterations from `j`. -/
def refill (indices : List Nat) (j : Nat) : Nat → List Nat
  | 0 => indices
  | todo + 1 => refill (indices.set j (indices.getD (j - 1) 0 + 1)) (j + 1) todo

/-- One iteration's update of `indices` (n_choose_k.rs:48-57). -/
def advance (n k : Nat) (indices : List Nat) : List Nat :=
  let i := scan n k indices k
  refill (indices.set (i - 1) (indices.getD (i - 1) 0 + 1)) i (k - i)

/-- The loop (n_choose_k.rs:42-58); `none` when it has not ended after `fuel` iterations. -/
def loop {α : Type} (input : List α) (n k : Nat) : Nat → List Nat → List (List α) → Option (List (List α))
  | 0, _, _ => none
  | fuel + 1, indices, combos =>
    if indices.getD 0 0 ≤ n - k then
      loop input n k fuel (advance n k indices) (combos ++ [indices.filterMap fun i => input[i]?])
    else some combos

/-- What a call of `combinations` comes to. n_choose_k.rs:29-62. -/
inductive Outcome (α : Type) where
  | returns (combos : List (List α))
  | panics
  | runs
  deriving DecidableEq

/-- `combinations` (n_choose_k.rs:30-61), observed for `fuel` loop iterations. -/
def combinations {α : Type} (m : Overflow) (fuel : Nat) (input : List α) (k : Nat) : Outcome α :=
  let n := input.length
  if k > n ∨ k = 0 then .returns []
  else match (expectedCount m n k).bind withCapacity with
    | none => .panics
    | some () => match loop input n k fuel (List.range k) [] with
      | none => .runs
      | some combos => .returns combos

end Qos.NChooseK
