import Verif.Model.Pool
/-!
# The addresses of a pool, in closed form
-/
namespace Qos.Pool

/-- The path is `stem_N`: the part after the last underscore is a number. -/
def Numbered (path stem : List Char) (N : Nat) : Prop :=
  ∃ num, path = stem ++ '_' :: num ∧ '_' ∉ num ∧ parseUnsigned (2 ^ 64) num = some N

/-- `a` is the address number `i` of a pool that starts at `base`: ports count upwards; a path `stem_N` is followed by
`stem_(N+1)`, …; any other path by `path_0`, `path_1`, …. -/
inductive IsNth : Address → Nat → Address → Prop where
  | zero (base : Address) : IsNth base 0 base
  | port (cid port : UInt32) (flags : UInt8) (i : Nat) :
      IsNth (.vsock cid port flags) i (.vsock cid (UInt32.ofNat (port.toNat + i)) flags)
  | numbered {path stem : List Char} {N : Nat} (h : Numbered path stem N) (i : Nat) :
      IsNth (.unix path) (i + 1) (.unix (stem ++ '_' :: natText ((N + i + 1) % 2 ^ 64)))
  | plain {path : List Char} (h : ∀ stem N, ¬ Numbered path stem N) (i : Nat) :
      IsNth (.unix path) (i + 1) (.unix (path ++ '_' :: natText i))

/-- The pools that `new`, `expand_to` and `listen_to` make from a base address, whether these calls succeed or not. -/
inductive Made (m : NChooseK.Overflow) (base : Address) : Pool → Prop where
  | new {count : UInt8} {p : Pool} : Pool.new m base count = .ok p → Made m base p
  | expand {p : Pool} (size : UInt8) : Made m base p → Made m base (p.expandTo m size).2
  | listen {p : Pool} (bindOk : Address → Bool) (size : UInt8) : Made m base p → Made m base (p.listenTo m bindOk size).2

end Qos.Pool
