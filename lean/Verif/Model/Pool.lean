import Verif.Model.Text
import Verif.Model.NChooseK
/-!
# Socket pools: addresses

`/repo/src/qos_core/src/io/pool.rs` and the addresses of `/repo/src/qos_core/src/io/mod.rs`.
-/
namespace Qos.Pool
open NChooseK (Overflow)

/-- `SocketAddress` (io/mod.rs:76-84). Simplification: only path-name Unix sockets, as `new_unix` (mod.rs:98-101) makes;
the path is a string. -/
inductive Address where
  | vsock (cid port : UInt32) (flags : UInt8)
  | unix (path : List Char)
  deriving DecidableEq

/-- The errors of this file: `PoolError` (pool.rs:9-15), `ENAMETOOLONG` of `UnixAddr::new`, a failed bind, and a panic. -/
inductive PoolErr where
  | noAddressesSpecified | invalidSourceAddress | nameTooLong | bind | panic
  deriving DecidableEq

/-- `path.rfind('_')` and the two slices around it (pool.rs:254-255). -/
def splitAtLast (path : List Char) : Option (List Char × List Char) :=
  match path.reverse.dropWhile (· ≠ '_') with
  | [] => none
  | _ :: before => some (before.reverse, (path.reverse.takeWhile (· ≠ '_')).reverse)

/-- `+ 1` on an unsigned integer with `bound` values. pool.rs:251-292. -/
def incr (m : Overflow) (bound n : Nat) : Except PoolErr Nat :=
  if n + 1 < bound then .ok (n + 1) else match m with
    | .panics => .error .panic
    | .wraps => .ok ((n + 1) % bound)

/-- `next_usock_path` (pool.rs:251-266). -/
def nextPath (m : Overflow) (path : List Char) : Except PoolErr (List Char) :=
  match splitAtLast path with
  | none => .ok (path ++ ['_', '0'])
  | some (stem, num) => match parseUnsigned (2 ^ 64) num with
    | none => .ok (path ++ ['_', '0'])
    | some index => match incr m (2 ^ 64) index with
      | .error e => .error e
      | .ok index' => .ok (stem ++ '_' :: natText index')

/-- `UnixAddr::new` (nix): at most 107 bytes. External crate `nix`, called at io/mod.rs:150-200. -/
def unixAddr (path : List Char) : Except PoolErr Address :=
  if (path.flatMap String.utf8EncodeChar).length < 108 then .ok (.unix path) else .error .nameTooLong

/-- `SocketAddress::next_address` (pool.rs:273-291). An empty path is an unnamed socket. -/
def Address.next (m : Overflow) : Address → Except PoolErr Address
  | .unix path => if path = [] then .error .invalidSourceAddress else match nextPath m path with
    | .error e => .error e
    | .ok p => unixAddr p
  | .vsock cid port flags => match incr m (2 ^ 32) port.toNat with
    | .error e => .error e
    | .ok p => .ok (.vsock cid (UInt32.ofNat p) flags)

/-- `StreamPool` (pool.rs:25-28): the addresses, and those of the client streams in `handles`. -/
structure Pool where
  addresses : List Address
  handles : List Address
  deriving DecidableEq

/-- The `while` loop of `new` (pool.rs:84-92): `count + 1` addresses from `addr` on. -/
def addressesFrom (m : Overflow) (addr : Address) : Nat → Except PoolErr (List Address)
  | 0 => .ok [addr]
  | count + 1 => match addr.next m with
    | .error e => .error e
    | .ok a => match addressesFrom m a count with
      | .error e => .error e
      | .ok l => .ok (addr :: l)

/-- `StreamPool::new` (pool.rs:72-95) and `with_addresses` (pool.rs:108-118). -/
def Pool.new (m : Overflow) (start : Address) (count : UInt8) : Except PoolErr Pool :=
  match count.toNat with
  | 0 => .error .noAddressesSpecified
  | n + 1 => match addressesFrom m start n with
    | .error e => .error e
    | .ok l => .ok ⟨l, l⟩

/-- The loop of `expand_to` (pool.rs:203-208) for `todo` further addresses after `last`. -/
def Pool.grow (m : Overflow) (p : Pool) (last : Address) : Nat → Except PoolErr Unit × Pool
  | 0 => (.ok (), p)
  | todo + 1 => match last.next m with
    | .error e => (.error e, p)
    | .ok a => Pool.grow m ⟨p.addresses ++ [a], p.handles ++ [a]⟩ a todo

/-- `expand_to` (pool.rs:196-212). The pool as it is left, also after an error. -/
def Pool.expandTo (m : Overflow) (p : Pool) (size : UInt8) : Except PoolErr Unit × Pool :=
  match p.addresses.getLast? with
  | none => (.ok (), p)
  | some last => p.grow m last (size.toNat - p.addresses.length)

/-- The loop of `listen_to` (pool.rs:229-236); `bindOk` decides whether an address can be bound. -/
def Pool.growListening (m : Overflow) (bindOk : Address → Bool) (p : Pool) (last : Address) (bound : List Address) :
    Nat → Except PoolErr (List Address) × Pool
  | 0 => (.ok bound, p)
  | todo + 1 => match last.next m with
    | .error e => (.error e, p)
    | .ok a => if bindOk a then Pool.growListening m bindOk ⟨p.addresses ++ [a], p.handles⟩ a (bound ++ [a]) todo
      else (.error .bind, ⟨p.addresses ++ [a], p.handles⟩)

/-- `listen_to` (pool.rs:221-240). -/
def Pool.listenTo (m : Overflow) (bindOk : Address → Bool) (p : Pool) (size : UInt8) :
    Except PoolErr (List Address) × Pool :=
  match p.addresses.getLast? with
  | none => (.ok [], p)
  | some last => p.growListening m bindOk last [] (size.toNat - p.addresses.length)

end Qos.Pool
