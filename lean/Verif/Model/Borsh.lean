import Verif.Model.Text
/-!
# Borsh

The `borsh` crate's wire format (https://borsh.io) as combinators: fixed-width little-endian integers, `u32`
length prefixes, one-byte enum tags in declaration order, struct fields in declaration order.
-/
namespace Qos.Borsh

/-- A Borsh codec: `enc` is `BorshSerialize`, `dec` is `deserialize_reader` (value and remaining
bytes), `ok` says that the value is encodable (lengths fit in `u32`, arrays have their length).
External crate `borsh`, behind the derives of services/boot.rs:55-649, services/genesis.rs:26-161, protocol/msg.rs:94-266, qos_p256/src/encrypt.rs:27-35. -/
structure Codec (α : Type) where
  enc : α → Bytes
  dec : Bytes → Option (α × Bytes)
  ok : α → Prop

/-- `u8`.
External crate `borsh`, behind the derives of services/boot.rs:55-649, services/genesis.rs:26-161, protocol/msg.rs:94-266, qos_p256/src/encrypt.rs:27-35. -/
def u8 : Codec UInt8 where
  enc b := [b]
  dec
    | b :: r => some (b, r)
    | [] => none
  ok _ := True

/-- Take exactly `n` bytes.
External crate `borsh`, behind the derives of services/boot.rs:55-649, services/genesis.rs:26-161, protocol/msg.rs:94-266, qos_p256/src/encrypt.rs:27-35. -/
def takeN : Nat → Bytes → Option (Bytes × Bytes)
  | 0, bs => some ([], bs)
  | n + 1, b :: bs => match takeN n bs with
    | some (x, r) => some (b :: x, r)
    | none => none
  | _ + 1, [] => none

/-- `[u8; n]`.
External crate `borsh`, behind the derives of services/boot.rs:55-649, services/genesis.rs:26-161, protocol/msg.rs:94-266, qos_p256/src/encrypt.rs:27-35. -/
def fixed (n : Nat) : Codec Bytes where
  enc b := b
  dec := takeN n
  ok b := b.length = n

/-- Little-endian natural number in `k` bytes.
External crate `borsh`, behind the derives of services/boot.rs:55-649, services/genesis.rs:26-161, protocol/msg.rs:94-266, qos_p256/src/encrypt.rs:27-35. -/
def le (k : Nat) : Codec Nat where
  enc := leBytes k
  dec bs := match takeN k bs with
    | some (x, r) => some (leNat x, r)
    | none => none
  ok n := n < 256 ^ k

/-- Reshape a codec along a bijection (struct and enum types).
External crate `borsh`, behind the derives of services/boot.rs:55-649, services/genesis.rs:26-161, protocol/msg.rs:94-266, qos_p256/src/encrypt.rs:27-35. -/
def imap {α β : Type} (f : α → β) (g : β → α) (c : Codec α) : Codec β where
  enc b := c.enc (g b)
  dec bs := match c.dec bs with
    | some (a, r) => some (f a, r)
    | none => none
  ok b := c.ok (g b)

/-- `u16`.
External crate `borsh`, behind the derives of services/boot.rs:55-649, services/genesis.rs:26-161, protocol/msg.rs:94-266, qos_p256/src/encrypt.rs:27-35. -/
def u16 : Codec UInt16 := imap UInt16.ofNat UInt16.toNat (le 2)
/-- `u32`.
External crate `borsh`, behind the derives of services/boot.rs:55-649, services/genesis.rs:26-161, protocol/msg.rs:94-266, qos_p256/src/encrypt.rs:27-35. -/
def u32 : Codec UInt32 := imap UInt32.ofNat UInt32.toNat (le 4)

/-- `bool`: only 0 and 1 are accepted.
External crate `borsh`, behind the derives of services/boot.rs:55-649, services/genesis.rs:26-161, protocol/msg.rs:94-266, qos_p256/src/encrypt.rs:27-35. -/
def bool : Codec Bool where
  enc b := [if b then 1 else 0]
  dec
    | b :: r => if b = 0 then some (false, r) else if b = 1 then some (true, r) else none
    | [] => none
  ok _ := True

/-- The unit value: no bytes.
External crate `borsh`, behind the derives of services/boot.rs:55-649, services/genesis.rs:26-161, protocol/msg.rs:94-266, qos_p256/src/encrypt.rs:27-35. -/
def unit : Codec Unit where
  enc _ := []
  dec bs := some ((), bs)
  ok _ := True

/-- Struct with two parts, in order.
External crate `borsh`, behind the derives of services/boot.rs:55-649, services/genesis.rs:26-161, protocol/msg.rs:94-266, qos_p256/src/encrypt.rs:27-35. -/
def pair {α β : Type} (c : Codec α) (d : Codec β) : Codec (α × β) where
  enc ab := c.enc ab.1 ++ d.enc ab.2
  dec bs := match c.dec bs with
    | some (a, r) => match d.dec r with
      | some (b, r') => some ((a, b), r')
      | none => none
    | none => none
  ok ab := c.ok ab.1 ∧ d.ok ab.2

/-- `n` elements in a row.
External crate `borsh`, behind the derives of services/boot.rs:55-649, services/genesis.rs:26-161, protocol/msg.rs:94-266, qos_p256/src/encrypt.rs:27-35. -/
def decMany {α : Type} (c : Codec α) : Nat → Bytes → Option (List α × Bytes)
  | 0, bs => some ([], bs)
  | n + 1, bs => match c.dec bs with
    | some (a, r) => match decMany c n r with
      | some (as, r') => some (a :: as, r')
      | none => none
    | none => none

/-- `Vec<T>`: `u32` length, then the elements.
External crate `borsh`, behind the derives of services/boot.rs:55-649, services/genesis.rs:26-161, protocol/msg.rs:94-266, qos_p256/src/encrypt.rs:27-35. -/
def vec {α : Type} (c : Codec α) : Codec (List α) where
  enc l := leBytes 4 l.length ++ l.flatMap c.enc
  dec bs := match (le 4).dec bs with
    | some (n, r) => decMany c n r
    | none => none
  ok l := l.length < 2 ^ 32 ∧ ∀ a ∈ l, c.ok a

/-- `Vec<u8>`.
External crate `borsh`, behind the derives of services/boot.rs:55-649, services/genesis.rs:26-161, protocol/msg.rs:94-266, qos_p256/src/encrypt.rs:27-35. -/
def bytes : Codec Bytes where
  enc b := leBytes 4 b.length ++ b
  dec bs := match (le 4).dec bs with
    | some (n, r) => takeN n r
    | none => none
  ok b := b.length < 2 ^ 32

/-- `String`: UTF-8 bytes with length; invalid UTF-8 is rejected.
External crate `borsh`, behind the derives of services/boot.rs:55-649, services/genesis.rs:26-161, protocol/msg.rs:94-266, qos_p256/src/encrypt.rs:27-35. -/
def string : Codec String where
  enc s := bytes.enc (utf8 s)
  dec bs := match bytes.dec bs with
    | some (b, r) => match utf8Decode b with
      | some s => some (s, r)
      | none => none
    | none => none
  ok s := (utf8 s).length < 2 ^ 32

/-- `Option<T>`: tag 0 or 1.
External crate `borsh`, behind the derives of services/boot.rs:55-649, services/genesis.rs:26-161, protocol/msg.rs:94-266, qos_p256/src/encrypt.rs:27-35. -/
def option {α : Type} (c : Codec α) : Codec (Option α) where
  enc
    | none => [0]
    | some a => 1 :: c.enc a
  dec
    | b :: r =>
      if b = 0 then some (none, r)
      else if b = 1 then match c.dec r with
        | some (a, r') => some (some a, r')
        | none => none
      else none
    | [] => none
  ok
    | none => True
    | some a => c.ok a

/-- Two-variant enum: tags 0 and 1.
External crate `borsh`, behind the derives of services/boot.rs:55-649, services/genesis.rs:26-161, protocol/msg.rs:94-266, qos_p256/src/encrypt.rs:27-35. -/
def sum {α β : Type} (c : Codec α) (d : Codec β) : Codec (α ⊕ β) where
  enc
    | .inl a => 0 :: c.enc a
    | .inr b => 1 :: d.enc b
  dec
    | t :: r =>
      if t = 0 then match c.dec r with
        | some (a, r') => some (.inl a, r')
        | none => none
      else if t = 1 then match d.dec r with
        | some (b, r') => some (.inr b, r')
        | none => none
      else none
    | [] => none
  ok
    | .inl a => c.ok a
    | .inr b => d.ok b

/-- `BorshDeserialize::try_from_slice`: the whole input must be consumed.
External crate `borsh`; called at boot/manifest.rs:259-272, 479-494, protocol/msg.rs:291-305, qos_p256/src/encrypt.rs:57-98. -/
def tryFromSlice {α : Type} (c : Codec α) (bs : Bytes) : Option α :=
  match c.dec bs with
  | some (a, []) => some a
  | _ => none

end Qos.Borsh
