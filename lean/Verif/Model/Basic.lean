/-!
# Shared vocabulary of the model

Byte strings are `List UInt8` (Rust `Vec<u8>` / `&[u8]`; a Rust `&str` is modelled by its UTF-8
bytes). Rust `usize`/`u64` lengths are unbounded `Nat`: every place where a bound matters has the
explicit check of the code.
-/
namespace Qos

/-- Byte strings: Rust `Vec<u8>`, `&[u8]`, and the UTF-8 bytes of a `&str`.
Used everywhere; e.g. qos_hex/src/lib.rs:76. -/
abbrev Bytes := List UInt8

/-- ASCII text as bytes (for literals such as `b"0x"`). E.g. qos_hex/src/lib.rs:77, qos_p256/src/lib.rs:20-24. -/
def ascii (s : String) : Bytes := s.toList.map fun c => UInt8.ofNat c.toNat

deriving instance DecidableEq for Except

end Qos

namespace Qos

/-- Little-endian encoding of `n` in `k` bytes (`uN::to_le_bytes`; higher bytes dropped).
qos_core/src/io/stream.rs:191-254 and the `borsh` crate. -/
def leBytes : Nat → Nat → Bytes
  | 0, _ => []
  | k + 1, n => UInt8.ofNat (n % 256) :: leBytes k (n / 256)

/-- Little-endian decoding (`uN::from_le_bytes`). qos_core/src/io/stream.rs:191-254 and the `borsh` crate. -/
def leNat : Bytes → Nat
  | [] => 0
  | b :: bs => b.toNat + 256 * leNat bs

end Qos
