import Verif.Model.Basic
/-! # Specification: big-endian (network order) integers -/
namespace Rmq

/-- The `n`-byte big-endian representation of `x` (mod `256^n`): most significant byte first. -/
def beBytes : Nat → Nat → Bytes
  | 0, _ => []
  | n + 1, x => UInt8.ofNat (x / 256 ^ n) :: beBytes n x

/-- The number a big-endian byte string stands for. -/
def beVal (bs : Bytes) : Nat := bs.foldl (fun a b => a * 256 + b.toNat) 0

end Rmq
