import Verif.Spec.Bits
/-!
# Specification: decoders of bit strings

A `Dec α` takes the bits that are left and returns a value and the bits that are left afterwards, or `none`.
The integer formats below are transcribed from ISO/IEC 18181-1 (sections on field types), not from the Go code.
-/
namespace Jxl.Spec

abbrev Dec (α : Type) := List Bool → Option (α × List Bool)

namespace Dec
def pure {α : Type} (a : α) : Dec α := fun l => some (a, l)
def bind {α β : Type} (m : Dec α) (f : α → Dec β) : Dec β := fun l =>
  match m l with
  | some (a, r) => f a r
  | none => none
def fail {α : Type} : Dec α := fun _ => none
end Dec

instance : Monad Dec where
  pure := Dec.pure
  bind := Dec.bind

/-- `u(n)`: the next `n` bits, least significant first. -/
def decBits (n : Nat) : Dec Nat := fun l =>
  if n ≤ l.length then some (leVal (l.take n), l.drop n) else none

/-- `Bool()` = `u(1)`. -/
def decBool : Dec Bool := fun l =>
  match l with
  | b :: r => some (b, r)
  | [] => none

/-- `U32(d0,d1,d2,d3)` where `di = (ci, ui)` stands for `ci + u(ui)`; 32-bit result. -/
def decU32 (d : Fin 4 → Nat × Nat) : Dec Nat := do
  let sel ← decBits 2
  let k : Fin 4 := ⟨sel % 4, Nat.mod_lt _ (by decide)⟩
  let v ← decBits (d k).2
  return ((d k).1 + v) % 2 ^ 32

/-- tail of `U64()`: continuation bit, then 8 bits (4 bits at position 60). `k` is the number of bits already
known. -/
def decU64Tail : Nat → Nat → Nat → Dec Nat
  | 0, _, value => Dec.pure value
  | fuel + 1, k, value => do
    let more ← decBool
    if more then
      if k = 60 then
        let v ← decBits 4
        return value + 2 ^ 60 * v
      else
        let v ← decBits 8
        decU64Tail fuel (k + 8) (value + 2 ^ k * v)
    else return value

/-- `U64()`. -/
def decU64 : Dec Nat := do
  let sel ← decBits 2
  if sel = 0 then return 0
  else if sel = 1 then
    let v ← decBits 4
    return 1 + v
  else if sel = 2 then
    let v ← decBits 8
    return 17 + v
  else
    let v ← decBits 12
    decU64Tail 7 12 v

/-- `U8()`: 0, or 2^n + u(n) with n = u(3). -/
def decU8 : Dec Nat := do
  let b ← decBool
  if b then
    let n ← decBits 3
    let v ← decBits n
    return v + 2 ^ n
  else return 0

/-- `Enum(T)`: `U32(0, 1, 2+u(4), 18+u(6))`, at most 63. -/
def decEnum : Dec Nat := do
  let v ← decU32 (fun k => match k with | 0 => (0, 0) | 1 => (1, 0) | 2 => (2, 4) | 3 => (18, 6))
  if v ≤ 63 then return v else Dec.fail

/-- Encoder of `U64()`: continuation groups of a value above `k` known bits. -/
def encU64Tail : Nat → Nat → Nat → List Bool
  | 0, _, _ => []
  | fuel + 1, k, hi =>
    if hi = 0 then [false]
    else if k = 60 then true :: bitsOf 4 hi
    else true :: bitsOf 8 (hi % 256) ++ encU64Tail fuel (k + 8) (hi / 256)

/-- Canonical encoder of `U64()`. -/
def encU64 (v : Nat) : List Bool :=
  if v = 0 then bitsOf 2 0
  else if v ≤ 16 then bitsOf 2 1 ++ bitsOf 4 (v - 1)
  else if v ≤ 272 then bitsOf 2 2 ++ bitsOf 8 (v - 17)
  else bitsOf 2 3 ++ bitsOf 12 (v % 4096) ++ encU64Tail 7 12 (v / 4096)

/-- Encoder of `U8()`. -/
def encU8 (v : Nat) : List Bool :=
  if v = 0 then [false]
  else true :: (bitsOf 3 (Nat.log2 v) ++ bitsOf (Nat.log2 v) (v - 2 ^ Nat.log2 v))

/-- ICC varint: 7 bits per byte, least significant group first, high bit set on all but the last byte. -/
def encVarint (v : Nat) : List Nat :=
  if v < 128 then [v] else (128 + v % 128) :: encVarint (v / 128)
termination_by v
decreasing_by omega

end Jxl.Spec
