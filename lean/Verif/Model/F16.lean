import Verif.Model.BitReader
import Mathlib.Algebra.Field.Rat
/-!
# `jxlio/bitreader.go:229-252` `ReadF16`

The returned `float32` is represented by the rational number it denotes (a negative zero denotes 0). All float
operations of the function are exact: the products and the quotient by 2^24 are representable.
-/
namespace Jxl

/-- The number denoted by a finite IEEE binary32 pattern (`math.Float32frombits`). -/
def f32Value (b : Nat) : ℚ :=
  let s : ℚ := if b / 2 ^ 31 % 2 = 1 then -1 else 1
  let e : Nat := b / 2 ^ 23 % 256
  let m : Nat := b % 2 ^ 23
  if e = 0 then s * (m / 2 ^ 149) else s * (1 + m / 2 ^ 23) * (2 : ℚ) ^ ((e : ℤ) - 127)

/-- jxlio/bitreader.go:229-252 `ReadF16`. -/
def readF16 : Rd ℚ := do
  let bits16 ← readBits 16
  let mantissa := bits16 &&& 0x3FF
  let biasedExp := (u32 bits16 >>> 10) &&& 0x1F
  let sign := (bits16 >>> 15) &&& 1
  if biasedExp = 31 then Rd.fail
  else if biasedExp = 0 then return (1 - 2 * (sign : ℚ)) * mantissa / 16777216
  else
    let biasedExp := u32 (biasedExp + (127 - 15))
    let mantissa := u64 (mantissa <<< 13)
    let sign := u64 (sign <<< 31)
    let total := u32 sign ||| u32 (biasedExp <<< 23) ||| u32 mantissa
    return f32Value total

end Jxl
