import Mathlib.Algebra.Order.Field.Rat
import Mathlib.Data.Int.Log
import Mathlib.Data.Rat.Floor
import Verif.Model.Go

/-!
# `float32`

IEEE binary32 numbers, represented by the rational number they denote. Simplification: the two zeros are one value
(none of the modelled code divides by zero and then looks at the sign), and there is one NaN. Rounding is to the
nearest value, ties to even, with gradual underflow and overflow to infinity; this is the arithmetic that the Go
specification prescribes for `float32`.
-/
namespace Jxl

/-- A `float32` value. -/
inductive F32 where
  | fin (q : ℚ)
  | inf (negative : Bool)
  | nan
  deriving DecidableEq, Repr

/-- The nearest integer, ties to the even one. -/
def roundEven (x : ℚ) : ℤ :=
  let f := ⌊x⌋
  let d := x - f
  if d < 1 / 2 then f else if 1 / 2 < d then f + 1 else if f % 2 = 0 then f else f + 1

namespace F32

/-- The exponent of the last bit of the significand of a number near `x`: 24 significant bits, none below 2^-149. -/
def ulpExp (x : ℚ) : ℤ := max (Int.log 2 |x|) (-126) - 23

/-- The nearest multiple of the last bit. -/
def near (x : ℚ) : ℚ := (roundEven (x / (2 : ℚ) ^ ulpExp x) : ℚ) * (2 : ℚ) ^ ulpExp x

/-- Rounding to `float32`. -/
def round (x : ℚ) : F32 := if (2 : ℚ) ^ 128 ≤ |near x| then .inf (decide (x < 0)) else .fin (near x)

/-- Sign of an infinity as a number. -/
def sgn (b : Bool) : ℤ := if b then -1 else 1

/-- Negation. -/
def neg : F32 → F32
  | .fin q => .fin (-q)
  | .inf s => .inf (!s)
  | .nan => .nan

/-- Addition. -/
def add : F32 → F32 → F32
  | .fin a, .fin b => round (a + b)
  | .inf s, .fin _ => .inf s
  | .fin _, .inf s => .inf s
  | .inf s, .inf t => if s = t then .inf s else .nan
  | _, _ => .nan

/-- Subtraction. -/
def sub (a b : F32) : F32 := add a (neg b)

/-- Multiplication. -/
def mul : F32 → F32 → F32
  | .fin a, .fin b => round (a * b)
  | .inf s, .fin b => if b = 0 then .nan else .inf (s != decide (b < 0))
  | .fin a, .inf s => if a = 0 then .nan else .inf (s != decide (a < 0))
  | .inf s, .inf t => .inf (s != t)
  | _, _ => .nan

/-- Division (the sign of a zero divisor is not modelled: it counts as positive). -/
def div : F32 → F32 → F32
  | .fin a, .fin b => if b = 0 then (if a = 0 then .nan else .inf (decide (a < 0))) else round (a / b)
  | .inf s, .fin b => .inf (s != decide (b < 0))
  | .fin _, .inf _ => .fin 0
  | _, _ => .nan

/-- `x*y + z` computed with one rounding, as the Go specification allows ("may combine multiple floating-point
operations into a single fused operation"). -/
def fma : F32 → F32 → F32 → F32
  | .fin a, .fin b, .fin c => round (a * b + c)
  | x, y, z => add (mul x y) z

/-- `a < b`: false if one of them is NaN. -/
def lt : F32 → F32 → Bool
  | .fin a, .fin b => decide (a < b)
  | .inf s, .fin _ => s
  | .fin _, .inf s => !s
  | .inf s, .inf t => s && !t
  | _, _ => false

/-- `a == b`. -/
def eq : F32 → F32 → Bool
  | .fin a, .fin b => decide (a = b)
  | .inf s, .inf t => s == t
  | _, _ => false

/-- `float32(n)` for an integer. -/
def ofInt (n : ℤ) : F32 := round n

/-- `int32(x)`: truncation; for values that do not fit the Go specification leaves the result to the implementation
(`big` is that function). -/
def toI32 (big : F32 → ℤ) (x : F32) : ℤ :=
  match x with
  | .fin q =>
    let t := if 0 ≤ q then ⌊q⌋ else ⌈q⌉
    if -2147483648 ≤ t ∧ t ≤ 2147483647 then t else i32 (big x)
  | _ => i32 (big x)

end F32
end Jxl
