import Mathlib.Data.Rat.Defs
import Mathlib.Algebra.Order.Ring.Abs
import Mathlib.Algebra.Order.Ring.Rat
import Verif.Model.F32

/-!
# Arithmetic on samples

The code computes with `float32`. The models of filters and block transforms are written for any arithmetic: what is proved for all of them does not depend
on how sums and products are rounded (or fused, which Go may do on some machines), and holds for `float32` in particular. What needs the laws of
arithmetic is proved for exact numbers and says nothing about rounding errors.
-/
namespace Jxl

/-- An arithmetic for samples. `lit` is the value of a constant of the source text. -/
class Arith (α : Type) extends Add α, Sub α, Mul α, Div α where
  abs : α → α
  lt : α → α → Bool
  lit : Rat → α

/-- Exact arithmetic. -/
instance : Arith ℚ where
  abs a := |a|
  lt a b := decide (a < b)
  lit q := q

/-- The `float32` arithmetic of Model/F32, without fused operations. -/
instance : Arith F32 where
  add := F32.add
  sub := F32.sub
  mul := F32.mul
  div := F32.div
  abs a := if F32.lt a (F32.round 0) then F32.neg a else a
  lt := F32.lt
  lit := F32.round

end Jxl
