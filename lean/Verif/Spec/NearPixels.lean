import Mathlib.Data.Int.Notation

/-!
# Specification: the special distances of a stream (C15)

From ISO/IEC 18181-1.
-/
namespace Jxl.Spec

/-- The pixels that a special distance stands for, as how far to the left and how far up: up to seven rows up, seven columns to the right and eight to the left, those of the same row only to the
left. They are listed by how far away they are, then by the column, the left one of two first. -/
def nearPixels : List (Int × Int) :=
  (List.range 114).flatMap fun d => (List.range 9).flatMap fun (a : Nat) => (List.range 8).flatMap fun (y : Nat) =>
    if a * a + y * y = d ∧ 0 < d then ((a : Int), (y : Int)) :: (if 0 < a ∧ a < 8 ∧ 0 < y then [(-(a : Int), (y : Int))] else []) else []

end Jxl.Spec
