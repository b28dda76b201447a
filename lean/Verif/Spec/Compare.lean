import Mathlib.Data.List.Forall2
import Verif.Model.JXLImage

/-!
# Comparing matrices: specification
-/
namespace Jxl

/-- Two matrices with the same shape whose elements are related in pairs. -/
def Alike2 {α : Type} (R : α → α → Prop) (a b : List (List α)) : Prop := List.Forall₂ (List.Forall₂ R) a b

/-- The same in three dimensions. -/
def Alike3 {α : Type} (R : α → α → Prop) (a b : List (List (List α))) : Prop := List.Forall₂ (Alike2 R) a b

/-- Two points of the plane with exact coordinates, at most `d` apart (sum of the two distances). -/
def PointsWithin (d : ℚ) (a b : CIEXY) : Prop :=
  ∃ ax ay bx bY : ℚ, a = ⟨.fin ax, .fin ay⟩ ∧ b = ⟨.fin bx, .fin bY⟩ ∧ |ax - bx| + |ay - bY| ≤ d

end Jxl
