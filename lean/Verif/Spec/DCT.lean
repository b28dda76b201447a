import Mathlib.Analysis.SpecialFunctions.Trigonometric.Basic
import Verif.Model.Arith
import Verif.Spec.Image

/-!
# Specification: cosine transforms (C66)
-/
namespace Jxl

/-- Real numbers as an arithmetic. -/
noncomputable instance : Arith ℝ where
  abs a := |a|
  lt a b := @decide (a < b) (Classical.propDecidable _)
  lit q := q

/-- The basis of the cosine transform of length `N`: 1, and √2·cos(πn(k+½)/N) for the frequencies from 1 on. -/
noncomputable def basis (N n k : Nat) : ℝ := if n = 0 then 1 else Real.sqrt 2 * Real.cos (Real.pi * n * (k + 1 / 2) / N)

/-- The samples of a block of `h` rows and `w` columns, from its coefficients. -/
noncomputable def idct2 (h w : Nat) (f : Nat → Nat → ℝ) (y x : Nat) : ℝ :=
  ∑ m ∈ Finset.range h, ∑ n ∈ Finset.range w, f m n * basis h m y * basis w n x

/-- The coefficients of a block, from its samples. -/
noncomputable def fdct2 (h w : Nat) (f : Nat → Nat → ℝ) (m n : Nat) : ℝ :=
  (∑ y ∈ Finset.range h, ∑ x ∈ Finset.range w, f y x * basis h m y * basis w n x) / (h * w)

/-- The rectangle of `h` rows and `w` columns at (`y0`, `x0`) has been replaced by the samples `g`, everything else is as before. -/
def Laid {α : Type} (H W : Nat) (y0 x0 h w : Nat) (g : Nat → Nat → α) (m m' : List (List α)) : Prop :=
  Table H W m' ∧ ∀ j k, sample m' j k = if (y0 ≤ j ∧ j < y0 + h) ∧ (x0 ≤ k ∧ k < x0 + w) then some (g (j - y0) (k - x0)) else sample m j k

/-- The rectangle of `h` rows and `w` columns at (`y0`, `x0`) holds the samples `f`. -/
def HasBlock {α : Type} (y0 x0 h w : Nat) (f : Nat → Nat → α) (m : List (List α)) : Prop :=
  ∀ y x, y < h → x < w → sample m (y0 + y) (x0 + x) = some (f y x)

section
variable {α : Type} [Arith α]

/-- The table for the length `len` = 2 ^ `log` holds `c`. -/
def HasLUT (lut : List (List (List α))) (log len : Nat) (c : Nat → Nat → α) : Prop :=
  ∃ t, lut[log]? = some t ∧ ∀ n k, 1 ≤ n → n < len → k < len → sample t (n - 1) k = some (c n k)

/-- One sample of a series with the coefficients `s`, in the order in which the code sums it: s 0 + s 1 · c 1 k + …. -/
def idctVal (c : Nat → Nat → α) (len : Nat) (s : Nat → α) (k : Nat) : α := (List.range' 1 (len - 1)).foldl (fun t n => t + s n * c n k) (s 0)

/-- One coefficient of the samples `s`, in the order in which the code sums: (s 0 · c k 0 + s 1 · c k 1 + …) · (1 / len). -/
def fdctVal (c : Nat → Nat → α) (len : Nat) (s : Nat → α) (k : Nat) : α :=
  (if k = 0 then (List.range' 1 (len - 1)).foldl (fun t n => t + s n) (s 0)
   else (List.range' 1 (len - 1)).foldl (fun t n => t + s n * c k n) (s 0 * c k 0)) * (Arith.lit 1 / Arith.lit (len : Rat))

end

end Jxl
