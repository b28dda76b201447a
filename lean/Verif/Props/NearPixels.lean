import Verif.Spec.NearPixels
import Verif.Model.Entropy

/-! # C15: the table of special distances -/
namespace Jxl
open Spec

/-- **C15**, the table: the distances that the first 120 codes stand for are those of the nearest pixels that are already decoded, nearest first. -/
theorem C15_special_distances : specialDistances = nearPixels := by decide +kernel

/-- The table has 120 pairs, all different, none later than the pixel itself; the first is the pixel above, the last is that eight columns to the left and seven rows up. -/
example : nearPixels.length = 120 ∧ nearPixels.Nodup ∧ (∀ p ∈ nearPixels, 0 < p.2 ∨ p.2 = 0 ∧ 0 < p.1) ∧ nearPixels.head? = some (0, 1) ∧ nearPixels.getLast? = some (8, 7) := by decide +kernel

end Jxl
