import Verif.Model.HFCoefficients
import Verif.Spec.Orders
import Verif.Spec.Image

/-!
# Specification: how the coefficients of a block are coded

For every block and channel the stream has the number of the coefficients of high frequency that are not zero, and then the coefficients in the order of the pass, up to
the last one that is not zero. Every symbol is read in a context. With `n` block contexts a preset has `495 * n` contexts: `37 * n` for the numbers, and `458` for each block context.
-/
namespace Jxl.Spec

/-- A source of symbols that also notes the context and the value of every symbol it delivers. -/
def traced {σ : Type} (read : σ → Int → Rd (Int × σ)) (s : σ × List (Int × Int)) (ctx : Int) : Rd (Int × (σ × List (Int × Int))) := do
  let r ← read s.1 ctx
  pure (r.1, (r.2, s.2 ++ [(ctx, r.1)]))

/-- `x` is a context for a number, for block context `c`. -/
def CountContext (offset n c x : Int) : Prop := ∃ i, 0 ≤ i ∧ i < 37 ∧ x = offset + (c + n * i)

/-- `x` is a context for a coefficient, for block context `c`. -/
def ValueContext (offset n c x : Int) : Prop := ∃ v, 0 ≤ v ∧ v < 458 ∧ x = offset + 37 * n + (458 * c + v)

/-- The symbols of one channel of a block, with their contexts. -/
structure CodedBlock where
  ctx : Int
  count : Int × Int
  values : List (Int × Int)

/-- All symbols of a block. -/
def CodedBlock.symbols (b : CodedBlock) : List (Int × Int) := b.count :: b.values

/-- The symbols are used in the contexts meant for them; the number says how many of the coefficients are not zero. -/
structure CodedBlock.Ok (offset n : Int) (b : CodedBlock) : Prop where
  ctx : 0 ≤ b.ctx ∧ b.ctx < n
  count : CountContext offset n b.ctx b.count.1
  values : ∀ v ∈ b.values, ValueContext offset n b.ctx v.1
  number : ((b.values.countP (fun v => v.2 ≠ 0) : Nat) : Int) = b.count.2

/-- The entry in row `y`, column `x`. -/
def cell (m : List (List Int)) (y x : Int) : Option Int := if 0 ≤ y ∧ 0 ≤ x then sample m y.toNat x.toNat else none

/-- The coefficient for a symbol: the sign is the last bit. -/
def coefficient (shift : Nat) (v : Int) : Int := (if v % 2 = 0 then v / 2 else -((v + 1) / 2)) * 2 ^ shift

end Jxl.Spec

namespace Jxl
open Spec

/-- The table of block contexts has an entry for each of the 3 channels, the 13 classes of blocks, the intervals of the multiplier and those of the low frequencies. -/
structure HFBlockContext.WellFormed (hf : HFBlockContext) : Prop where
  lf : 0 < hf.numLFContexts
  size : (hf.clusterMap.length : Int) = 39 * ((hf.qfThresholds.length : Int) + 1) * hf.numLFContexts
  small : hf.clusterMap.length < 2147483648
  entries : ∀ c ∈ hf.clusterMap, 0 ≤ c ∧ c < hf.numClusters
  few : hf.numClusters < 2147483648

/-- All numbers in a table are between 0 and 63. -/
def CountTable (h w : Nat) (m : List (List Int)) : Prop := Table h w m ∧ ∀ y x v, cell m y x = some v → 0 ≤ v ∧ v ≤ 63

/-- The tables of a channel are as they should be. -/
def HFPlane.Good (p : HFPlane) : Prop := (∃ h w, CountTable h w p.nonZeros) ∧ ∃ h w, Table h w p.coeffs

/-- A block of one of the types, with an interval of its low frequencies. -/
def HFBlock.Good (hf : HFBlockContext) (b : HFBlock) : Prop := b.tt ∈ allDCT ∧ 0 ≤ b.lfIndex ∧ b.lfIndex < hf.numLFContexts

end Jxl
