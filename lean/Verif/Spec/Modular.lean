import Verif.Model.Modular

/-!
# Specification: coding a modular channel

A channel is a table of samples `img y x`. Neighbours, predictors and properties as the format defines them, in
unbounded integers, and the encoder that belongs to the decoder: it sees the whole image and emits, for every sample in
raster order, the context and the number to code. The weighted predictor is shared by both sides (`wpStep`, `wpUpdate`).
-/
namespace Jxl

/-- `img y x` -/
abbrev Img := Nat → Nat → Int

/-- The samples of a buffer. -/
def Img.ofRows (b : List (List Int)) : Img := fun y x => (b.getD y []).getD x 0

/-- Neighbours of the sample in column `x` of row `y`, with the replacements used at the borders. -/
def Img.W (i : Img) (x y : Nat) : Int := if 0 < x then i y (x - 1) else if 0 < y then i (y - 1) x else 0
def Img.N (i : Img) (x y : Nat) : Int := if 0 < y then i (y - 1) x else i.W x y
def Img.NW (i : Img) (x y : Nat) : Int := if 0 < x ∧ 0 < y then i (y - 1) (x - 1) else i.W x y
def Img.NE (i : Img) (w x y : Nat) : Int := if x + 1 < w ∧ 0 < y then i (y - 1) (x + 1) else i.N x y
def Img.NN (i : Img) (x y : Nat) : Int := if 1 < y then i (y - 2) x else i.N x y
def Img.WW (i : Img) (x y : Nat) : Int := if 1 < x then i y (x - 2) else i.W x y
def Img.NEE (i : Img) (w x y : Nat) : Int := if x + 2 < w ∧ 0 < y then i (y - 1) (x + 2) else i.NE w x y

/-- `v` limited to the interval between `a` and `b`. -/
def limit (v a b : Int) : Int := max (min a b) (min v (max a b))

/-- The fourteen predictors; `wp` is the weighted prediction, with three fractional bits. -/
def Img.predict (i : Img) (w : Nat) (wp : Int) (x y : Nat) : Nat → Int
  | 0 => 0
  | 1 => i.W x y
  | 2 => i.N x y
  | 3 => (i.W x y + i.N x y).tdiv 2
  | 4 => if (i.N x y - i.NW x y).natAbs < (i.W x y - i.NW x y).natAbs then i.W x y else i.N x y
  | 5 => limit (i.W x y + i.N x y - i.NW x y) (i.W x y) (i.N x y)
  | 6 => (wp + 3) / 8
  | 7 => i.NE w x y
  | 8 => i.NW x y
  | 9 => i.WW x y
  | 10 => (i.W x y + i.NW x y).tdiv 2
  | 11 => (i.N x y + i.NW x y).tdiv 2
  | 12 => (i.N x y + i.NE w x y).tdiv 2
  | _ => (6 * i.N x y - 2 * i.NN x y + 7 * i.W x y + i.WW x y + i.NEE w x y + 3 * i.NE w x y + 8).tdiv 16

/-- The channels that can be referred to: those of the same size and subsampling. -/
def sameShape (c d : Chan) : Bool := d.width == c.width && d.height == c.height && d.hshift == c.hshift && d.vshift == c.vshift

/-- The difference of a sample of an earlier channel to its clamped gradient prediction. -/
def Img.gradientDiff (i : Img) (x y : Nat) : Int :=
  let W := if 0 < x then i y (x - 1) else 0
  let N := if 0 < y then i (y - 1) x else W
  let NW := if 0 < x ∧ 0 < y then i (y - 1) (x - 1) else W
  i y x - limit (W + N - NW) N W

/-- Properties taken from an earlier channel. -/
def Img.refProp (i : Img) (x y : Nat) : Nat → Int
  | 0 => (i y x).natAbs
  | 1 => i y x
  | 2 => (i.gradientDiff x y).natAbs
  | _ => i.gradientDiff x y

/-- The properties that trees test; `me` is the largest error of the weighted predictor. -/
def Img.prop (i : Img) (c : Chan) (prev : List Chan) (channelIndex streamIndex me : Int) (x y : Nat) : Nat → Int
  | 0 => channelIndex
  | 1 => streamIndex
  | 2 => y
  | 3 => x
  | 4 => (i.N x y).natAbs
  | 5 => (i.W x y).natAbs
  | 6 => i.N x y
  | 7 => i.W x y
  | 8 => if 0 < x then i.W x y - (i.W (x - 1) y + i.N (x - 1) y - i.NW (x - 1) y) else i.W x y
  | 9 => i.W x y + i.N x y - i.NW x y
  | 10 => i.W x y - i.NW x y
  | 11 => i.NW x y - i.N x y
  | 12 => i.N x y - i.NE c.width x y
  | 13 => i.N x y - i.NN x y
  | 14 => i.W x y - i.WW x y
  | 15 => me
  | k + 16 => match (prev.filter (sameShape c))[k / 4]? with
    | some d => (Img.ofRows d.buffer).refProp x y (k % 4)
    | none => 0

/-- Evaluation of a tree: left if the property exceeds the value. -/
def MATree.eval (prop : Nat → Int) : MATree → MALeaf
  | .leaf l => l
  | .node p v a b => if v < prop p.toNat then a.eval prop else b.eval prop

/-- The number that codes a signed residual. -/
def packSigned (r : Int) : Nat := if 0 ≤ r then (2 * r).toNat else (-2 * r - 1).toNat

/-- The number to code for a sample `v` predicted as `p`: the difference, less the leaf's offset, divided by the leaf's
multiplier; `none` if that is not possible. -/
def residual (v p : Int) (l : MALeaf) : Option Nat :=
  let d := v - p - l.offset
  if l.multiplier ≠ 0 ∧ d % l.multiplier = 0 ∧ -2 ^ 30 ≤ d / l.multiplier ∧ d / l.multiplier < 2 ^ 31 then some (packSigned (d / l.multiplier))
  else none

/-- One sample: context and number, and the new state of the weighted predictor. `none` if the sample cannot be coded or
the weighted predictor fails or comes within 3 of the end of the 32-bit range. -/
def encodeSample (env : ChanEnv) (tree : MATree) (img : List (List Int)) (pl : WPPlanes) (y x : Nat) : Option ((Int × Nat) × WPPlanes) :=
  let i := Img.ofRows img
  match wpStep env img pl x y with
  | .ok (wp, pl1) =>
    let l := tree.eval (i.prop env.chan env.prev env.channelIndex env.streamIndex wp.maxError x y)
    match residual (i y x) (i.predict env.chan.width wp.pred x y l.predictor.toNat) l, wpUpdate env wp (i y x) pl1 x y with
    | some u, .ok pl2 => if wp.pred < 2 ^ 31 - 3 then some ((l.context, u), pl2) else none
    | _, _ => none
  | _ => none

/-- `n` samples from column `x` of row `y` on. -/
def encodeRow (env : ChanEnv) (tree : MATree) (img : List (List Int)) (y : Nat) : Nat → Nat → WPPlanes → Option (List (Int × Nat) × WPPlanes)
  | 0, _, pl => some ([], pl)
  | n + 1, x, pl => do
    let a ← encodeSample env tree img pl y x
    let r ← encodeRow env tree img y n (x + 1) a.2
    some (a.1 :: r.1, r.2)

/-- `n` rows from row `y` on. -/
def encodeRows (env : ChanEnv) (tree : MATree) (img : List (List Int)) : Nat → Nat → WPPlanes → Option (List (Int × Nat) × WPPlanes)
  | 0, _, pl => some ([], pl)
  | n + 1, y, pl => do
    let a ← encodeRow env tree img y env.chan.width 0 pl
    let r ← encodeRows env tree img n (y + 1) a.2
    some (a.1 ++ r.1, r.2)

/-- A buffer of `h` rows of `w` samples (no rows if there are no samples). -/
def Rect (h w : Nat) (b : List (List Int)) : Prop :=
  if h = 0 ∨ w = 0 then b = [] else b.length = h ∧ ∀ r ∈ b, r.length = w

/-- All samples have magnitude at most `2^26`. -/
def Small (b : List (List Int)) : Prop := ∀ r ∈ b, ∀ v ∈ r, -2 ^ 26 ≤ v ∧ v ≤ 2 ^ 26

/-- A tree as `C19` describes them, with usable leaves: properties and predictors in range. -/
def MATree.Usable : MATree → Prop
  | .leaf l => 0 ≤ l.predictor ∧ l.predictor ≤ 13
  | .node p _ a b => 0 ≤ p ∧ a.Usable ∧ b.Usable

end Jxl
