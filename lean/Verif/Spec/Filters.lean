import Verif.Model.Arith
import Verif.Spec.Image
import Verif.Props.Util

/-!
# Specification: the filters (C27, C65)

A plane is a function from rows and columns to samples. Outside of the picture it is mirrored at the edges.
-/
namespace Jxl

/-- A plane of `h` rows and `w` columns, mirrored at its edges. -/
def mirrored {α : Type} (h w : Nat) (f : Nat → Nat → α) (y x : Int) : α := f (mirrorSpec y h).toNat (mirrorSpec x w).toNat

/-- The buffer holds the plane. -/
def HoldsPlane {α : Type} (h w : Nat) (f : Nat → Nat → α) (m : List (List α)) : Prop :=
  Table h w m ∧ ∀ y x, y < h → x < w → sample m y x = some (f y x)

/-- Gaborish: a sample and its neighbours at the sides and at the corners, with weights 1, `w1` and `w2` divided by their sum. -/
def gabValue {α : Type} [Arith α] (w1 w2 : α) (h w : Nat) (f : Nat → Nat → α) (y x : Int) : α :=
  let p := mirrored h w f
  let m := Arith.lit 1 / (Arith.lit 1 + Arith.lit 4 * (w1 + w2))
  m * p y x + w1 * m * (p y (x - 1) + p y (x + 1) + p (y - 1) x + p (y + 1) x)
    + w2 * m * (p (y - 1) (x - 1) + p (y - 1) (x + 1) + p (y + 1) (x - 1) + p (y + 1) (x + 1))

/-! ## The edge-preserving filter -/

/-- A place and its four neighbours. -/
def plus : List (Int × Int) := [(0, 0), (0, -1), (0, 1), (-1, 0), (1, 0)]

/-- The places at most two steps up, down, left or right away. -/
def diamond : List (Int × Int) :=
  [(0, 0), (-1, 0), (1, 0), (0, -1), (0, 1), (1, -1), (1, 1), (-1, 1), (-1, -1), (-2, 0), (2, 0), (0, 2), (0, -2)]

/-- How different two places are: the differences of their surroundings (in the last pass, of the places alone), over the channels. -/
def epfDistance {α : Type} [Arith α] (last : Bool) (n h w : Nat) (scale : Nat → α) (f : Nat → Nat → Nat → α) (y x dy dx : Int) : α :=
  (List.range n).foldl (fun d c => (if last then [(0, 0)] else plus).foldl (fun d o =>
    d + Arith.abs (mirrored h w (f c) (y + o.1) (x + o.2) - mirrored h w (f c) (y + dy + o.1) (x + dx + o.2)) * scale c) d) (Arith.lit 0)

/-- The weight of a neighbour; `s` is the strength and `border` the factor at the border of a block. -/
def epfWeightOf {α : Type} [Arith α] (border : Option α) (s d : α) : α :=
  let d := match border with
    | none => d
    | some b => d * b
  let w := Arith.lit 1 - d * s
  if Arith.lt w (Arith.lit 0) then Arith.lit 0 else w

/-- The place is at the border of a block of 8 × 8. -/
def onBorder (y x : Nat) : Prop := y % 8 = 0 ∨ y % 8 = 7 ∨ x % 8 = 0 ∨ x % 8 = 7

instance (y x : Nat) : Decidable (onBorder y x) := by unfold onBorder; infer_instance

/-- The edge-preserving filter: the mean of the neighbours with their weights; `k` is the number of the pass, `s` the strength at the place. -/
def epfValue {α : Type} [Arith α] (k n h w : Nat) (scale : Nat → α) (borderMul s : α) (f : Nat → Nat → Nat → α) (y x c : Nat) : α :=
  let near := if k = 0 then diamond else plus
  let weight := fun (o : Int × Int) => epfWeightOf (if onBorder y x then some borderMul else none) s
    (epfDistance (k == 2) n h w scale f y x o.1 o.2)
  near.foldl (fun t o => t + mirrored h w (f c) ((y : Int) + o.1) ((x : Int) + o.2) * weight o) (Arith.lit 0) *
    (Arith.lit 1 / near.foldl (fun t o => t + weight o) (Arith.lit 0))

/-- All passes: each takes the planes of the one before. `s` is the inverse sigma of the blocks of 8 × 8, `sg` the scale of a pass; where the inverse sigma is above
1/0.3 the samples stay. -/
def epfAll {α : Type} [Arith α] (n h w : Nat) (scale : Nat → α) (borderMul : α) (s : Nat → Nat → α) (sg : Nat → α) (passes : List Nat)
    (f : Nat → Nat → Nat → α) : Nat → Nat → Nat → α :=
  passes.foldl (fun f pass c y x => if Arith.lt (Arith.lit (1 / (3 / 10))) (s (y / 8) (x / 8)) then f c y x
    else epfValue pass n h w scale borderMul (sg pass * s (y / 8) (x / 8)) f y x c) f

/-! ## Upsampling -/

/-- The 5 × 5 places around a place. -/
def square : List (Nat × Nat) :=
  [(0, 0), (0, 1), (0, 2), (0, 3), (0, 4), (1, 0), (1, 1), (1, 2), (1, 3), (1, 4), (2, 0), (2, 1), (2, 2), (2, 3), (2, 4),
   (3, 0), (3, 1), (3, 2), (3, 3), (3, 4), (4, 0), (4, 1), (4, 2), (4, 3), (4, 4)]

/-- The sample of the surroundings at a place of the square, whose middle is (2, 2). -/
def surrounding {α : Type} (h w : Nat) (f : Nat → Nat → α) (y x : Nat) (o : Nat × Nat) : α :=
  mirrored h w f ((y : Int) + o.1 - 2) ((x : Int) + o.2 - 2)

/-- The weighted sum of the surroundings. -/
def upSum {α : Type} [Arith α] (h w : Nat) (f : Nat → Nat → α) (wt : Nat → Nat → α) (y x : Nat) : α :=
  square.foldl (fun t o => t + wt o.1 o.2 * surrounding h w f y x o) (Arith.lit 0)

/-- The upsampled value: the weighted sum, if it is outside of the range of the 25 samples the nearest value of the range. The range also takes in two constants:
the least sample counts at most as the largest `float32`, and the largest sample at least as the smallest positive `float32`. -/
def upsampled {α : Type} [Arith α] (h w : Nat) (f : Nat → Nat → α) (wt : Nat → Nat → α) (y x : Nat) : α :=
  let least := square.foldl (fun m o => if Arith.lt (surrounding h w f y x o) m then surrounding h w f y x o else m) (Arith.lit ((2 ^ 24 - 1) * 2 ^ 104))
  let most := square.foldl (fun m o => if Arith.lt m (surrounding h w f y x o) then surrounding h w f y x o else m) (Arith.lit (1 / 2 ^ 149))
  let t := upSum h w f wt y x
  if Arith.lt t least then least else if Arith.lt most t then most else t

end Jxl
