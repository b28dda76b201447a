import Verif.Model.TransformType
import Verif.Model.HFPass
import Verif.Model.Transforms

/-!
# The transform blocks of an LF group (frame/hfmetadata.go)

The modular channel with the types and multipliers of the blocks is taken as it was decoded. Coordinates are in units of 8 pixels; they are at most 256,
so that no sum wraps around.
-/
namespace Jxl

/-- frame/hfmetadata.go:11-18 `HFMetadata`, without the decoded channels. A missing transform type is Go's `nil`. -/
structure HFMetadata where
  dctSelect : List (List (Option TransformType))
  hfMultiplier : List (List Int)
  deriving DecidableEq

/-- frame/hfmetadata.go:92-98: the first block found in `n` cells from column `x` on. -/
def rowHit (row : List (Option TransformType)) : Nat → Int → Res (Option TransformType)
  | 0, _ => .ok none
  | n + 1, x => do
    let c ← idx row x
    match c with
    | some tt => .ok (some tt)
    | none => rowHit row n (x + 1)

/-- frame/hfmetadata.go:84-99: the search in a row, from column `x` on. Every step goes right because blocks are not empty; running out of fuel stands for
an endless loop. -/
def rowScan (row : List (Option TransformType)) (width : Int) : Nat → Int → Res (Option Int)
  | 0, _ => .panic
  | n + 1, x =>
    if x < row.length then
      if (row.length : Int) < width + x then .ok none
      else do
        let h ← rowHit row width.toNat x
        match h with
        | some tt => rowScan row width n (x + tt.dctWidth)
        | none => .ok (some x)
    else .ok none

/-- frame/hfmetadata.go:104-109: the block is entered into the tables. -/
def markBlock (tt : TransformType) (mul : Int) (y x : Int) (m : HFMetadata) : Res HFMetadata :=
  forFrom (fun iy m => forFrom (fun ix m => do
    let d ← set2 m.dctSelect (y + iy) (x + ix) (some tt)
    let u ← set2 m.hfMultiplier (y + iy) (x + ix) mul
    .ok ⟨d, u⟩) tt.dctWidth.toNat 0 m) tt.dctHeight.toNat 0 m

/-- frame/hfmetadata.go:76-112 `placeBlock`, for `n` rows from row `y` on. -/
def placeBlock (tt : TransformType) (mul : Int) : Nat → Int → HFMetadata → Res (Point × HFMetadata)
  | 0, _, _ => .err
  | n + 1, y, m => do
    let row ← idx m.dctSelect y
    let r ← rowScan row tt.dctWidth (row.length + 1) 0
    match r with
    | some x => do
      let m ← markBlock tt mul y x m
      .ok (⟨y, x⟩, m)
    | none => placeBlock tt mul n (y + 1) m

/-- frame/hfmetadata.go:55-72: the blocks, given by their types and multipliers, are placed one after the other. -/
def placeBlocks : List (Int × Int) → Int → HFMetadata → Res (List Point × HFMetadata)
  | [], _, m => .ok ([], m)
  | (t, mul) :: bs, lastY, m => do
    if 26 < t ∨ t < 0 then .err
    else do
      let tt ← idx allDCT t
      let r ← placeBlock tt (i32 (1 + mul)) ((m.dctSelect.length : Int) - lastY).toNat lastY m
      let rest ← placeBlocks bs r.1.y r.2
      .ok (r.1 :: rest.1, rest.2)

/-- frame/hfmetadata.go:48-72: the blocks of an LF group of `h` by `w` cells. -/
def newHFMetadata (h w : Nat) (blocks : List (Int × Int)) : Res (List Point × HFMetadata) :=
  placeBlocks blocks 0 ⟨List.replicate h (List.replicate w none), List.replicate h (List.replicate w 0)⟩

end Jxl
