import Verif.Model.Arith
import Verif.Model.Util
import Verif.Model.Transforms

/-!
# Cosine transforms (util/MathsHelper.go)

Written for any arithmetic. The source and the target of a transform are different slices at every call, so the source is an argument that stays. Positions are
numbers, not `int32`: they stay far below 2^31.
-/
namespace Jxl

/-- util/MathsHelper.go:19-33 `generateCosineLUT`: tables for the lengths 1, 2, … 256; `cos l n k` is √2·cos(π(n+1)(k+½)/2^l) as the machine computes it. -/
def generateCosineLUT {α : Type} (cos : Nat → Nat → Nat → α) : List (List (List α)) :=
  (List.range 9).map fun (l : Nat) => (List.range (2 ^ l - 1)).map fun (n : Nat) => (List.range (2 ^ l)).map fun (k : Nat) => cos l n k

/-- util/MathsHelper.go:314-321 `TransposeMatrixInto`. `src` and `dest` are different. -/
def transposeMatrixInto {α : Type} (src dest : List (List α)) (srcStart destStart srcSize : Nat × Nat) : Res (List (List α)) :=
  forFrom (fun y dest => do
    let srcY ← idx src ((y + srcStart.1 : Nat) : Int)
    forFrom (fun x dest => do
      let v ← idx srcY ((srcStart.2 + x : Nat) : Int)
      set2 dest ((destStart.1 + x : Nat) : Int) ((destStart.2 + y : Nat) : Int) v) srcSize.2 0 dest) srcSize.1 0 dest

section
variable {α : Type} [Arith α] (lut : List (List (List α)))

/-- util/MathsHelper.go:373-392 `inverseDCTHorizontal`. -/
def inverseDCTHorizontal (src dest : List α) (xStartIn xStartOut xLogLength xLength : Nat) : Res (List α) := do
  let dest ← forFrom (fun i dest => do
    let v ← idx src (xStartIn : Int)
    setAt dest (i : Int) v) xLength xStartOut dest
  let lutX ← idx lut (xLogLength : Int)
  forFrom (fun n dest => do
    let l ← idx lutX ((n : Int) - 1)
    let s2 ← idx src ((xStartIn + n : Nat) : Int)
    forFrom (fun k dest => do
      let d ← idx dest ((xStartOut + k : Nat) : Int)
      let c ← idx l (k : Int)
      setAt dest ((xStartOut + k : Nat) : Int) (d + s2 * c)) xLength 0 dest) (xLength - 1) 1 dest

/-- util/MathsHelper.go:416-434 `forwardDCTHorizontal`. -/
def forwardDCTHorizontal (src dest : List α) (xStartIn xStartOut xLogLength xLength : Nat) : Res (List α) := do
  let invLength : α := Arith.lit 1 / Arith.lit (xLength : Rat)
  let d2 ← idx src (xStartIn : Int)
  let d2 ← forFrom (fun x d2 => do
    let v ← idx src ((xStartIn + x : Nat) : Int)
    .ok (d2 + v)) (xLength - 1) 1 d2
  let dest ← setAt dest (xStartOut : Int) (d2 * invLength)
  forFrom (fun k dest => do
    let lutX ← idx lut (xLogLength : Int)
    let l ← idx lutX ((k : Int) - 1)
    let s ← idx src (xStartIn : Int)
    let c ← idx l 0
    let d2 ← forFrom (fun n d2 => do
      let v ← idx src ((xStartIn + n : Nat) : Int)
      let c ← idx l (n : Int)
      .ok (d2 + v * c)) (xLength - 1) 1 (s * c)
    setAt dest ((xStartOut + k : Nat) : Int) (d2 * invLength)) (xLength - 1) 1 dest

/-- A row of a matrix is transformed into a row of another. -/
def dctRow (f : List α → List α → Res (List α)) (src dest : List (List α)) (ySrc yDest : Nat) : Res (List (List α)) := do
  let s ← idx src (ySrc : Int)
  let d ← idx dest (yDest : Int)
  let d ← f s d
  setAt dest (yDest : Int) d

/-- util/MathsHelper.go:339-371 `InverseDCT2D`. Returns the target and the two scratch spaces. -/
def inverseDCT2D (src dest : List (List α)) (startIn startOut size : Nat × Nat) (scratch0 scratch1 : List (List α)) (transposed : Bool) :
    Res (List (List α) × List (List α) × List (List α)) :=
  let logHeight := ceilLog2 32 size.1
  let logWidth := ceilLog2 32 size.2
  if transposed then do
    let scratch1 ← forFrom (fun y scratch1 =>
      dctRow (fun s d => inverseDCTHorizontal lut s d startIn.2 0 logWidth size.2) src scratch1 (startIn.1 + y) y) size.1 0 scratch1
    let scratch0 ← transposeMatrixInto scratch1 scratch0 (0, 0) (0, 0) size
    let dest ← forFrom (fun y dest =>
      dctRow (fun s d => inverseDCTHorizontal lut s d 0 startOut.2 logHeight size.1) scratch0 dest y (startOut.1 + y)) size.2 0 dest
    .ok (dest, scratch0, scratch1)
  else do
    let scratch0 ← transposeMatrixInto src scratch0 startIn (0, 0) size
    let scratch1 ← forFrom (fun y scratch1 =>
      dctRow (fun s d => inverseDCTHorizontal lut s d 0 0 logHeight size.1) scratch0 scratch1 y y) size.2 0 scratch1
    let scratch0 ← transposeMatrixInto scratch1 scratch0 (0, 0) (0, 0) (size.2, size.1)
    let dest ← forFrom (fun y dest =>
      dctRow (fun s d => inverseDCTHorizontal lut s d 0 startOut.2 logWidth size.2) scratch0 dest y (startOut.1 + y)) size.1 0 dest
    .ok (dest, scratch0, scratch1)

/-- util/MathsHelper.go:394-414 `ForwardDCT2D`. Returns the target and the two scratch spaces. -/
def forwardDCT2D (src dest : List (List α)) (startIn startOut length : Nat × Nat) (scratch0 scratch1 : List (List α)) :
    Res (List (List α) × List (List α) × List (List α)) := do
  let yLogLength := ceilLog2 32 length.1
  let xLogLength := ceilLog2 32 length.2
  let scratch0 ← forFrom (fun y scratch0 =>
    dctRow (fun s d => forwardDCTHorizontal lut s d startIn.2 0 xLogLength length.2) src scratch0 (y + startIn.1) y) length.1 0 scratch0
  let scratch1 ← transposeMatrixInto scratch0 scratch1 (0, 0) (0, 0) length
  let scratch0 ← forFrom (fun x scratch0 =>
    dctRow (fun s d => forwardDCTHorizontal lut s d 0 0 yLogLength length.1) scratch1 scratch0 x x) length.2 0 scratch0
  let dest ← transposeMatrixInto scratch0 dest (0, 0) startOut (length.2, length.1)
  .ok (dest, scratch0, scratch1)

end

end Jxl
