import Verif.Model.Arith
import Verif.Model.Util
import Verif.Model.Modular
import Verif.Model.Transforms
import Verif.Model.JXLImage
import Verif.Model.Groups

/-!
# Colour conversion (colour/OpsinInverseMatrix.go, colour/colour_management.go, colour/CIEXY.go, util/MathsHelper.go)

Written for any arithmetic of samples. A matrix is a table of rows; a matrix that may be `nil` in Go is an `Option`. `float64` is used by the code to compare
chromaticities and sensor values only; here these comparisons use the same arithmetic as everything else.
-/
namespace Jxl

section
variable {α : Type} [Arith α]

/-! ## Matrices (util/MathsHelper.go) -/

/-- util/MathsHelper.go:206-213 `MatrixIdentity`. -/
def matrixIdentity (n : Nat) : List (List α) :=
  (List.range n).map fun (j : Nat) => (List.replicate n (Arith.lit 0 : α)).set j (Arith.lit 1)

/-- util/MathsHelper.go:228-230: one entry of the product of a matrix and a vector. -/
def rowTimes (row v : List α) (n : Nat) : Res α :=
  forFrom (fun x t => do
    let a ← idx row (x : Int)
    let b ← idx v (x : Int)
    .ok (t + a * b)) n 0 (Arith.lit 0)

/-- util/MathsHelper.go:215-237 `MatrixVectorMultiply`. `nil` and empty matrices leave the vector alone. -/
def matrixVectorMultiply (matrix : Option (List (List α))) (v : List α) : Res (List α) :=
  match matrix with
  | none => .ok v
  | some [] => .ok v
  | some (r0 :: rs) =>
    if v.length < r0.length ∨ v.length = 0 then .err
    else do
      let total ← forFrom (fun y total => do
        let row ← idx (r0 :: rs) (y : Int)
        let t ← rowTimes row v row.length
        setAt total (y : Int) t) (rs.length + 1) 0 (List.replicate (rs.length + 1) (Arith.lit 0))
      .ok (total ++ v.drop r0.length)

/-- util/MathsHelper.go:269-276: one row of the product of two matrices. -/
def rowByMatrix (left : List α) (right : List (List α)) (width : Nat) : Res (List α) :=
  forFrom (fun k r => do
    let a ← idx left (k : Int)
    let row ← idx right (k : Int)
    forFrom (fun j r => do
      let b ← idx row (j : Int)
      let o ← idx r (j : Int)
      setAt r (j : Int) (o + a * b)) row.length 0 r) right.length 0 (List.replicate width (Arith.lit 0))

/-- util/MathsHelper.go:251-281 `MatrixMatrixMultiply`. -/
def matrixMatrixMultiply (left right : Option (List (List α))) : Res (Option (List (List α))) :=
  match left, right with
  | none, r => .ok r
  | l, none => .ok l
  | some l, some r => do
    let l0 ← idx l 0
    if l0.length ≠ r.length then .err
    else do
      let r0 ← idx r 0
      let rows ← forFrom (fun i acc => do
        let li ← idx l (i : Int)
        let row ← rowByMatrix li r r0.length
        .ok (acc ++ [row])) l.length 0 []
      .ok (some rows)

/-- util/MathsHelper.go:240-249 `MatrixMultiply` of a first matrix and a list of others. -/
def matrixMultiply (first : Option (List (List α))) : List (Option (List (List α))) → Res (Option (List (List α)))
  | [] => .ok first
  | m :: ms => do
    let p ← matrixMatrixMultiply first m
    matrixMultiply p ms

/-- util/MathsHelper.go:284: the determinant, in the order of the code. -/
def det3 (a b c d e f g h i : α) : α := a * e * i + b * f * g + c * d * h - c * e * g - b * d * i - a * f * h

/-- util/MathsHelper.go:283-294 `InvertMatrix3x3`; `nil` if the determinant is zero. -/
def invertMatrix3x3 (m : List (List α)) : Res (Option (List (List α))) := do
  let a ← at2 m 0 0
  let b ← at2 m 0 1
  let c ← at2 m 0 2
  let d ← at2 m 1 0
  let e ← at2 m 1 1
  let f ← at2 m 1 2
  let g ← at2 m 2 0
  let h ← at2 m 2 1
  let i ← at2 m 2 2
  let det := det3 a b c d e f g h i
  if !Arith.lt det (Arith.lit 0) && !Arith.lt (Arith.lit 0) det then .ok none
  else
    let inv := Arith.lit 1 / det
    .ok (some [[(e * i - f * h) * inv, (c * h - b * i) * inv, (b * f - c * e) * inv],
      [(f * g - d * i) * inv, (a * i - c * g) * inv, (c * d - a * f) * inv],
      [(d * h - e * g) * inv, (b * g - a * h) * inv, (a * e - b * d) * inv]])

/-! ## Chromaticities -/

/-- colour/CIEXY.go:10-13 `CIEXY`. -/
structure XY (α : Type) where
  x : α
  y : α

/-- colour/CIEPrimaries.go:3-7 `CIEPrimaries`. -/
structure Primaries (α : Type) where
  red : XY α
  green : XY α
  blue : XY α

/-- colour/CIEXY.go:22-28 `Matches`. -/
def XY.near (a b : XY α) : Bool := Arith.lt (Arith.abs (a.x - b.x) + Arith.abs (a.y - b.y)) (Arith.lit (1 / 10000))

/-- colour/CIEPrimaries.go:17-23 `Matches`. -/
def Primaries.near (a b : Primaries α) : Bool := a.red.near b.red && a.green.near b.green && a.blue.near b.blue

/-- colour/colour_management.go:99-104 `validateXY`. -/
def XY.valid (p : XY α) : Bool :=
  !(Arith.lt p.x (Arith.lit 0) || Arith.lt (Arith.lit 1) p.x || !Arith.lt (Arith.lit 0) p.y || Arith.lt (Arith.lit 1) p.y)

/-- colour/colour_management.go:106-112 `GetXYZ`. -/
def getXYZ (p : XY α) : Res (List α) :=
  if p.valid then
    let inv := Arith.lit 1 / p.y
    .ok [p.x * inv, Arith.lit 1, (Arith.lit 1 - p.x - p.y) * inv]
  else .err

/-- colour/colour_management.go:17-21 `BRADFORD`. -/
def bradford : List (List α) :=
  [[Arith.lit (8951 / 10000), Arith.lit (2664 / 10000), Arith.lit (-1614 / 10000)],
   [Arith.lit (-7502 / 10000), Arith.lit (17135 / 10000), Arith.lit (367 / 10000)],
   [Arith.lit (389 / 10000), Arith.lit (-685 / 10000), Arith.lit (10296 / 10000)]]

/-- colour/CIEXY.go:69-76 `isLMSValid`. -/
def lmsValid (lms : List α) : Bool := lms.all fun v => !Arith.lt (Arith.abs v) (Arith.lit (1 / 100000000))

/-- A matrix with three numbers on the diagonal: colour/CIEXY.go:60-63 and colour/colour_management.go:90. -/
def diagonal (a b c : α) : List (List α) :=
  [[a, Arith.lit 0, Arith.lit 0], [Arith.lit 0, b, Arith.lit 0], [Arith.lit 0, Arith.lit 0, c]]

/-- colour/CIEXY.go:30-67 `AdaptWhitePoint`, for white points that are not `nil`. -/
def adaptWhitePoint (target current : XY α) : Res (Option (List (List α))) := do
  let wc ← getXYZ current
  let lc ← matrixVectorMultiply (some bradford) wc
  let wt ← getXYZ target
  let lt ← matrixVectorMultiply (some bradford) wt
  if lmsValid lc then do
    let a0 ← idx lt 0
    let b0 ← idx lc 0
    let a1 ← idx lt 1
    let b1 ← idx lc 1
    let a2 ← idx lt 2
    let b2 ← idx lc 2
    let inverse ← invertMatrix3x3 bradford
    matrixMultiply inverse [some (diagonal (a0 / b0) (a1 / b1) (a2 / b2)), some bradford]
  else .err

/-- colour/colour_management.go:62-97 `primariesToXYZ`, for arguments that are not `nil`. -/
def primariesToXYZ (p : Primaries α) (wp : XY α) : Res (Option (List (List α))) :=
  if !wp.valid then .err
  else
    match getXYZ p.red, getXYZ p.green, getXYZ p.blue with
    | .ok r, .ok g, .ok b => do
      let m ← transposeRows [r, g, b]
      let inverse ← invertMatrix3x3 m
      let w ← getXYZ wp
      let xyz ← matrixVectorMultiply inverse w
      let x ← idx xyz 0
      let y ← idx xyz 1
      let z ← idx xyz 2
      matrixMatrixMultiply (some m) (some (diagonal x y z))
    | _, _, _ => .err
where
  /-- util/MathsHelper.go:300-316 `TransposeMatrix` of three rows of three. -/
  transposeRows (t : List (List α)) : Res (List (List α)) :=
    forFrom (fun y m => do
      let row ← idx t (y : Int)
      forFrom (fun x m => do
        let v ← idx row (x : Int)
        set2 m (x : Int) (y : Int) v) 3 0 m) 3 0 (List.replicate 3 (List.replicate 3 (Arith.lit 0)))

/-- colour/colour_management.go:37-44: the matrix for the white points, `nil` if they match. -/
def whitePointConv (target current : XY α) : Res (Option (List (List α))) := if target.near current then .ok none else adaptWhitePoint target current

/-- colour/colour_management.go:31-60 `GetConversionMatrix`. -/
def conversionMatrix (targetPrim : Primaries α) (targetWP : XY α) (currentPrim : Primaries α) (currentWP : XY α) : Res (Option (List (List α))) :=
  if targetPrim.near currentPrim && targetWP.near currentWP then .ok (some (matrixIdentity 3))
  else do
    let white ← whitePointConv targetWP currentWP
    let forward ← primariesToXYZ currentPrim currentWP
    let t ← primariesToXYZ targetPrim targetWP
    match t with
    | none => .panic
    | some t => do
      let reverse ← invertMatrix3x3 t
      matrixMultiply reverse [white, forward]

/-! ## XYB -/

/-- colour/OpsinInverseMatrix.go:21-29 `OpsinInverseMatrix`, without the numbers that are used for quantisation. -/
structure Opsin (α : Type) where
  matrix : List (List α)
  bias : List α
  cbrtBias : List α
  prim : Primaries α
  white : XY α

/-- colour/OpsinInverseMatrix.go:35-52 and 98-103 `NewOpsinInverseMatrixAllParams`, `bakeCbrtBias`. `cbrt` is `SignedPow` with the exponent 1/3
(util/MathsHelper.go:35-40). -/
def Opsin.bake (cbrt : α → α) (prim : Primaries α) (white : XY α) (matrix : List (List α)) (bias : List α) : Res (Opsin α) := do
  let b0 ← idx bias 0
  let b1 ← idx bias 1
  let b2 ← idx bias 2
  .ok ⟨matrix, bias, [cbrt b0, cbrt b1, cbrt b2], prim, white⟩

/-- colour/OpsinInverseMatrix.go:105-116 `GetMatrix`. A matrix that is `nil` would be a panic when it is used. -/
def Opsin.forColours (cbrt : α → α) (o : Opsin α) (prim : Primaries α) (white : XY α) : Res (Opsin α) := do
  let conversion ← conversionMatrix prim white o.prim o.white
  let m ← matrixMultiply conversion [some o.matrix]
  match m with
  | none => .panic
  | some m => Opsin.bake cbrt prim white m o.bias

/-- Three planes. -/
structure RGBPlanes (α : Type) where
  p0 : List (List α)
  p1 : List (List α)
  p2 : List (List α)

/-- colour/OpsinInverseMatrix.go:125-142: what `InvertXYB` takes from the matrix: biases, their cube roots, rows. -/
structure XYB (α : Type) where
  scale : α
  bias : α × α × α
  cbrt : α × α × α
  m0 : α × α × α
  m1 : α × α × α
  m2 : α × α × α

/-- The first three elements of a slice. -/
def first3 (l : List α) : Res (α × α × α) := do
  let a ← idx l 0
  let b ← idx l 1
  let c ← idx l 2
  .ok (a, b, c)

/-- colour/OpsinInverseMatrix.go:125-142. -/
def Opsin.xyb (o : Opsin α) (intensityTarget : α) : Res (XYB α) := do
  let c ← first3 o.cbrtBias
  let b ← first3 o.bias
  let r0 ← idx o.matrix 0
  let m0 ← first3 r0
  let r1 ← idx o.matrix 1
  let m1 ← first3 r1
  let r2 ← idx o.matrix 2
  let m2 ← first3 r2
  .ok ⟨Arith.lit 255 / intensityTarget, b, c, m0, m1, m2⟩

/-- colour/OpsinInverseMatrix.go:160-166: the linear sensor values of a pixel. -/
def XYB.mix (k : XYB α) (b0 b1 b2 : α) : α × α × α :=
  let l := b1 + b0 - k.cbrt.1
  let m := b1 - b0 - k.cbrt.2.1
  let s := b2 - k.cbrt.2.2
  (l * l * l + k.bias.1, m * m * m + k.bias.2.1, s * s * s + k.bias.2.2)

/-- colour/OpsinInverseMatrix.go:169-171: one channel of a pixel. -/
def XYB.channel (k : XYB α) (m mix : α × α × α) : α := (mix.1 * m.1 + mix.2.1 * m.2.1 + mix.2.2 * m.2.2) * k.scale

/-- colour/OpsinInverseMatrix.go:156-171: one pixel. -/
def XYB.step (k : XYB α) (y x : Nat) (s : RGBPlanes α) : Res (RGBPlanes α) := do
  let b0 ← at2 s.p0 (y : Int) (x : Int)
  let b1 ← at2 s.p1 (y : Int) (x : Int)
  let b2 ← at2 s.p2 (y : Int) (x : Int)
  let mix := k.mix b0 b1 b2
  let p0 ← set2 s.p0 (y : Int) (x : Int) (k.channel k.m0 mix)
  let p1 ← set2 s.p1 (y : Int) (x : Int) (k.channel k.m1 mix)
  let p2 ← set2 s.p2 (y : Int) (x : Int) (k.channel k.m2 mix)
  .ok ⟨p0, p1, p2⟩

/-- colour/OpsinInverseMatrix.go:118-175 `InvertXYB`, for three planes (`performColourTransforms` passes three). -/
def invertXYB (o : Opsin α) (intensityTarget : α) (s : RGBPlanes α) : Res (RGBPlanes α) := do
  let k ← o.xyb intensityTarget
  forFrom (fun y s => do
    let row0 ← idx s.p0 (y : Int)
    let _ ← idx s.p1 (y : Int)
    let _ ← idx s.p2 (y : Int)
    forFrom (fun x s => k.step y x s) row0.length 0 s) s.p0.length 0 s

/-- core/jxl_codestream_decoder.go:722-727: one pixel of the YCbCr transform. -/
def ycbcrStep (y x : Nat) (s : RGBPlanes α) : Res (RGBPlanes α) := do
  let cb ← at2 s.p0 (y : Int) (x : Int)
  let y1 ← at2 s.p1 (y : Int) (x : Int)
  let yh := y1 + Arith.lit (50196078431372549019 / 100000000000000000000)
  let cr ← at2 s.p2 (y : Int) (x : Int)
  let p0 ← set2 s.p0 (y : Int) (x : Int) (yh + Arith.lit (1402 / 1000) * cr)
  let p1 ← set2 s.p1 (y : Int) (x : Int)
    (yh - Arith.lit (34413628620102214650 / 100000000000000000000) * cb - Arith.lit (71413628620102214650 / 100000000000000000000) * cr)
  let p2 ← set2 s.p2 (y : Int) (x : Int) (yh + Arith.lit (1772 / 1000) * cb)
  .ok ⟨p0, p1, p2⟩

/-- core/jxl_codestream_decoder.go:708-713: XYB is inverted if there is a matrix. -/
def invertIf (matrix : Option (Opsin α)) (intensityTarget : α) (s : RGBPlanes α) : Res (RGBPlanes α) :=
  match matrix with
  | some o => invertXYB o intensityTarget s
  | none => .ok s

/-- core/jxl_codestream_decoder.go:708-730: the transforms of three planes. `size` is the padded size of the frame. -/
def transformPlanes (matrix : Option (Opsin α)) (intensityTarget : α) (ycbcr : Bool) (size : Res Dim) (s : RGBPlanes α) : Res (RGBPlanes α) := do
  let s ← invertIf matrix intensityTarget s
  if ycbcr then do
    let d ← size
    forFrom (fun y s => forFrom (fun x s => ycbcrStep y x s) d.width 0 s) d.height 0 s
  else .ok s

end

/-- core/jxl_codestream_decoder.go:698-706: the three buffers as float planes; a buffer that is cast keeps that. -/
def castColours (depth : Nat) (l : List ImageBuffer) : Res (List ImageBuffer) :=
  forFrom (fun c l => do
    let b ← idx l (c : Int)
    if b.isInt then do
      let b ← castToFloatIfMax b (mask32 depth)
      setAt l (c : Int) b
    else .ok l) 3 0 l

/-- core/jxl_codestream_decoder.go:690-732 `performColourTransforms` on the buffers of a frame. -/
def performColourTransforms (matrix : Option (Opsin F32)) (intensityTarget : F32) (depth : Nat) (ycbcr : Bool) (size : Res Dim) (l : List ImageBuffer) :
    Res (List ImageBuffer) :=
  if matrix.isNone && !ycbcr then .ok l
  else do
    let l ← castColours depth l
    let b0 ← idx l 0
    let b1 ← idx l 1
    let b2 ← idx l 2
    let s ← transformPlanes matrix intensityTarget ycbcr size ⟨b0.floats, b1.floats, b2.floats⟩
    let l ← setAt l 0 { b0 with floats := s.p0 }
    let l ← setAt l 1 { b1 with floats := s.p1 }
    setAt l 2 { b2 with floats := s.p2 }

end Jxl
