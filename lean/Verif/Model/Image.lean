import Verif.Model.F32
import Verif.Model.Transforms

/-!
# Sample buffers (image/imagebuffer.go), orientation (core/jxl_codestream_decoder.go) and PFM output

Buffers are values here: two buffers never share rows (sharing is the subject of `Verif.Model.Copy`).
-/
namespace Jxl

/-- image/imagebuffer.go:14-24 `ImageBuffer`; `bufferType` is 0 for integers, 1 for floats; an unused plane is `[]`. -/
structure ImageBuffer where
  width : Int
  height : Int
  bufferType : Int
  floats : List (List F32)
  ints : List (List Int)
  deriving DecidableEq

/-- image/imagebuffer.go:157-159 `IsInt`. -/
def ImageBuffer.isInt (b : ImageBuffer) : Bool := b.bufferType == 0
/-- image/imagebuffer.go:153-155 `IsFloat`. -/
def ImageBuffer.isFloat (b : ImageBuffer) : Bool := b.bufferType == 1

/-- util/misc.go:12-18 `MakeMatrix2D`; `make` panics for a negative length. -/
def makeMatrix {α : Type} (zero : α) (a b : Int) : Res (List (List α)) :=
  if a < 0 then .panic
  else if 0 < a ∧ b < 0 then .panic
  else .ok (List.replicate a.toNat (List.replicate b.toNat zero))

/-- image/imagebuffer.go:26-47 `NewImageBuffer`. -/
def newImageBuffer (bufferType height width : Int) : Res ImageBuffer :=
  if bufferType ≠ 0 ∧ bufferType ≠ 1 then .err
  else if height < 0 ∨ 1073741824 < height ∨ width < 0 ∨ 1073741824 < width then .err
  else if bufferType = 0 then do
    let m ← makeMatrix 0 height width
    .ok ⟨width, height, bufferType, [], m⟩
  else do
    let m ← makeMatrix (F32.fin 0) height width
    .ok ⟨width, height, bufferType, m, []⟩

/-- image/imagebuffer.go:49-56 `NewImageBufferFromInts`. -/
def bufferFromInts (m : List (List Int)) : Res ImageBuffer := do
  let r ← idx m 0
  .ok ⟨i32 r.length, i32 m.length, 0, [], m⟩

/-- image/imagebuffer.go:58-65 `NewImageBufferFromFloats`. -/
def bufferFromFloats (m : List (List F32)) : Res ImageBuffer := do
  let r ← idx m 0
  .ok ⟨i32 r.length, i32 m.length, 1, m, []⟩

/-- Two nested loops `for y < h { for x < w { dest[Y][X] = f(y,x) } }` where the indices `Y`, `X` are given by `at_`. -/
def scatterTo {α : Type} (h w : Nat) (at_ : Nat → Nat → Int × Int) (f : Nat → Nat → Res α) (dest : List (List α)) : Res (List (List α)) :=
  forFrom (fun y d => forFrom (fun x d => do
    let v ← f y x
    set2 d (at_ y x).1 (at_ y x).2 v) w 0 d) h 0 dest

/-- The same with `dest[y][x] = f(y,x)`. -/
def fillLoop {α : Type} (h w : Nat) (f : Nat → Nat → Res α) (dest : List (List α)) : Res (List (List α)) :=
  scatterTo h w (fun y x => ((y : Int), (x : Int))) f dest

/-- image/imagebuffer.go:168-188 `castToFloatBuffer`. -/
def castToFloatBuffer (b : ImageBuffer) (maxValue : Int) : Res ImageBuffer :=
  if b.bufferType = 1 then .err
  else if maxValue < 1 then .err
  else do
    let nb ← makeMatrix (F32.fin 0) b.height b.width
    let scale := F32.div (.fin 1) (F32.ofInt maxValue)
    let nb ← fillLoop b.height.toNat b.width.toNat (fun y x => do
      let v ← at2 b.ints y x
      .ok (F32.mul (F32.ofInt v) scale)) nb
    .ok { b with bufferType := 1, floats := nb }

/-- image/imagebuffer.go:161-166 `CastToFloatIfMax`. -/
def castToFloatIfMax (b : ImageBuffer) (maxValue : Int) : Res ImageBuffer :=
  if b.bufferType = 1 then .ok b else castToFloatBuffer b maxValue

/-- How the compiler and the processor evaluate `x*y + z` and out-of-range conversions: the Go specification leaves
both open. -/
structure FloatImpl where
  fused : Bool
  big : F32 → Int

/-- `x*y + z`. -/
def FloatImpl.mulAdd (I : FloatImpl) (x y z : F32) : F32 := if I.fused then F32.fma x y z else F32.add (F32.mul x y) z

/-- image/imagebuffer.go:215-223: the conversion of one sample. -/
def sampleToInt (I : FloatImpl) (maxValue : Int) (f : F32) : Int :=
  let v := F32.toI32 I.big (I.mulAdd f (F32.ofInt maxValue) (.fin (1 / 2)))
  if v < 0 then 0 else if maxValue < v then maxValue else v

/-- image/imagebuffer.go:200-230 `castToIntBuffer`. -/
def castToIntBuffer (I : FloatImpl) (b : ImageBuffer) (maxValue : Int) : Res ImageBuffer :=
  if b.bufferType = 0 then .err
  else if maxValue < 1 then .err
  else do
    let nb ← makeMatrix 0 b.height b.width
    let nb ← fillLoop b.height.toNat b.width.toNat (fun y x => do
      let v ← at2 b.floats y x
      .ok (sampleToInt I maxValue v)) nb
    .ok { b with bufferType := 0, ints := nb }

/-- image/imagebuffer.go:190-198 `CastToIntIfMax`. Simplification: on an error the code also sets the buffer type; callers
return the error. -/
def castToIntIfMax (I : FloatImpl) (b : ImageBuffer) (maxValue : Int) : Res ImageBuffer :=
  if b.bufferType = 0 then .ok b else castToIntBuffer I b maxValue

/-- image/imagebuffer.go:232-252 `Clamp`. -/
def clampBuffer (b : ImageBuffer) (maxValue : Int) : Res ImageBuffer :=
  if b.isFloat then .err
  else do
    let nb ← makeMatrix 0 b.height b.width
    let nb ← fillLoop b.height.toNat b.width.toNat (fun y x => do
      let v ← at2 b.ints y x
      .ok (if v < 0 then 0 else if maxValue < v then maxValue else v)) nb
    .ok { b with ints := nb }

/-- util/misc.go:52-59: comparison of two rows of the same length, from index `j`. -/
def compareRow {α : Type} (cmp : α → α → Bool) : List α → List α → Bool
  | [], _ => true
  | x :: xs, y :: ys => if !cmp x y then false else compareRow cmp xs ys
  | _ :: _, [] => false

/-- util/misc.go:51-60: comparison of the rows. -/
def compareRows {α : Type} (cmp : α → α → Bool) : List (List α) → List (List α) → Bool
  | [], _ => true
  | r :: rs, s :: ss => if r.length ≠ s.length then false else if !compareRow cmp r s then false else compareRows cmp rs ss
  | _ :: _, [] => false

/-- util/misc.go:45-63 `CompareMatrix2D`. -/
def compareMatrix2D {α : Type} (cmp : α → α → Bool) (a b : List (List α)) : Bool :=
  if a.length ≠ b.length then false else compareRows cmp a b

/-- image/imagebuffer.go:128-151 `Equals`. -/
def ImageBuffer.equals (a b : ImageBuffer) : Bool :=
  if a.width ≠ b.width ∨ a.height ≠ b.height then false
  else if a.bufferType ≠ b.bufferType then false
  else if a.bufferType = 0 then compareMatrix2D (fun x y => decide (x = y)) a.ints b.ints
  else if a.bufferType = 1 then compareMatrix2D F32.eq a.floats b.floats
  else false

/-- core/jxl_codestream_decoder.go:1110-1180 `transposeBufferInt` and 1182-1252 `transposeBufferFloat`: the same code for the
two element types. The row copy of orientation 4 is written sample by sample; both copy a whole row, because the rows of
an image have the same length. -/
def transposeMatrix {α : Type} (zero : α) (src : List (List α)) (orientation : Nat) : Res (List (List α)) := do
  let r0 ← idx src 0
  let h := src.length
  let w := r0.length
  let h1 : Int := (h : Int) - 1
  let w1 : Int := (w : Int) - 1
  let get := fun (y x : Nat) => at2 src y x
  let tall ← makeMatrix zero w h
  let flat ← makeMatrix zero h w
  if orientation = 1 then .ok src
  else if orientation = 2 then scatterTo h w (fun y x => ((y : Int), w1 - x)) get flat
  else if orientation = 3 then scatterTo h w (fun y x => (h1 - y, w1 - x)) get flat
  else if orientation = 4 then scatterTo h w (fun y x => (h1 - y, (x : Int))) get flat
  else if orientation = 5 then scatterTo h w (fun y x => ((x : Int), (y : Int))) get tall
  else if orientation = 6 then scatterTo h w (fun y x => ((x : Int), h1 - y)) get tall
  else if orientation = 7 then scatterTo h w (fun y x => (w1 - x, h1 - y)) get tall
  else if orientation = 8 then scatterTo h w (fun y x => (w1 - x, (y : Int))) get tall
  else .err

/-- core/jxl_codestream_decoder.go:1094-1108 `transposeBuffer`. -/
def transposeBuffer (src : ImageBuffer) (orientation : Nat) : Res ImageBuffer :=
  if src.isInt then do
    let m ← transposeMatrix 0 src.ints orientation
    bufferFromInts m
  else do
    let m ← transposeMatrix (F32.fin 0) src.floats orientation
    bufferFromFloats m

/-- core/jxl_codestream_decoder.go:292-299: every channel of the canvas is oriented. -/
def orientCanvas : List ImageBuffer → Nat → Res (List ImageBuffer)
  | [], _ => .ok []
  | b :: bs, o => do
    let b' ← transposeBuffer b o
    let bs' ← orientCanvas bs o
    .ok (b' :: bs')

end Jxl
