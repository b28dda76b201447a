import Verif.Model.Image
import Verif.Model.JXLImage
import Verif.Model.HFGlobal

/-!
# Comparing, clamping and filling (util/misc.go, util/MathsHelper.go, colour/OpsinInverseMatrix.go, frame/dctparams.go)
-/
namespace Jxl

/-- A loop that returns `false` at the first index, counted from `i`, for which the body says so: the shape of the loops at
util/misc.go:71-85 and util/MathsHelper.go:327-335. -/
def whileTrue (f : Nat → Res Bool) : Nat → Nat → Res Bool
  | 0, _ => .ok true
  | n + 1, i => do
    let b ← f i
    if b then whileTrue f n (i + 1) else .ok false

/-- util/misc.go:65-88 `CompareMatrix3D`. -/
def compareMatrix3D {α : Type} (cmp : α → α → Bool) (a b : List (List (List α))) : Res Bool :=
  if a.length ≠ b.length then .ok false
  else whileTrue (fun i => do
    let ai ← idx a i
    let bi ← idx b i
    if ai.length ≠ bi.length then .ok false
    else whileTrue (fun j => do
      let aj ← idx ai j
      let bj ← idx bi j
      if aj.length ≠ bj.length then .ok false
      else whileTrue (fun k => do
        let x ← idx aj k
        let y ← idx bj k
        .ok (cmp x y)) aj.length 0) ai.length 0) a.length 0

/-- util/MathsHelper.go:323-337 `Matrix3Equal`. -/
def matrix3Equal {α : Type} [DecidableEq α] (a b : List (List (List α))) : Res Bool :=
  if a.length ≠ b.length then .ok false
  else whileTrue (fun i => do
    let ai ← idx a i
    whileTrue (fun j => do
      let aj ← idx ai j
      whileTrue (fun k => do
        let x ← idx aj k
        let bi ← idx b i
        let bj ← idx bi j
        let y ← idx bj k
        .ok (decide (x = y))) aj.length 0) ai.length 0) a.length 0

/-- frame/dctparams.go:18-51 `Equals`. The numbers are exact, as everywhere in the model of this structure. -/
def DCTParam.equals (p q : DCTParam) : Bool :=
  if p.mode ≠ q.mode then false
  else if p.den ≠ q.den then false
  else if p.dct.length ≠ q.dct.length then false
  else if p.param.length ≠ q.param.length then false
  else if !compareMatrix2D (fun x y => decide (x = y)) p.dct q.dct then false
  else if !compareMatrix2D (fun x y => decide (x = y)) p.param q.param then false
  else if !compareMatrix2D (fun x y => decide (x = y)) p.p44 q.p44 then false
  else true

/-- `cmp.Compare` of the Go library on `float32`: NaN is equal to itself and less than every number. -/
def F32.compare (x y : F32) : Int :=
  if x = .nan then (if y = .nan then 0 else -1)
  else if y = .nan then 1
  else if F32.lt x y then -1
  else if F32.lt y x then 1
  else 0

/-- `slices.Compare` of the Go library on `float32` (called at colour/OpsinInverseMatrix.go:184-190). -/
def compareFloats : List F32 → List F32 → Int
  | [], [] => 0
  | [], _ :: _ => -1
  | _ :: _, [] => 1
  | x :: xs, y :: ys => if F32.compare x y ≠ 0 then F32.compare x y else compareFloats xs ys

/-- colour/OpsinInverseMatrix.go:21-29: the fields that `Matches` looks at. -/
structure OpsinParams where
  matrix : List (List F32)
  opsinBias : List F32
  quantBias : List F32
  quantBiasNumerator : F32
  primaries : CIEPrimaries
  whitePoint : CIEXY

/-- colour/OpsinInverseMatrix.go:178-213 `Matches`. -/
def OpsinParams.matches (a b : OpsinParams) : Bool :=
  if !compareMatrix2D F32.eq a.matrix b.matrix then false
  else if compareFloats a.opsinBias b.opsinBias ≠ 0 then false
  else if compareFloats a.quantBias b.quantBias ≠ 0 then false
  else if !F32.eq a.quantBiasNumerator b.quantBiasNumerator then false
  else if !a.primaries.red.matches b.primaries.red then false
  else if !a.primaries.green.matches b.primaries.green then false
  else if !a.primaries.blue.matches b.primaries.blue then false
  else if !a.whitePoint.matches b.whitePoint then false
  else true

/-- util/MathsHelper.go:135-155 `Clamp3Float32`. -/
def clamp3F32 (v a b : F32) : F32 :=
  let lower := if F32.lt a b then a else b
  let upper := if F32.lt a b then b else a
  if F32.lt v lower then lower else if F32.lt upper v then upper else v

/-- util/misc.go:90-94 `FillFloat32`: the loop from `i`, `n` steps. -/
def fillFrom {α : Type} (v : α) : Nat → Nat → List α → Res (List α)
  | 0, _, l => .ok l
  | n + 1, i, l => do
    let l ← setAt l (i : Int) v
    fillFrom v n (i + 1) l

/-- util/misc.go:90-94 `FillFloat32`. -/
def fillFloat32 {α : Type} (l : List α) (fromIndex toIndex : Nat) (v : α) : Res (List α) := fillFrom v (toIndex - fromIndex) fromIndex l

end Jxl
