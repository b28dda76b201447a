import Verif.Model.DCT
import Verif.Model.AFVBasis
import Verif.Model.TransformType

/-!
# Blocks: from coefficients to samples (frame/PassGroup.go)

Written for any arithmetic. `coeffs` (the dequantized coefficients), the scratch spaces and the frame buffer are different slices, and so are their rows. Positions are
numbers, not `int32`: they stay far below 2^31.
-/
namespace Jxl

/-- frame/PassGroup.go:124 `scratchBlock`: comes from a pool, with the contents of earlier uses. The fifth is not used. -/
structure Scratch (α : Type) where
  s0 : List (List α)
  s1 : List (List α)
  s2 : List (List α)
  s3 : List (List α)

/-- `copy(dst[xo:xo+w], src[xi:xi+w])`. Simplified: slicing past the length panics; Go allows it up to the capacity. -/
def copySpan {α : Type} (dst src : List α) (xo xi w : Nat) : Res (List α) :=
  if xo + w ≤ dst.length ∧ xi + w ≤ src.length then .ok (dst.take xo ++ (src.drop xi).take w ++ dst.drop (xo + w)) else .panic

/-- frame/PassGroup.go:286-293 and 432-436 `layBlock`. -/
def layBlock {α : Type} (block buffer : List (List α)) (inPos outPos inSize : Nat × Nat) : Res (List (List α)) :=
  forFrom (fun y buffer => dctRow (fun s d => copySpan d s outPos.2 inPos.2 inSize.2) block buffer (inPos.1 + y) (outPos.1 + y)) inSize.1 0 buffer

/-- A `*TransformType`: which of the package variables DCT8, …, DCT128_256 it is the address of, if of any, and what it points to. -/
structure TTRef where
  var? : Option Int
  tt : TransformType

/-- frame/hfmetadata.go:62-107: `placeBlock` gets the type by value and stores the address of its parameter. -/
def placedRef (tt : TransformType) : TTRef := ⟨none, tt⟩

section
variable {α : Type} [Arith α]

/-- frame/PassGroup.go:410-430 `auxDCT2`. -/
def auxDCT2 (coeffs result : List (List α)) (p ps : Nat × Nat) (s : Nat) : Res (List (List α)) := do
  let result ← layBlock coeffs result p ps (8, 8)
  let num := s / 2
  forFrom (fun iy result => forFrom (fun ix result => do
    let c00 ← at2 coeffs ((p.1 + iy : Nat) : Int) ((p.2 + ix : Nat) : Int)
    let c01 ← at2 coeffs ((p.1 + iy : Nat) : Int) ((p.2 + ix + num : Nat) : Int)
    let c10 ← at2 coeffs ((p.1 + iy + num : Nat) : Int) ((p.2 + ix : Nat) : Int)
    let c11 ← at2 coeffs ((p.1 + iy + num : Nat) : Int) ((p.2 + ix + num : Nat) : Int)
    let result ← set2 result ((ps.1 + iy * 2 : Nat) : Int) ((ps.2 + ix * 2 : Nat) : Int) (c00 + c01 + c10 + c11)
    let result ← set2 result ((ps.1 + iy * 2 : Nat) : Int) ((ps.2 + ix * 2 + 1 : Nat) : Int) (c00 + c01 - c10 - c11)
    let result ← set2 result ((ps.1 + iy * 2 + 1 : Nat) : Int) ((ps.2 + ix * 2 : Nat) : Int) (c00 - c01 + c10 - c11)
    set2 result ((ps.1 + iy * 2 + 1 : Nat) : Int) ((ps.2 + ix * 2 + 1 : Nat) : Int) (c00 - c01 - c10 + c11)) num 0 result) num 0 result

/-- frame/PassGroup.go:165-173, 194-202, 318-326, 366-374, 392-400: four rows of coefficients are gathered in the first scratch space, all but the first one. -/
def gatherRows (coeffs : List (List α)) (at_ : Nat → Nat → Nat × Nat) (w : Nat) (s0 : List (List α)) : Res (List (List α)) :=
  forFrom (fun iy s0 =>
    let startX := if iy = 0 then 1 else 0
    forFrom (fun ix s0 => do
      let v ← at2 coeffs ((at_ iy ix).1 : Int) ((at_ iy ix).2 : Int)
      set2 s0 (iy : Int) (ix : Int) v) (w - startX) startX s0) 4 0 s0

/-- frame/PassGroup.go:158-185: METHOD_DCT8_4, and with `transposed` false and steps along y 187-214: METHOD_DCT4_8. One of the two halves. -/
def invertHalf (lut : List (List (List α))) (coeffs buffer : List (List α)) (ppg ppf2 : Nat × Nat) (lf : α) (half : Nat) (transposed : Bool) (t : Scratch α) :
    Res (List (List α) × Scratch α) := do
  let s0 ← set2 t.s0 0 0 lf
  let s0 ← gatherRows coeffs (fun iy ix => (ppg.1 + half + iy * 2, ppg.2 + ix)) 8 s0
  let r ← inverseDCT2D lut s0 buffer (0, 0) ppf2 (4, 8) t.s1 t.s2 transposed
  .ok (r.1, ⟨s0, r.2.1, r.2.2, t.s3⟩)

/-- frame/PassGroup.go:158-214. -/
def invertHalves (lut : List (List (List α))) (coeffs buffer : List (List α)) (ppg ppf : Nat × Nat) (sideBySide : Bool) (t : Scratch α) :
    Res (List (List α) × Scratch α) := do
  let coeff0 ← at2 coeffs (ppg.1 : Int) (ppg.2 : Int)
  let coeff1 ← at2 coeffs ((ppg.1 + 1 : Nat) : Int) (ppg.2 : Int)
  let r ← invertHalf lut coeffs buffer ppg ppf (coeff0 + coeff1) 0 sideBySide t
  invertHalf lut coeffs r.1 ppg (if sideBySide then (ppf.1, ppf.2 + 4) else (ppf.1 + 4, ppf.2)) (coeff0 - coeff1) 1 sideBySide r.2

/-- frame/PassGroup.go:237-246: one sum of the Hornuss transform. -/
def hornussResidual (coeffs : List (List α)) (ppg : Nat × Nat) (y x : Nat) : Res α :=
  forFrom (fun iy residual =>
    let ixTemp := if iy = 0 then 1 else 0
    forFrom (fun ix residual => do
      let v ← at2 coeffs ((ppg.1 + y + iy * 2 : Nat) : Int) ((ppg.2 + x + ix * 2 : Nat) : Int)
      .ok (residual + v)) (4 - ixTemp) ixTemp residual) 4 0 (Arith.lit 0)

/-- frame/PassGroup.go:235-258: one quarter of the Hornuss transform. -/
def hornussQuarter (coeffs s1 : List (List α)) (ppg : Nat × Nat) (y x : Nat) (s0 : List (List α)) : Res (List (List α)) := do
  let blockLF ← at2 s1 (y : Int) (x : Int)
  let residual ← hornussResidual coeffs ppg y x
  let s0 ← set2 s0 ((4 * y + 1 : Nat) : Int) ((4 * x + 1 : Nat) : Int) (blockLF - residual * Arith.lit (1 / 16))
  let s0 ← forFrom (fun iy s0 => forFrom (fun ix s0 =>
    if ix = 1 ∧ iy = 1 then .ok s0 else do
    let v ← at2 coeffs ((ppg.1 + y + iy * 2 : Nat) : Int) ((ppg.2 + x + ix * 2 : Nat) : Int)
    let m ← at2 s0 ((4 * y + 1 : Nat) : Int) ((4 * x + 1 : Nat) : Int)
    set2 s0 ((4 * y + iy : Nat) : Int) ((x * 4 + ix : Nat) : Int) (v + m)) 4 0 s0) 4 0 s0
  let v ← at2 coeffs ((ppg.1 + y + 2 : Nat) : Int) ((ppg.2 + x + 2 : Nat) : Int)
  let m ← at2 s0 ((4 * y + 1 : Nat) : Int) ((4 * x + 1 : Nat) : Int)
  set2 s0 ((4 * y : Nat) : Int) ((4 * x : Nat) : Int) (v + m)

/-- frame/PassGroup.go:231-261: METHOD_HORNUSS. -/
def invertHornuss (coeffs buffer : List (List α)) (ppg ppf size : Nat × Nat) (t : Scratch α) : Res (List (List α) × Scratch α) := do
  let s1 ← auxDCT2 coeffs t.s1 ppg (0, 0) 2
  let s0 ← forFrom (fun y s0 => forFrom (fun x s0 => hornussQuarter coeffs s1 ppg y x s0) 2 0 s0) 2 0 t.s0
  let buffer ← layBlock s0 buffer (0, 0) ppf size
  .ok (buffer, ⟨s0, s1, t.s2, t.s3⟩)

/-- frame/PassGroup.go:222-224: METHOD_DCT2. -/
def invertDCT2 (coeffs buffer : List (List α)) (ppg ppf : Nat × Nat) (t : Scratch α) : Res (List (List α) × Scratch α) := do
  let s0 ← auxDCT2 coeffs t.s0 ppg (0, 0) 2
  let s1 ← auxDCT2 s0 t.s1 (0, 0) (0, 0) 4
  let buffer ← auxDCT2 s1 buffer (0, 0) ppf 8
  .ok (buffer, ⟨s0, s1, t.s2, t.s3⟩)

/-- frame/PassGroup.go:338-349: the samples of the corner. The sum of all samples, which nobody reads, is left out. -/
def afvCorner (basis s0 s1 : List (List α)) : Res (List (List α)) :=
  forFrom (fun iy s1 => forFrom (fun ix s1 => do
    let sample ← forFrom (fun j sample => do
      let v ← at2 s0 ((j / 4 : Nat) : Int) ((j % 4 : Nat) : Int)
      let b ← at2 basis (j : Int) ((iy * 4 + ix : Nat) : Int)
      .ok (sample + v * b)) 16 0 (Arith.lit 0)
    set2 s1 (iy : Int) (ix : Int) sample) 4 0 s1) 4 0 s1

/-- frame/PassGroup.go:317-408: the body of `invertAFV`. -/
def invertAFVAt (lut : List (List (List α))) (basis coeffs buffer : List (List α)) (flipY flipX : Bool) (ppg ppf : Nat × Nat) (t : Scratch α) : Res (List (List α) × Scratch α) := do
  let c00 ← at2 coeffs (ppg.1 : Int) (ppg.2 : Int)
  let c10 ← at2 coeffs ((ppg.1 + 1 : Nat) : Int) (ppg.2 : Int)
  let c01 ← at2 coeffs (ppg.1 : Int) ((ppg.2 + 1 : Nat) : Int)
  let s0 ← set2 t.s0 0 0 ((c00 + c10 + c01) * Arith.lit 4)
  let s0 ← gatherRows coeffs (fun iy ix => (ppg.1 + iy * 2, ppg.2 + ix * 2)) 4 s0
  let s1 ← afvCorner basis s0 t.s1
  let buffer ← forFrom (fun iy buffer => forFrom (fun ix buffer => do
    let v ← at2 s1 ((if flipY then 3 - iy else iy : Nat) : Int) ((if flipX then 3 - ix else ix : Nat) : Int)
    set2 buffer ((ppf.1 + (if flipY then 4 else 0) + iy : Nat) : Int) ((ppf.2 + (if flipX then 4 else 0) + ix : Nat) : Int) v) 4 0 buffer) 4 0 buffer
  let s0 ← set2 s0 0 0 (c00 + c10 - c01)
  let s0 ← gatherRows coeffs (fun iy ix => (ppg.1 + iy * 2, ppg.2 + ix * 2 + 1)) 4 s0
  let r ← inverseDCT2D lut s0 s1 (0, 0) (0, 0) (4, 4) t.s2 t.s3 false
  let buffer ← forFrom (fun iy buffer => forFrom (fun ix buffer => do
    let v ← at2 r.1 (ix : Int) (iy : Int)
    set2 buffer ((ppf.1 + (if flipY then 4 else 0) + iy : Nat) : Int) ((ppf.2 + (if flipX then 0 else 4) + ix : Nat) : Int) v) 4 0 buffer) 4 0 buffer
  let s0 ← set2 s0 0 0 (c00 - c10)
  let s0 ← gatherRows coeffs (fun iy ix => (ppg.1 + 1 + iy * 2, ppg.2 + ix)) 8 s0
  let r ← inverseDCT2D lut s0 r.1 (0, 0) (0, 0) (4, 8) r.2.1 r.2.2 false
  let buffer ← forFrom (fun iy buffer => forFrom (fun ix buffer => do
    let v ← at2 r.1 (iy : Int) (ix : Int)
    set2 buffer ((ppf.1 + (if flipY then 0 else 4) + iy : Nat) : Int) ((ppf.2 + ix : Nat) : Int) v) 8 0 buffer) 4 0 buffer
  .ok (buffer, ⟨s0, r.1, r.2.1, r.2.2⟩)

/-- frame/PassGroup.go:285-408 `invertAFV`; 328-335: `tt` is compared with the addresses AFV1, AFV2 and AFV3. -/
def invertAFV (lut : List (List (List α))) (basis coeffs buffer : List (List α)) (tt : TTRef) (ppg ppf : Nat × Nat) (t : Scratch α) : Res (List (List α) × Scratch α) :=
  let flipY := decide (tt.var? = some 16 ∨ tt.var? = some 17)
  let flipX := decide (tt.var? = some 15 ∨ tt.var? = some 17)
  invertAFVAt lut basis coeffs buffer flipY flipX ppg ppf t

/-- frame/PassGroup.go:153-266: one channel of one block. Log output is left out. -/
def invertBlock (lut : List (List (List α))) (basis coeffs buffer : List (List α)) (tt : TTRef) (ppg ppf : Nat × Nat) (t : Scratch α) : Res (List (List α) × Scratch α) :=
  let size := (tt.tt.pixelHeight.toNat, tt.tt.pixelWidth.toNat)
  if tt.tt.method = 0 then do
    let r ← inverseDCT2D lut coeffs buffer ppg ppf size t.s0 t.s1 false
    .ok (r.1, ⟨r.2.1, r.2.2, t.s2, t.s3⟩)
  else if tt.tt.method = 4 then invertHalves lut coeffs buffer ppg ppf true t
  else if tt.tt.method = 5 then invertHalves lut coeffs buffer ppg ppf false t
  else if tt.tt.method = 6 then invertAFV lut basis coeffs buffer tt ppg ppf t
  else if tt.tt.method = 1 then invertDCT2 coeffs buffer ppg ppf t
  else if tt.tt.method = 3 then invertHornuss coeffs buffer ppg ppf size t
  else if tt.tt.method = 2 then .panic
  else .err

/-- A block of a group: its place in the group in units of 8 pixels and its type. -/
structure VBlock where
  groupY : Nat
  groupX : Nat
  tt : TTRef

/-- frame/PassGroup.go:140-144: does the block have samples in a channel that is subsampled by 2^`up`? -/
def VBlock.takesPart (b : VBlock) (up : Nat × Nat) : Bool := (b.groupY >>> up.1) <<< up.1 == b.groupY && (b.groupX >>> up.2) <<< up.2 == b.groupX

/-- frame/PassGroup.go:145-148: the place of the block's coefficients. -/
def VBlock.ppg (b : VBlock) (up : Nat × Nat) : Nat × Nat := ((b.groupY >>> up.1) <<< 3, (b.groupX >>> up.2) <<< 3)

/-- frame/PassGroup.go:149-152: the place of the block's samples; `loc` is the group's place in the frame. -/
def VBlock.ppf (b : VBlock) (up loc : Nat × Nat) : Nat × Nat := ((b.ppg up).1 + loc.1 >>> up.1, (b.ppg up).2 + loc.2 >>> up.2)

/-- frame/PassGroup.go:130-268: the blocks of a group, each with its three channels. -/
def invertBlocks (lut : List (List (List α))) (basis : List (List α)) (coeffs : List (List (List α))) (up : List (Nat × Nat)) (loc : Nat × Nat) :
    List VBlock → List (List (List α)) → Scratch α → Res (List (List (List α)) × Scratch α)
  | [], frameBuffer, t => .ok (frameBuffer, t)
  | b :: bs, frameBuffer, t => do
    let r ← forFrom (fun c st => do
      let u ← idx up (c : Int)
      if !b.takesPart u then .ok st else do
      let co ← idx coeffs (c : Int)
      let buffer ← idx st.1 (c : Int)
      let r ← invertBlock lut basis co buffer b.tt (b.ppg u) (b.ppf u loc) st.2
      let frameBuffer ← setAt st.1 (c : Int) r.1
      .ok (frameBuffer, r.2)) 3 0 (frameBuffer, t)
    invertBlocks lut basis coeffs up loc bs r.1 r.2

/-- frame/PassGroup.go:108-270 `invertVarDCT`. `coeffs` are the coefficients after `bakeDequantizedCoeffs`, `hasPrev` says whether there is a group of an earlier pass,
`groupLocation` is the place of the group in units of 256 pixels. -/
def invertVarDCT (lut : List (List (List α))) (basis : List (List α)) (hasPrev : Bool) (coeffs : List (List (List α))) (up : List (Nat × Nat)) (groupLocation : Nat × Nat)
    (blocks : List VBlock) (frameBuffer : List (List (List α))) (t : Scratch α) : Res (List (List (List α)) × Scratch α) :=
  if hasPrev then .panic
  else invertBlocks lut basis coeffs up (groupLocation.1 <<< 8, groupLocation.2 <<< 8) blocks frameBuffer t

end

end Jxl
