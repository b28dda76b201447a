import Verif.Model.FrameHeader
import Verif.Spec.ImageHeader
/-!
# The frame header, as the format defines it

The fields are transcribed from ISO/IEC 18181-1 (frame header). Constraints on values that no theorem needs are left out: a header that
violates them is not a valid one, but reading it is defined all the same.
-/
namespace Jxl
open Spec

/-- `Passes`: number of passes, shifts, downsampling factors, last pass of each factor. The last entry of each list is implicit. -/
def decPasses : Dec Passes := do
  let np ← decU32 (fun k => match k with | 0 => (1, 0) | 1 => (2, 0) | 2 => (3, 0) | 3 => (4, 3))
  let nds ← decIf (decide (np ≠ 1)) (decU32 (fun k => match k with | 0 => (0, 0) | 1 => (1, 0) | 2 => (2, 0) | 3 => (3, 1))) 0
  let sh ← decList (decBits 2) (np - 1)
  let ds ← decList (do let v ← decBits 2; pure (2 ^ v)) nds
  let lp ← decList (decU32 (fun k => match k with | 0 => (0, 0) | 1 => (1, 0) | 2 => (2, 0) | 3 => (0, 3))) nds
  pure ⟨np, nds, sh ++ [0], ds ++ [1], lp ++ [np - 1]⟩

/-- The passes of a frame whose header does not give them: one pass, at full resolution. -/
def onePass : Passes := ⟨1, 0, [0], [1], [0]⟩

/-- `BlendingInfo`. Modes: 0 replace, 1 add, 2 blend, 3 alpha-weighted add, 4 multiply. -/
def decBlending (extra partialFrame : Bool) : Dec Blending := do
  let mode ← decU32 (fun k => match k with | 0 => (0, 0) | 1 => (1, 0) | 2 => (2, 0) | 3 => (3, 2))
  let mode ← decCheck (decide (mode ≤ 4)) mode
  let alpha ← decIf (extra && decide (mode = 2 ∨ mode = 3)) (decU32 (fun k => match k with | 0 => (0, 0) | 1 => (1, 0) | 2 => (2, 0) | 3 => (3, 3))) 0
  let clamp ← decIf ((extra && decide (mode = 2 ∨ mode = 3)) || decide (mode = 4)) decBool false
  let source ← decIf (decide (mode ≠ 0) || partialFrame) (decBits 2) 0
  pure ⟨mode, alpha, clamp, source⟩

/-- `RestorationFilter`; `most` is the largest number of iterations that is allowed to be stated (3 in the format). `encoding` is 0 for
VarDCT and 1 for Modular. `weights` is true in the format; without it, there is no field for custom weights. -/
def decRestorationW (weights : Bool) (most encoding : Nat) : Dec Restoration := do
  let allDefault ← decBool
  let gab ← decIf (!allDefault) decBool true
  let customGab ← decIf (!allDefault && gab) decBool false
  let gabs ← decIf customGab (decList (do let a ← decF16; let b ← decF16; pure (a, b)) 3) (gab1Default.zip gab2Default)
  let iters ← decIf (!allDefault) (do let v ← decBits 2; decCheck (decide (v ≤ most)) v) 2
  let epf := !allDefault && decide (0 < iters)
  let sharpCustom ← decIf (epf && decide (encoding = 0)) decBool false
  let sharp ← decIf sharpCustom (decList decF16 8) sharpDefault
  let weightCustom ← decIf (weights && epf) decBool false
  let scale ← decIf weightCustom (decList decF16 3) scaleDefault
  let _ ← decIf weightCustom (decList decF16 2) []
  let sigmaCustom ← decIf epf decBool false
  let quantMul ← decIf (sigmaCustom && decide (encoding = 0)) decF16 (46 / 100)
  let pass0 ← decIf sigmaCustom decF16 (9 / 10)
  let pass2 ← decIf sigmaCustom decF16 (65 / 10)
  let borderSad ← decIf sigmaCustom decF16 (2 / 3)
  let sigmaModular ← decIf (epf && decide (encoding = 1)) decF16 1
  let ext ← decIf (!allDefault) decNoPayload ⟨List.replicate 64 [], 0⟩
  pure ⟨gab, customGab, gabs.map (·.1), gabs.map (·.2), iters, sharpCustom, sharp, weightCustom, scale, sigmaCustom, quantMul, pass0, pass2,
    borderSad, sigmaModular, ext⟩

/-- `RestorationFilter` as the format has it. -/
def decRestoration (most encoding : Nat) : Dec Restoration := decRestorationW true most encoding

/-- The filters of a frame whose header does not give them. -/
def defaultFilters : Restoration :=
  ⟨true, false, gab1Default, gab2Default, 2, false, sharpDefault, false, scaleDefault, false, 46 / 100, 9 / 10, 65 / 10, 2 / 3, 1, ⟨List.replicate 64 [], 0⟩⟩

/-- Number of bits by which a channel is subsampled, horizontally and vertically, in the four chroma modes. -/
def chromaShift : Nat → Nat × Nat
  | 1 => (1, 1)
  | 2 => (1, 0)
  | 3 => (0, 1)
  | _ => (0, 0)

/-- One coordinate of a crop rectangle. -/
def decCoord : Dec Nat := decU32 (fun k => match k with | 0 => (0, 8) | 1 => (256, 11) | 2 => (2304, 14) | 3 => (18688, 30))

/-- One signed coordinate. -/
def decOriginCoord : Dec Int := do
  let u ← decCoord
  pure (if u % 2 = 0 then ((u / 2 : Nat) : Int) else -(((u + 1) / 2 : Nat) : Int))

/-- The size of a crop rectangle, which is not empty. -/
def decCropSize : Dec Dim := do
  let w ← decCoord
  let h ← decCoord
  decCheck (decide (0 < w ∧ 0 < h)) ⟨w, h⟩

/-- The frame covers the whole image. -/
def covers (x0 y0 : Int) (size image : Dim) : Bool :=
  decide (x0 ≤ 0 ∧ y0 ≤ 0 ∧ (image.width : Int) ≤ x0 + size.width ∧ (image.height : Int) ≤ y0 + size.height)

/-- `d / n`, rounded up. -/
def roundUpDiv (d n : Nat) : Nat := (d + (n - 1)) / n

/-- One side of the coded frame: the side of the frame divided by the upsampling factor and by 8 for every LF level, then rounded up to
whole chroma samples. -/
def codedSide (d upsampling lfLevel shift : Nat) : Nat := roundUpDiv (roundUpDiv (roundUpDiv d upsampling) (8 ^ lfLevel)) (2 ^ shift) * 2 ^ shift

/-- The largest element. -/
def largest (l : List Nat) : Nat := l.foldr max 0

/-- The frame header. Frame types: 0 regular, 1 LF frame, 2 reference only, 3 skip progressive. `most` is as in `decRestoration`.
`mulBare`: whether blending mode 4 is allowed in an image without extra channels. Excluded: animations, extensions with payload. -/
def decFrameHeader (most : Nat) (mulBare : Bool) (xyb : Bool) (nec : Nat) (image : Dim) : Dec FrameHeader := do
  let allDefault ← decBool
  let given := !allDefault
  let frameType ← decIf given (decBits 2) 0
  let encoding ← decIf given (decBits 1) 0
  let flags ← decIf given decU64 0
  let doYCbCr ← decIf (given && !xyb) decBool false
  let useLF := flags.testBit 5
  let modes ← decIf (doYCbCr && !useLF) (decList (decBits 2) 3) [0, 0, 0]
  let upsampling ← decIf (given && !useLF) (do let v ← decBits 2; pure (2 ^ v)) 1
  let ecUps ← decIf (given && !useLF) (decList (do let v ← decBits 2; pure (2 ^ v)) nec) (List.replicate nec 1)
  let gss ← decIf (decide (encoding = 1)) (decBits 2) 1
  let vardctXyb := xyb && decide (encoding = 0)
  let xqm ← decIf (given && vardctXyb) (decBits 3) (if vardctXyb then 3 else 2)
  let bqm ← decIf (given && vardctXyb) (decBits 3) 2
  let passes ← decIf (given && decide (frameType ≠ 2)) decPasses onePass
  let lfLevel ← decIf (decide (frameType = 1)) (do let v ← decBits 2; pure (v + 1)) 0
  let crop ← decIf (given && decide (frameType ≠ 1)) decBool false
  let x0 ← decIf (crop && decide (frameType ≠ 2)) decOriginCoord 0
  let y0 ← decIf (crop && decide (frameType ≠ 2)) decOriginCoord 0
  let size ← decIf crop decCropSize image
  let normal := given && decide (frameType = 0 ∨ frameType = 3)
  let full := covers x0 y0 size image
  let blending ← decIf normal (do
    let b ← decBlending (decide (0 < nec)) (!full)
    decCheck (mulBare || decide (b.mode ≠ 4 ∨ 0 < nec)) b) ⟨0, 0, false, 0⟩
  let ecBlending ← decIf normal (decList (decBlending (decide (0 < nec)) (!full)) nec) (List.replicate nec ⟨0, 0, false, 0⟩)
  let isLast ← decIf normal decBool allDefault
  let save ← decIf (given && decide (frameType ≠ 1) && !isLast) (decBits 2) 0
  let canReset := decide (frameType = 2) || (normal && full && !isLast && decide (blending.mode = 0))
  let before ← decIf (given && canReset) decBool false
  let name ← decIf given (do let n ← decU32 distName; decList (decBits 8) n) []
  let filters ← decIf given (decRestoration most encoding) defaultFilters
  let ext ← decIf given decNoPayload ⟨List.replicate 64 [], 0⟩
  let xs := modes.map (fun m => (chromaShift m).1)
  let ys := modes.map (fun m => (chromaShift m).2)
  pure {
    frameType, encoding, flags, doYCbCr, upsampling, passes, lfLevel, x0, y0, blending, ecBlending, isLast, name
    jpegX := xs.map (fun s => largest xs - s)
    jpegY := ys.map (fun s => largest ys - s)
    ecUpsampling := ecUps
    groupDim := 128 * 2 ^ gss
    lfGroupDim := 8 * (128 * 2 ^ gss)
    logGroupDim := 7 + gss
    logLFGroupDim := 10 + gss
    xqm := xqm
    bqm := bqm
    haveCrop := crop
    width := if crop then size.width else 0
    height := if crop then size.height else 0
    size := ⟨codedSide size.width upsampling lfLevel (largest xs), codedSide size.height upsampling lfLevel (largest ys)⟩
    saveAsReference := save
    saveBeforeCT := before
    restoration := filters
    extensions := ext }

/-- The stated pairs (last pass, downsampling factor) of a frame. -/
def Passes.stated (p : Passes) : List (Nat × Nat) := (p.lastPass.zip p.downSample).take p.numDS

/-- What the format demands of the stated pairs: the factors decrease, their last passes increase and are below `bound` (the number of
passes). -/
def Passes.Valid (bound : Nat) (p : Passes) : Prop :=
  p.stated.Pairwise (fun x y => x.1 < y.1 ∧ y.2 < x.2) ∧ ∀ x ∈ p.stated, x.1 < bound

instance (bound : Nat) (p : Passes) : Decidable (p.Valid bound) := by unfold Passes.Valid; infer_instance

/-- The finest shift of the channels that have been decoded after a pass: everything after the last pass; otherwise what the last factor
completed by then needs; 3 if there is none. -/
def finestShift (p : Passes) (pass : Nat) : Nat :=
  if p.numPasses ≤ pass + 1 then 0
  else (p.stated.filter (fun x => decide (x.1 ≤ pass))).foldl (fun _ x => Nat.log2 x.2) 3

/-- The passes that decode a channel with shift `m` (the smaller of its two shifts). -/
def passesOf (p : Passes) (m : Nat) : List Nat :=
  (List.range p.numPasses).filter (fun i => decide (finestShift p i ≤ m ∧ m < (if i = 0 then 3 else finestShift p (i - 1))))

/-- A call that succeeds with a value that passes a test. -/
def Res.givesThat {α : Type} (r : Res α) (c : α → Bool) : Bool := match r with | .ok a => c a | _ => false

/-- The header that the format defines when the code's is `h`: the code represents the passes of a header without passes by empty lists. -/
def FrameHeader.completed (h : FrameHeader) : FrameHeader := if h.passes = ⟨1, 0, [], [], []⟩ then { h with passes := onePass } else h

end Jxl
