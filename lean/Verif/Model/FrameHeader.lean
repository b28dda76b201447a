import Verif.Model.ImageHeader
import Verif.Model.Util
/-!
# The frame header (frame/FrameHeader.go and the bundles it consists of)

Weights are rational numbers: the rounding of decimal constants to `float32` is not modelled. An image header never carries an
animation (`readExtraImageFields`), so the branches for animations (FrameHeader.go:303-325) are dead and left out: `Duration` is 0.
-/
namespace Jxl

/-- frame/PassesInfo.go:5-11. -/
structure Passes where
  numPasses : Nat
  numDS : Nat
  shift : List Nat
  downSample : List Nat
  lastPass : List Nat
  deriving Repr, DecidableEq

/-- frame/PassesInfo.go:13-21 `NewPassesInfo`. -/
def Passes.dflt : Passes := ⟨1, 0, [], [], []⟩

/-- frame/PassesInfo.go:51-55: one downsampling factor. -/
def readDownSample : Rd Nat := do
  let v ← readBits 2
  Pure.pure (1 <<< v)

/-- frame/PassesInfo.go:23-69 `NewPassesInfoWithReader`. -/
def readPasses : Rd Passes := do
  let np ← readU32 1 0 2 0 3 0 4 3
  let nds ← readIf (np != 1) (readU32 0 0 1 0 2 0 3 1) 0
  let sh ← readList (readBits 2) (np - 1)
  let ds ← readList readDownSample nds
  let lp ← readList (readU32 0 0 1 0 2 0 0 3) nds
  Pure.pure ⟨np, nds, sh ++ [0], ds ++ [1], lp ++ [np - 1]⟩

/-- frame/HFCoefficients.go:59: the shift of the coefficients of a pass. -/
def hfShift (p : Passes) (pass : Nat) : Res Nat := idx p.shift pass

/-- frame/Pass.go:30-37: the first position of a value. -/
def findPass (passIndex : Nat) : List Nat → Option Nat
  | [] => none
  | l :: ls => if l = passIndex then some 0 else (findPass passIndex ls).map (· + 1)

/-- frame/Pass.go:24-43: `minShift` of a pass, from its `maxShift`. -/
def passMinShift (p : Passes) (passIndex maxShift : Nat) : Res Nat :=
  match findPass passIndex p.lastPass with
  | some n => do
    let d ← idx p.downSample n
    .ok (ceilLog1p (d - 1))
  | none => .ok maxShift

/-- frame/Frame.go:660-684 `decodePasses` and frame/Pass.go:21-43: the pairs (`minShift`, `maxShift`) of the passes from `i` on; `prev`
is the `minShift` of the previous pass, or 3. -/
def passShifts (p : Passes) : Nat → Nat → Nat → Res (List (Nat × Nat))
  | 0, _, _ => .ok []
  | n + 1, i, prev => do
    let m ← passMinShift p i prev
    let l ← passShifts p n (i + 1) m
    .ok ((m, prev) :: l)

/-- frame/Pass.go:49-54: whether a pass decodes a channel whose smaller shift is `m`. -/
def passTakes (s : Nat × Nat) (m : Nat) : Bool := decide (s.1 ≤ m) && decide (m < s.2)

/-- frame/BlendingInfo.go:7-12. -/
structure Blending where
  mode : Nat
  alpha : Nat
  clamp : Bool
  source : Nat
  deriving Repr, DecidableEq

/-- frame/BlendingInfo.go:14-21 `NewBlendingInfo`. -/
def Blending.dflt : Blending := ⟨0, 0, false, 0⟩

/-- frame/BlendingInfo.go:23-64 `NewBlendingInfoWithReader`. -/
def readBlending (extra fullFrame : Bool) : Rd Blending := do
  let mode ← readU32 0 0 1 0 2 0 3 2
  let alpha ← readIf (extra && (mode == 2 || mode == 3)) (readU32 0 0 1 0 2 0 3 3) 0
  let clamp ← readIf (extra && (mode == 2 || mode == 4 || mode == 3)) readBool false
  let source ← readIf (mode != 0 || !fullFrame) (readBits 2) 0
  Pure.pure ⟨mode, alpha, clamp, source⟩

/-- frame/RestorationFilter.go:8-25. `sharp` is the table before it is multiplied by `quantMul` (lines 184-186). -/
structure Restoration where
  gab : Bool
  customGab : Bool
  gab1 : List ℚ
  gab2 : List ℚ
  iterations : Nat
  sharpCustom : Bool
  sharp : List ℚ
  weightCustom : Bool
  channelScale : List ℚ
  sigmaCustom : Bool
  quantMul : ℚ
  pass0 : ℚ
  pass2 : ℚ
  borderSad : ℚ
  sigmaModular : ℚ
  extensions : Extensions
  deriving DecidableEq

/-- frame/RestorationFilter.go:29 and 54. -/
def sharpDefault : List ℚ := [0, 1 / 7, 2 / 7, 3 / 7, 4 / 7, 5 / 7, 6 / 7, 1]
/-- frame/RestorationFilter.go:31 and 56. -/
def gab1Default : List ℚ := [115169525 / 1000000000, 115169525 / 1000000000, 115169525 / 1000000000]
/-- frame/RestorationFilter.go:32 and 57. -/
def gab2Default : List ℚ := [61248592 / 1000000000, 61248592 / 1000000000, 61248592 / 1000000000]
/-- frame/RestorationFilter.go:30 and 55. -/
def scaleDefault : List ℚ := [40, 5, 7 / 2]

/-- frame/RestorationFilter.go:27-50 `NewRestorationFilter`. -/
def Restoration.dflt : Restoration :=
  ⟨true, false, gab1Default, gab2Default, 2, false, sharpDefault, false, scaleDefault, false, 46 / 100, 9 / 10, 65 / 10, 2 / 3, 1, Extensions.none⟩

/-- frame/RestorationFilter.go:81-88: one round of the loop. -/
def readGabPair : Rd (ℚ × ℚ) := do
  let a ← readF16
  let b ← readF16
  Pure.pure (a, b)

/-- frame/RestorationFilter.go:132: a read whose error is ignored. -/
def readIgnored (n : Nat) : Rd Unit := fun s =>
  match readBits n s with
  | (.panic, s') => (.panic, s')
  | (_, s') => (.ok (), s')

/-- frame/RestorationFilter.go:125-133: the custom weights. -/
def readScale : Rd (List ℚ) := do
  let l ← readList readF16 3
  readIgnored 32
  Pure.pure l

/-- frame/RestorationFilter.go:52-189 `NewRestorationFilterWithReader`. -/
def readRestoration (encoding : Nat) : Rd Restoration := do
  let allDefault ← readBool
  let gab ← readIf (!allDefault) readBool true
  let customGab ← readIf (!allDefault && gab) readBool false
  let gabs ← readIf customGab (readList readGabPair 3) (gab1Default.zip gab2Default)
  let iters ← readIf (!allDefault) (readBits 2) 2
  let sharpCustom ← readIf (!allDefault && decide (iters > 0) && encoding == 0) readBool false
  let sharp ← readIf sharpCustom (readList readF16 8) sharpDefault
  let weightCustom ← readIf (!allDefault && decide (iters > 9)) readBool false
  let scale ← readIf weightCustom readScale scaleDefault
  let sigmaCustom ← readIf (!allDefault && decide (iters > 0)) readBool false
  let quantMul ← readIf (sigmaCustom && encoding == 0) readF16 (46 / 100)
  let sig ← readIf sigmaCustom (readList readF16 3) [9 / 10, 65 / 10, 2 / 3]
  let sigmaModular ← readIf (!allDefault && decide (iters > 0) && encoding == 1) readF16 1
  let ext ← readIf (!allDefault) readExtensions Extensions.none
  Pure.pure ⟨gab, customGab, gabs.map (·.1), gabs.map (·.2), iters, sharpCustom, sharp, weightCustom, scale, sigmaCustom, quantMul,
    sig.getD 0 0, sig.getD 1 0, sig.getD 2 0, sigmaModular, ext⟩

/-- frame/FrameHeader.go:36-68. `x0`, `y0` and `size` are `Bounds`; `width` and `height` are `Width` and `Height` (0 without crop);
the JPEG shifts are kept as natural numbers. `Duration` and `timecode` are always 0. -/
structure FrameHeader where
  frameType : Nat
  encoding : Nat
  flags : Nat
  doYCbCr : Bool
  jpegX : List Nat
  jpegY : List Nat
  upsampling : Nat
  ecUpsampling : List Nat
  groupDim : Nat
  lfGroupDim : Nat
  logGroupDim : Nat
  logLFGroupDim : Nat
  xqm : Nat
  bqm : Nat
  passes : Passes
  lfLevel : Nat
  haveCrop : Bool
  x0 : Int
  y0 : Int
  width : Nat
  height : Nat
  size : Dim
  blending : Blending
  ecBlending : List Blending
  isLast : Bool
  saveAsReference : Nat
  saveBeforeCT : Bool
  name : List Nat
  restoration : Restoration
  extensions : Extensions
  deriving DecidableEq

/-- frame/FrameHeader.go:110-127: one chroma mode, as the pair (x, y). -/
def readJpegMode : Rd (Nat × Nat) := do
  let mode ← readBits 2
  Pure.pure (if mode = 1 then (1, 1) else if mode = 2 then (1, 0) else if mode = 3 then (0, 1) else (0, 0))

/-- frame/FrameHeader.go:133-145: one upsampling factor. -/
def readUpsampling : Rd Nat := do
  let v ← readBits 2
  Pure.pure (1 <<< v)

/-- frame/FrameHeader.go:168-178. -/
def readQm : Rd (Nat × Nat) := do
  let x ← readBits 3
  let b ← readBits 3
  Pure.pure (x, b)

/-- frame/FrameHeader.go:198-202. -/
def readLfLevel : Rd Nat := do
  let v ← readBits 2
  Pure.pure (u32 (v + 1))

/-- One coordinate of the crop rectangle: frame/FrameHeader.go:217, 222, 246, 253. -/
def readCoord : Rd Nat := readU32 0 8 256 11 2304 14 18688 30

/-- frame/FrameHeader.go:214-236: the origin. -/
def readOrigin : Rd (Int × Int) := do
  let x ← readCoord
  let y ← readCoord
  Pure.pure (unpackSigned x, unpackSigned y)

/-- frame/FrameHeader.go:246-258: the size of the crop rectangle. -/
def readCropSize : Rd Dim := do
  let w ← readCoord
  let h ← readCoord
  Pure.pure ⟨w, h⟩

/-- util/misc.go:112-117 `ComputeLowerCorner` and frame/FrameHeader.go:270-274: `fullFrame`. -/
def isFullFrame (x0 y0 : Int) (size parent : Dim) : Bool :=
  decide (y0 ≤ 0) && decide (x0 ≤ 0) && decide (i32 (y0 + i32 size.height) ≥ i32 parent.height) && decide (i32 (x0 + i32 size.width) ≥ i32 parent.width)

/-- frame/FrameHeader.go:276-279: one side of the frame after upsampling and LF level. -/
def scaledSide (d upsampling lfLevel : Nat) : Res Nat := do
  let a ← ceilDiv d upsampling
  ceilDiv a (u32 (1 <<< (3 * lfLevel)))

/-- frame/FrameHeader.go:393-394: one side of the frame rounded up for chroma subsampling. -/
def paddedSide (d shift : Nat) : Res Nat := do
  let a ← ceilDiv d (1 <<< shift)
  .ok (u32 (a <<< shift))

/-- frame/FrameHeader.go:282-300: the blending information of the colour channels and the extra channels. -/
def readBlendings (nec : Nat) (fullFrame : Bool) : Rd (Blending × List Blending) := do
  let b ← readBlending (decide (nec > 0)) fullFrame
  let l ← readList (readBlending true fullFrame) nec
  Pure.pure (b, l)

/-- frame/FrameHeader.go:360-371: the name. -/
def readName : Rd (List Nat) := do
  let n ← readU32 0 0 0 4 16 5 48 10
  readList readByte8 n

/-- frame/FrameHeader.go:74-96: type, encoding, flags. -/
def readFrameKind : Rd (Nat × Nat × Nat) := do
  let t ← readBits 2
  let e ← readBits 1
  let f ← readU64
  Pure.pure (t, e, f)

/-- frame/FrameHeader.go:132-152. -/
def readUpsamplings (nec : Nat) : Rd (Nat × List Nat) := do
  let u ← readUpsampling
  let l ← readList readUpsampling nec
  Pure.pure (u, l)

/-- util/MathsHelper.go:71-97 `Max` for the three JPEG shifts. -/
def maxList (l : List Nat) : Nat := l.foldl max 0

/-- frame/FrameHeader.go:70-402 `NewFrameHeaderWithReader`, for an image header with the given XYB flag, number of extra channels and
size. -/
def readFrameHeader (xyb : Bool) (nec : Nat) (parent : Dim) : Rd FrameHeader := do
  let allDefault ← readBool
  let k ← readIf (!allDefault) readFrameKind (0, 0, 0)
  let doYCbCr ← readIf (!allDefault && !xyb) readBool false
  let noLF := (k.2.2 &&& 32) == 0
  let modes ← readIf (doYCbCr && noLF) (readList readJpegMode 3) [(0, 0), (0, 0), (0, 0)]
  let ups ← readIf (!allDefault && noLF) (readUpsamplings nec) (1, List.replicate nec 1)
  let gss ← readIf (k.2.1 == 1) (readBits 2) 1
  let groupDim := 128 <<< gss
  let qm ← readIf (xyb && k.2.1 == 0 && !allDefault) readQm (if xyb && k.2.1 == 0 then (3, 2) else (2, 2))
  let passes ← readIf (!allDefault && k.1 != 2) readPasses Passes.dflt
  let lfLevel ← readIf (k.1 == 1) readLfLevel 0
  let haveCrop ← readIf (!allDefault && k.1 != 1) readBool false
  let origin ← readIf (haveCrop && k.1 != 2) readOrigin (0, 0)
  let crop ← readIf haveCrop readCropSize parent
  let normal := !allDefault && (k.1 == 0 || k.1 == 3)
  let full := isFullFrame origin.1 origin.2 crop parent
  let h1 ← Rd.lift (scaledSide crop.height ups.1 lfLevel)
  let w1 ← Rd.lift (scaledSide crop.width ups.1 lfLevel)
  let bl ← readIf normal (readBlendings nec full) (Blending.dflt, List.replicate nec Blending.dflt)
  let isLast ← readIf normal readBool (k.1 == 0)
  let save ← readIf (!allDefault && k.1 != 1 && !isLast) (readBits 2) 0
  let before ← readIf (!allDefault && (k.1 == 2 || (full && (k.1 == 0 || k.1 == 3) && !isLast && bl.1.mode == 0))) readBool false
  let name ← readIf (!allDefault) readName []
  let rf ← readIf (!allDefault) (readRestoration k.2.1) Restoration.dflt
  let ext ← readIf (!allDefault) readExtensions Extensions.none
  let maxX := maxList (modes.map (·.1))
  let maxY := maxList (modes.map (·.2))
  let h2 ← Rd.lift (paddedSide h1 maxY)
  let w2 ← Rd.lift (paddedSide w1 maxX)
  Pure.pure ⟨k.1, k.2.1, k.2.2, doYCbCr, modes.map (fun m => maxX - m.1), modes.map (fun m => maxY - m.2), ups.1, ups.2, groupDim, groupDim <<< 3,
    ceilLog2 64 groupDim, ceilLog2 64 (groupDim <<< 3), qm.1, qm.2, passes, lfLevel, haveCrop, origin.1, origin.2, if haveCrop then crop.width else 0,
    if haveCrop then crop.height else 0, ⟨w2, h2⟩, bl.1, bl.2, isLast, save, before, name, rf, ext⟩

end Jxl
