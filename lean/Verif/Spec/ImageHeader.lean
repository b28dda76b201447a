import Verif.Model.ImageHeader
import Verif.Spec.F16
import Verif.Spec.Reader
/-!
# The image header, as the format defines it

The fields are transcribed from ISO/IEC 18181-1 (image header). `Follows` relates them to the code.
-/
namespace Jxl
open Spec

/-- Whatever the decoder `f` of bit strings decodes, at any position of any stream, the action `m` decodes to the same value,
and it stands just before `f`'s remaining bits. -/
def Follows {α : Type} (m : Rd α) (f : Dec α) : Prop :=
  ∀ s p, AtBit s p → ∀ a r, f (bitsFrom s.data p) = some (a, r) →
    ∃ s' p', m s = (.ok a, s') ∧ AtBit s' p' ∧ s'.data = s.data ∧ r = bitsFrom s.data p' ∧ p ≤ p'

/-- A field that is present only under a condition. -/
def decIf {α : Type} (c : Bool) (m : Dec α) (dflt : α) : Dec α := if c then m else pure dflt

/-- `n` values. -/
def decList {α : Type} (m : Dec α) : Nat → Dec (List α)
  | 0 => pure []
  | n + 1 => do
    let a ← m
    let l ← decList m n
    pure (a :: l)

/-- A value that has to be valid. -/
def decCheck {α : Type} (c : Bool) (a : α) : Dec α := if c then pure a else Dec.fail

/-- The width to height ratios that a size header can name: numerator and denominator. -/
def aspect : Nat → Option (Nat × Nat)
  | 1 => some (1, 1)
  | 2 => some (12, 10)
  | 3 => some (4, 3)
  | 4 => some (3, 2)
  | 5 => some (16, 9)
  | 6 => some (5, 4)
  | 7 => some (2, 1)
  | _ => none

/-- The width of an image: given explicitly, or by a ratio. -/
def decWidth (side : Dec Nat) (h : Nat) : Dec Nat := do
  let ratio ← decBits 3
  match aspect ratio with
  | some (num, den) => pure (h * num / den)
  | none => side

/-- One side in a size header: a multiple of 8 up to 256, or any number up to 2^30. -/
def decSide (div8 : Bool) : Dec Nat :=
  if div8 then do
    let v ← decBits 5
    pure (8 * (v + 1))
  else decU32 (fun k => match k with | 0 => (1, 9) | 1 => (1, 13) | 2 => (1, 18) | 3 => (1, 30))

/-- `SizeHeader`. -/
def decSize : Dec Dim := do
  let div8 ← decBool
  let h ← decSide div8
  let w ← decWidth (decSide div8) h
  pure ⟨w, h⟩

/-- The limits of a level: the longest side and the largest number of pixels (the numbers of the code). -/
def maxSide (level : Int) : Nat := if level ≤ 5 then 2 ^ 18 else 2 ^ 28
def maxPixels (level : Int) : Nat := if level ≤ 5 then 2 ^ 30 else 2 ^ 40

/-- A size header within the limits of its level. -/
def decSizeLimited (level : Int) : Dec Dim := do
  let d ← decSize
  decCheck (decide (d.width ≤ maxSide level ∧ d.height ≤ maxSide level ∧ d.width * d.height ≤ maxPixels level)) d

/-- One side in a preview header. -/
def decPreviewSide (div8 : Bool) : Dec Nat :=
  if div8 then do
    let v ← decU32 (fun k => match k with | 0 => (16, 0) | 1 => (32, 0) | 2 => (1, 5) | 3 => (33, 9))
    pure (8 * v)
  else decU32 (fun k => match k with | 0 => (1, 6) | 1 => (65, 8) | 2 => (321, 10) | 3 => (1345, 12))

/-- `PreviewHeader`. -/
def decPreview : Dec Dim := do
  let div8 ← decBool
  let h ← decPreviewSide div8
  let w ← decWidth (decPreviewSide div8) h
  decCheck (decide (w ≤ 4096 ∧ h ≤ 4096)) ⟨w, h⟩

/-- Previews whose sides are not given in units of eight. -/
def decPreviewExact : Dec Dim := do
  let div8 ← decBool
  let div8 ← decCheck (!div8) div8
  let h ← decPreviewSide div8
  let w ← decWidth (decPreviewSide div8) h
  decCheck (decide (w ≤ 4096 ∧ h ≤ 4096)) ⟨w, h⟩

/-- `BitDepth`. -/
def decBitDepth : Dec BitDepth := do
  let f ← decBool
  let b ← decU32 (if f then (fun k => match k with | 0 => (32, 0) | 1 => (16, 0) | 2 => (24, 0) | 3 => (1, 6))
    else (fun k => match k with | 0 => (8, 0) | 1 => (10, 0) | 2 => (12, 0) | 3 => (1, 6)))
  let e ← decIf f (decBits 4) 0
  pure ⟨b, if f then e + 1 else 0, f⟩

/-- The length of a name. -/
def distName (k : Fin 4) : Nat × Nat := match k with | 0 => (0, 0) | 1 => (0, 4) | 2 => (16, 5) | 3 => (48, 10)

/-- `ExtraChannelInfo`: type, bit depth, shift, name and alpha flag. -/
def decExtraFields : Dec (Nat × BitDepth × Nat × List Nat × Bool) := do
  let t ← decEnum
  let t ← decCheck (decide (t ∈ [0, 1, 2, 3, 4, 5, 6, 15, 16])) t
  let b ← decBitDepth
  let d ← decU32 (fun k => match k with | 0 => (0, 0) | 1 => (3, 0) | 2 => (4, 0) | 3 => (1, 3))
  let n ← decU32 distName
  let name ← decList (decBits 8) n
  let a ← decIf (decide (t = 0)) decBool false
  pure (t, b, d, name, a)

/-- `ExtraChannelInfo`. -/
def decExtraChannel : Dec ExtraChannel := do
  let dAlpha ← decBool
  let f ← decIf (!dAlpha) decExtraFields (0, ⟨8, 0, false⟩, 0, [], false)
  let spot ← decIf (decide (f.1 = 2)) (decList decF16 4) [0, 0, 0, 0]
  let cfa ← decIf (decide (f.1 = 5)) (decU32 (fun k => match k with | 0 => (1, 0) | 1 => (0, 2) | 2 => (3, 4) | 3 => (19, 8))) 1
  pure ⟨f.2.2.2.1, f.1, cfa, f.2.2.1, spot, f.2.1, f.2.2.2.2⟩

/-- `Extensions`: the lengths, in bits, of the extensions whose bit is set in the key, from bit `i` on. -/
def decExtLengths (key : Nat) : Nat → Nat → Dec (List Nat)
  | 0, _ => pure []
  | n + 1, i => do
    let l ← decIf (key.testBit i) decU64 0
    let ls ← decExtLengths key n (i + 1)
    pure (l :: ls)

/-- The bits of the extensions. -/
def decExtBits : List Nat → Dec (List (List Bool))
  | [] => pure []
  | l :: ls => do
    let b ← decList decBool l
    let bs ← decExtBits ls
    pure (b :: bs)

/-- `Extensions`: the key and the bits of the 64 possible extensions. -/
def decExtensions : Dec (Nat × List (List Bool)) := do
  let key ← decU64
  let ls ← decExtLengths key 64 0
  let bs ← decExtBits ls
  pure (key, bs)

/-- Extensions without payload. -/
def decNoPayload : Dec Extensions := do
  let x ← decExtensions
  decCheck (decide (x.2 = List.replicate 64 [])) ⟨List.replicate 64 [], x.1⟩

/-- `ToneMapping`. -/
def decToneMapping : Dec ToneMapping := do
  let d ← decBool
  decIf (!d) (do
    let it ← decF16
    let mn ← decF16
    let r ← decBool
    let lb ← decF16
    decCheck (decide (0 < it ∧ 0 ≤ mn ∧ mn ≤ it ∧ 0 ≤ lb ∧ (r = true → lb ≤ 1))) ⟨it, mn, lb, r⟩) ⟨255, 0, 0, false⟩

/-- `Customxy`: two coordinates in millionths. -/
def decCustom : Dec Int := do
  let u ← decU32 (fun k => match k with | 0 => (0, 19) | 1 => (524288, 19) | 2 => (1048576, 20) | 3 => (2097152, 21))
  pure (if u % 2 = 0 then ((u / 2 : Nat) : Int) else -(((u + 1) / 2 : Nat) : Int))

/-- `CustomTransferFunction`: a gamma in units of 10^-7, or 2^24 plus the number of a named function. -/
def decTransfer : Dec Nat := do
  let g ← decBool
  if g then do
    let v ← decBits 24
    decCheck (decide (v ≤ 10000000)) v
  else do
    let e ← decEnum
    decCheck (decide (e ∈ [1, 2, 8, 13, 16, 17, 18])) (2 ^ 24 + e)

/-- `ColourEncoding`. Colour spaces: 0 RGB, 1 grey, 2 XYB, 3 unknown; white points: 1 D65, 2 custom, 10 E, 11 DCI; primaries:
1 sRGB, 2 custom, 9 BT.2100, 11 P3. Colour space XYB is excluded unless there is a colour profile. -/
def decColourEncoding : Dec ColourEncoding := do
  let allDefault ← decBool
  let icc ← decIf (!allDefault) decBool false
  let space ← decIf (!allDefault) decEnum 0
  let space ← decCheck (decide (space ≤ 3 ∧ (space = 2 → icc = true))) space
  let desc := !allDefault && !icc
  let wp ← decIf desc decEnum 1
  let wp ← decCheck (decide (wp ∈ [1, 2, 10, 11])) wp
  let white ← decIf (decide (wp = 2)) (decList decCustom 2) []
  let pr ← decIf (desc && decide (space ≠ 1)) decEnum 1
  let pr ← decCheck (decide (pr ∈ [1, 2, 9, 11])) pr
  let prim ← decIf (decide (pr = 2)) (decList decCustom 6) []
  let tf ← decIf desc decTransfer (2 ^ 24 + 13)
  let ri ← decIf desc decEnum 1
  let ri ← decCheck (decide (ri ≤ 3)) ri
  pure ⟨icc, space, wp, white, pr, prim, tf, ri⟩

/-- `OpsinInverseMatrix`: `none` for the default. -/
def decOpsin : Dec (Option (List ℚ)) := do
  let d ← decBool
  decIf (!d) (do let l ← decList decF16 16; pure (some l)) none

/-- Orientation, intrinsic size, preview. Animations and previews in units of eight are excluded. -/
def decExtraImageFields (level : Int) : Dec (Nat × Option Dim × Option Dim) := do
  let o ← decBits 3
  let hasI ← decBool
  let intr ← decIf hasI (do let d ← decSizeLimited level; pure (some d)) none
  let hasP ← decBool
  let prev ← decIf hasP (do let d ← decPreviewExact; pure (some d)) none
  let anim ← decBool
  decCheck (!anim) (1 + o, intr, prev)

/-- Bit depth, buffers, extra channels, colours. -/
def decImageFields : Dec (BitDepth × Bool × List ExtraChannel × Bool × ColourEncoding) := do
  let b ← decBitDepth
  let m16 ← decBool
  let n ← decU32 (fun k => match k with | 0 => (0, 0) | 1 => (1, 0) | 2 => (2, 4) | 3 => (1, 12))
  let ecs ← decList decExtraChannel n
  let xyb ← decBool
  let ce ← decColourEncoding
  pure (b, m16, ecs, xyb, ce)

/-- Custom weights for one upsampling factor. -/
def decWeights (custom : Bool) (n : Nat) : Dec (Option (List ℚ)) :=
  decIf custom (do let l ← decList decF16 n; pure (some l)) none

/-- The size on screen: sides are exchanged for the orientations that transpose. -/
def orientedSize (orientation : Nat) (d : Dim) : Dim := if 5 ≤ orientation then ⟨d.height, d.width⟩ else d

/-- The positions of the channels of type alpha. -/
def alphaChannels (l : List ExtraChannel) : List Nat := (List.range l.length).filter (fun i => (l[i]?.map (·.ecType)) = some 0)

/-- The image header up to the colour profile. Excluded: animations, previews in units of eight, extensions with payload, colour
space XYB without profile. -/
def decImageHeader (level : Int) : Dec ImageHeader := do
  let magic ← decBits 16
  let _ ← decCheck (decide (magic = 0x0AFF)) ()
  let size ← decSizeLimited level
  let allDefault ← decBool
  let extraFields ← decIf (!allDefault) decBool false
  let x ← decIf extraFields (decExtraImageFields level) (1, none, none)
  let f ← decIf (!allDefault) decImageFields (⟨8, 0, false⟩, true, [], true, ⟨false, 0, 1, [], 1, [], 2 ^ 24 + 13, 1⟩)
  let tone ← decIf extraFields decToneMapping ⟨255, 0, 0, false⟩
  let ext ← decIf (!allDefault) decNoPayload ⟨List.replicate 64 [], 0⟩
  let defaultTransform ← decBool
  let opsin ← decIf (!defaultTransform && f.2.2.2.1) decOpsin none
  let mask ← decIf (!defaultTransform) (decBits 3) 0
  let up2 ← decWeights (decide (mask % 2 = 1)) 15
  let up4 ← decWeights (decide (mask / 2 % 2 = 1)) 55
  let up8 ← decWeights (decide (mask / 4 % 2 = 1)) 210
  pure ⟨size, x.1, orientedSize x.1 size, x.2.1, x.2.2, f.1, f.2.1, f.2.2.1, alphaChannels f.2.2.1, f.2.2.2.1, f.2.2.2.2, tone, ext, opsin, up2, up4, up8⟩

end Jxl
