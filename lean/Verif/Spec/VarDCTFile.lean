import Verif.Spec.VarDCTFrame
import Verif.Spec.Decode
import Verif.Spec.Colour
import Verif.Spec.Blend
import Verif.Spec.ToImage

/-!
# Specification: files with VarDCT frames (C94)

From ISO/IEC 18181-1. Of the decoder, only its data structures are used. The arithmetic of colours is that of `float32`.
-/
namespace Jxl
open Spec

/-- What a channel has in each row and column, in floats. -/
abbrev FloatPic := Nat → Nat → Nat → F32

/-! ## Colours -/

/-- The red, green and blue of a pixel of X, Y and B: three sensor values are cubed and mixed by the matrix, and scaled by the intensity target. -/
def xybColour (o : Opsin F32) (target : F32) (v : Fin 3 → F32) : Fin 3 → F32 :=
  let bias := fun i : Nat => o.bias.getD i (.fin 0)
  let root := fun i : Nat => o.cbrtBias.getD i (.fin 0)
  let cube := fun t : F32 => t * t * t
  let l := cube (v 1 + v 0 - root 0) + bias 0
  let m := cube (v 1 - v 0 - root 1) + bias 1
  let s := cube (v 2 - root 2) + bias 2
  fun i => (l * (o.matrix.getD i []).getD 0 (.fin 0) + m * (o.matrix.getD i []).getD 1 (.fin 0) + s * (o.matrix.getD i []).getD 2 (.fin 0)) * (Arith.lit 255 / target)

/-- The red, green and blue of a pixel of Cb, Y and Cr. -/
def jpegColour (v : Fin 3 → F32) : Fin 3 → F32 :=
  let y := v 1 + Arith.lit (50196078431372549019 / 10 ^ 20)
  ![y + Arith.lit (1402 / 1000) * v 2, y - Arith.lit (34413628620102214650 / 10 ^ 20) * v 0 - Arith.lit (71413628620102214650 / 10 ^ 20) * v 2, y + Arith.lit (1772 / 1000) * v 0]

/-- The colour of a pixel. There is a matrix in images in XYB only; frames of others can be in YCbCr. -/
def pixelColour (matrix : Option (Opsin F32)) (target : F32) (ycbcr : Bool) (v : Fin 3 → F32) : Fin 3 → F32 :=
  let v := match matrix with
    | none => v
    | some o => xybColour o target v
  if ycbcr then jpegColour v else v

/-! ## Frames -/

/-- The sections of a VarDCT frame, from byte `k` to byte `k'`. A single section ends where its last number ends; bits after the end of other sections are zero. -/
def VarSectionsCode (h : ImageHeader) (f : FrameHeader) (lengths : List Nat) (data : List UInt8) (k k' : Nat) (F : CodedFrame) : Prop :=
  if sectionCount f = 1 then
    ∃ start, VarDCTAt h F f (fun _ => data) start (fun i => start (i + 1)) ∧ start 0 = 8 * k ∧ k' = nextByte (start (2 + varLFGroups f + varGroups f))
  else
    ∃ stop, VarDCTAt h F f (fun i => storedSection (data.drop k) lengths i ++ [0, 0, 0, 0]) (fun _ => 0) stop ∧
      k' = k + lengths.sum ∧ k' ≤ data.length ∧ ∀ i, i < lengths.length → k + (lengths.take i).sum < data.length

/-- The bytes from `k` to `k'` are a VarDCT frame: a header, a table of contents without permutation, and the sections. The first bit of the header would be set if all fields were as by default; such headers
are left out, since the decoder gives them no passes (C59). -/
def VarFrameCodes (h : ImageHeader) (data : List UInt8) (k k' : Nat) (f : FrameHeader) (F : CodedFrame) : Prop :=
  ∃ (p q : Nat) (lengths : List Nat), DecAt decBool data (8 * k) (8 * k + 1) false ∧
    DecAt (decFrameHeader 0 false h.xyb h.extra.length h.size) data (8 * k) p f ∧ DecAt decBool data p (p + 1) false ∧
    DecAt (decLengths (sectionCount f)) data (8 * nextByte (p + 1)) q lengths ∧ VarSectionsCode h f lengths data (nextByte q) k' F

/-- Frames one after the other. Only the last one says that it is. -/
def VarFramesAt (h : ImageHeader) (data : List UInt8) : Nat → List (FrameHeader × CodedFrame) → Prop
  | _, [] => True
  | k, x :: xs => ∃ k', VarFrameCodes h data k k' x.1 x.2 ∧ x.1.isLast = xs.isEmpty ∧ VarFramesAt h data k' xs

/-- A VarDCT frame. Compare `CodedSheet`. -/
structure VarCoded (h : ImageHeader) (f : FrameHeader) (F : CodedFrame) : Prop where
  plain : PlainVarDCT h f
  coded : F.Ok f
  regular : f.frameType = 0 ∨ f.frameType = 3
  size : f.size.width < 2 ^ 30 ∧ f.size.height < 2 ^ 30
  groups : varGroups f < 2 ^ 31
  streams : 18 + 3 * varLFGroups f + varGroups f < 2 ^ 32

/-- A VarDCT frame that replaces the part of the image that it covers. Compare `Layer`. A gray image has no extra channels; in others they have at most 31 bits. -/
structure VarLayer (h : ImageHeader) (f : FrameHeader) (F : CodedFrame) : Prop extends VarCoded h f F where
  colours : h.colourCount = 3 ∨ h.extra = []
  depths : ∀ e ∈ h.extra, 1 ≤ e.bitDepth.bits ∧ e.bitDepth.bits ≤ 31
  unscaled : f.upsampling = 1 ∧ ∀ u ∈ f.ecUpsampling, u = 1
  replace : f.blending.mode = 0 ∧ ∀ b ∈ f.ecBlending, b.mode = 0
  place : (0 ≤ f.x0 ∧ 0 ≤ f.y0) ∨ (f.x0 < 0 ∧ f.y0 ≤ 0)
  meets : f.x0 ≤ h.size.width ∧ f.y0 ≤ h.size.height ∧ 0 ≤ f.x0 + f.size.width ∧ 0 ≤ f.y0 + f.size.height

/-- The channels of the picture that the frame codes. `arith` is the arithmetic in which blocks are computed, `cos`, `B`, `scale`, `pow` and `quant` are the tables and functions for it, `step` is the scale of the edge-preserving filter. A gray image has the
second channel. Samples of extra channels become fractions of the greatest number of their depth. -/
def CodedFrame.Shows (arith : Arith F32) (F : CodedFrame) (h : ImageHeader) (f : FrameHeader) (cos : Nat → Nat → Nat → F32) (B : Nat → Nat → F32) (scale : Nat → Nat → F32) (pow : Nat → F32)
    (quant : QuantFuncs F32) (step : F32) (matrix : Option (Opsin F32)) (v : FloatPic) : Prop :=
  ∃ weights coded planes, allWeights quant F.params 0 = .ok weights ∧ F.ShownIn h f cos B scale pow weights coded ∧ F.Filtered f step coded planes ∧
    (∀ (c : Fin 3) (y x : Nat), c < h.colourCount → y < f.size.height → x < f.size.width →
      v c y x = pixelColour matrix (F32.round h.tone.intensityTarget) f.doYCbCr (fun i => (sample (planes.getD i []) y x).getD (.fin 0)) (if h.colourCount = 3 then c else 1)) ∧
    ∀ (c : Nat) (e : ExtraChannel) (y x : Nat), h.extra[c]? = some e → y < f.size.height → x < f.size.width → v (h.colourCount + c) y x = unit e.bitDepth.bits (F.channels.v c y x)

/-! ## Files -/

/-- A picture on top of another. -/
def putFloatsOn (f : FrameHeader) (v w : FloatPic) : FloatPic := fun c y x =>
  if f.y0 ≤ y ∧ (y : Int) < f.y0 + f.size.height ∧ f.x0 ≤ x ∧ (x : Int) < f.x0 + f.size.width then v c ((y : Int) - f.y0).toNat ((x : Int) - f.x0).toNat else w c y x

/-- The pictures of the frames, on a canvas of zeros. -/
def layeredFloats (l : List (FrameHeader × FloatPic)) : FloatPic := l.foldl (fun w x => putFloatsOn x.1 x.2 w) fun _ _ _ => .fin 0

/-- The float buffers of an image show the picture, turned as the orientation says. -/
def ShowsFloatsTurned (n orientation : Nat) (size : Dim) (v : FloatPic) (bufs : List ImageBuffer) : Prop :=
  ∃ rs cs, exif orientation = some (rs, cs) ∧ bufs.length = n ∧ ∀ c, c < n → ∃ b, bufs[c]? = some b ∧
    b.FloatPicture (shownSize rs size.height size.width).1 (shownSize rs size.height size.width).2 ∧
    ∀ y x, y < size.height → x < size.width →
      sample b.floats (shown rs cs size.height size.width y x).1 (shown rs cs size.height size.width y x).2 = some (v c y x)

/-- A file with an image header, a colour profile or none, and VarDCT layers. Profiles matter only if the image is not in XYB. -/
structure VarDCTFile (file : List UInt8) (h : ImageHeader) (frames : List (FrameHeader × CodedFrame)) : Prop where
  stored : ∃ k k' level profile, CodestreamIn file k level ∧ ImageHeaderAt level file k k' h profile ∧ VarFramesAt h file k' frames ∧
    (h.xyb = false → ∀ e, profile = some e → ∃ icc, EncodesProfile e icc)
  noPreview : h.preview = none
  width : 0 < h.size.width ∧ h.size.width < 2 ^ 30
  height : 0 < h.size.height ∧ h.size.height < 2 ^ 30
  some : frames ≠ []
  layers : ∀ x ∈ frames, VarLayer h x.1 x.2

/-! ## Pixels -/

/-- The plane `m` of a Go image with 8 bits shows a channel of floats, turned as the orientation says: each sample goes through the curve `f` and becomes a byte as in C36. -/
def PlaneShowsFloats (I : FloatImpl) (h : ImageHeader) (f : F32 → F32) (v : Nat → Nat → F32) (m : List (List Nat)) : Prop :=
  ∃ rs cs, exif h.orientation = some (rs, cs) ∧ ∀ y x, y < h.size.height → x < h.size.width →
    ∃ o, sample m (shown rs cs h.size.height h.size.width y x).1 (shown rs cs h.size.height h.size.width y x).2 = some o ∧ (o : Int) = sampleToInt I 255 (f (v y x))

/-- Images with 8 bits for each sample. The image is in XYB and is shown in a colour space of ordinary range, or it has the colours of sRGB or a profile. The first extra channel is an alpha channel that
is not premultiplied, or there is no alpha channel. Compare `Ordinary8`. -/
structure OrdinaryFloats (h : ImageHeader) : Prop where
  bits : h.bitDepth.bits = 8
  range : Ordinary h.colour
  colours : h.xyb = true ∨ (h.colour.tf = 2 ^ 24 + 13 ∧ h.colour.primaries = 1 ∧ h.colour.whitePoint = 1)
  alpha : alphaChannels h.extra = [] ∨ ((alphaChannels h.extra).head? = some 0 ∧ ∀ e, h.extra[0]? = some e → e.alphaAssociated = false)

/-- The curve for a channel: that of sRGB for the colours of an image in XYB, none for others. -/
def shownCurve (curve : Nat → F32 → F32) (h : ImageHeader) (c : Nat) : F32 → F32 := if c < h.colourCount ∧ h.xyb = true then curve (2 ^ 24 + 13) else id

/-- The bytes of the Go image `px` are those of the channels `v`: gray; or red, green, blue and, if there is an alpha channel, alpha. -/
def PixelsShow (I : FloatImpl) (curve : Nat → F32 → F32) (h : ImageHeader) (v : FloatPic) (px : Pixels) : Prop :=
  ∃ planes, px.gray = decide (h.colour.space = 1) ∧ px.width = (orientedSize h.orientation h.size).width ∧ px.height = (orientedSize h.orientation h.size).height ∧
    px.pix = pixBytes planes px.height px.width ∧ planes.length = shownPlanes h ∧
    ∀ (c : Nat) (m : List (List Nat)), planes[c]? = some m → PlaneShowsFloats I h (shownCurve curve h c) (v c) m

end Jxl
