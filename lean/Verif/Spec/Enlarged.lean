import Verif.Spec.VarDCTFile
import Verif.Spec.FrameDecode
import Verif.Spec.Filters

/-!
# Specification: files with losslessly coded pictures that are shown larger (C104)

From ISO/IEC 18181-1. Of the decoder, only its data structures and its tables of default weights are used.
-/
namespace Jxl
open Spec

/-- The weights for a factor: those that the header states, or those by default, which the tables have in units of 10⁻⁸. -/
def statedWeights (h : ImageHeader) (k : Nat) : List F32 :=
  match (if k = 2 then h.up2 else if k = 4 then h.up4 else h.up8) with
  | some l => l.map F32.fin
  | none => (if k = 2 then defaultUp2 else if k = 4 then defaultUp4 else defaultUp8).map fun i => F32.round ((i : ℚ) / 10 ^ 8)

/-- A picture made larger by the factor of the frame: each value becomes a square of values, which are weighted sums of the surroundings. -/
def enlargedFloats (h : ImageHeader) (f : FrameHeader) (g : FloatPic) : FloatPic := fun c y x =>
  upsampled f.size.height f.size.width (g c)
    (fun iy ix => (kernelEntry f.upsampling (statedWeights h f.upsampling) (y % f.upsampling) (x % f.upsampling) iy ix).getD (.fin 0)) (y / f.upsampling) (x / f.upsampling)

/-- A picture of integers made larger: samples first become fractions of the greatest number of their depth. -/
def enlarged (h : ImageHeader) (f : FrameHeader) (v : Pic) : FloatPic := enlargedFloats h f fun c y x => unit (depth h c) (v c y x)

/-- A frame made larger by its factor, with the corner of the frame. -/
def FrameHeader.grown (f : FrameHeader) : FrameHeader := { f with size := ⟨f.size.width * f.upsampling, f.size.height * f.upsampling⟩ }

/-- What the code makes of it: the coordinates of its corner are multiplied too. -/
def FrameHeader.moved (f : FrameHeader) : FrameHeader := { f.grown with x0 := f.x0 * f.upsampling, y0 := f.y0 * f.upsampling }

/-- A frame that replaces part of the image, with a picture as it is or made larger. -/
structure ShownPlace (h : ImageHeader) (f : FrameHeader) : Prop where
  regular : f.frameType = 0 ∨ f.frameType = 3
  scale : f.upsampling ∈ [1, 2, 4, 8]
  small : f.size.width ≤ 2 ^ 26 ∧ f.size.height ≤ 2 ^ 26
  replace : f.blending.mode = 0 ∧ ∀ b ∈ f.ecBlending, b.mode = 0
  place : (0 ≤ f.moved.x0 ∧ 0 ≤ f.moved.y0) ∨ (f.moved.x0 < 0 ∧ f.moved.y0 ≤ 0)
  meets : f.moved.x0 ≤ h.size.width ∧ f.moved.y0 ≤ h.size.height ∧ 0 ≤ f.moved.x0 + f.moved.size.width ∧ 0 ≤ f.moved.y0 + f.moved.size.height

/-- A frame that replaces part of the image by a picture that is made larger: all channels by the same factor. -/
structure GrownPlace (h : ImageHeader) (f : FrameHeader) : Prop extends ShownPlace h f where
  factor : f.upsampling ∈ [2, 4, 8] ∧ ∀ u ∈ f.ecUpsampling, u = f.upsampling

/-- Such a frame with a losslessly coded picture. Compare `Layer`. -/
structure GrownLayer (h : ImageHeader) (f : FrameHeader) (v : Pic) : Prop extends CodedSheet h f v, GrownPlace h f

/-- A file with an image header, a colour profile or none, and such layers. -/
structure GrownFile (file : List UInt8) (h : ImageHeader) (icc : Option (List Nat)) (frames : List (FrameHeader × Pic)) : Prop where
  stored : ∃ k k' level profile, CodestreamIn file k level ∧ ImageHeaderAt level file k k' h profile ∧ FramesAt h file k' frames ∧
    match profile, icc with
    | none, none => True
    | some e, some p => EncodesProfile e p
    | _, _ => False
  viewable : Viewable h
  notXyb : h.xyb = false
  some : frames ≠ []
  layers : ∀ x ∈ frames, GrownLayer h x.1 x.2

end Jxl
