import Verif.Spec.Enlarged

/-!
# Specification: files with VarDCT pictures that are shown larger (C105)

From ISO/IEC 18181-1. Of the decoder, only its data structures and its tables of default weights are used.
-/
namespace Jxl
open Spec

/-- The picture that a VarDCT frame codes: three planes, and extra channels, whose samples become fractions of the greatest number of their depth. -/
def CodedFrame.small (F : CodedFrame) (h : ImageHeader) (planes : List (List (List F32))) : FloatPic := fun c y x =>
  if c < 3 then (sample (planes.getD c []) y x).getD (.fin 0) else unit (depth h c) (F.channels.v (c - 3) y x)

/-- The channels of the picture that the frame shows. Compare `CodedFrame.Shows`: the picture that the frame codes is made larger, and only then the first three channels are turned
into colours. -/
def CodedFrame.ShowsGrown (arith : Arith F32) (F : CodedFrame) (h : ImageHeader) (f : FrameHeader) (cos : Nat → Nat → Nat → F32) (B : Nat → Nat → F32) (scale : Nat → Nat → F32)
    (pow : Nat → F32) (quant : QuantFuncs F32) (step : F32) (matrix : Option (Opsin F32)) (v : FloatPic) : Prop :=
  ∃ weights coded planes, allWeights quant F.params 0 = .ok weights ∧ F.ShownIn h f cos B scale pow weights coded ∧ F.Filtered f step coded planes ∧
    (∀ (c : Fin 3) (y x : Nat), y < f.grown.size.height → x < f.grown.size.width →
      v c y x = pixelColour matrix (F32.round h.tone.intensityTarget) f.doYCbCr (fun i => enlargedFloats h f (F.small h planes) i y x) c) ∧
    ∀ (c y x : Nat), 3 ≤ c → c < channelCount h → y < f.grown.size.height → x < f.grown.size.width → v c y x = enlargedFloats h f (F.small h planes) c y x

/-- A VarDCT frame that replaces part of the image by a picture that is made larger. The image is not gray, and the picture is of whole blocks. -/
structure GrownVarLayer (h : ImageHeader) (f : FrameHeader) (F : CodedFrame) : Prop extends VarCoded h f F, GrownPlace h f where
  colours : h.colourCount = 3
  whole : f.size.width % 8 = 0 ∧ f.size.height % 8 = 0

/-- A file with an image header, a colour profile or none, and such layers. Compare `VarDCTFile`. -/
structure GrownVarFile (file : List UInt8) (h : ImageHeader) (frames : List (FrameHeader × CodedFrame)) : Prop where
  stored : ∃ k k' level profile, CodestreamIn file k level ∧ ImageHeaderAt level file k k' h profile ∧ VarFramesAt h file k' frames ∧
    (h.xyb = false → ∀ e, profile = some e → ∃ icc, EncodesProfile e icc)
  viewable : Viewable h
  some : frames ≠ []
  layers : ∀ x ∈ frames, GrownVarLayer h x.1 x.2

end Jxl
