import Verif.Spec.VarDCTEnlarged

/-!
# Specification: files with modular frames in XYB (C106)

From ISO/IEC 18181-1. Of the decoder, only its data structures and its tables of default weights are used.
-/
namespace Jxl
open Spec

/-- The planes X, Y and B of a modular frame in XYB. The channels that are coded are Y, X, and the difference of B from Y, each as multiples of the factor of the plane. -/
def xybPlanes (deq : List ℚ) (v : Pic) : FloatPic := fun c y x =>
  F32.mul (.fin (deq.getD c 0)) (F32.ofInt (if c = 0 then v 1 y x else if c = 1 then v 0 y x else v 0 y x + v 2 y x))

/-- A picture that is made larger if the frame says so. -/
def shownFloats (h : ImageHeader) (f : FrameHeader) (g : FloatPic) : FloatPic := if f.upsampling = 1 then g else enlargedFloats h f g

/-- The colours of a modular frame in XYB. -/
def xybPicture (h : ImageHeader) (matrix : Option (Opsin F32)) (f : FrameHeader) (deq : List ℚ) (v : Pic) : FloatPic := fun c y x =>
  if hc : c < 3 then pixelColour matrix (F32.round h.tone.intensityTarget) f.doYCbCr (fun i => shownFloats h f (xybPlanes deq v) i y x) ⟨c, hc⟩ else .fin 0

/-- The bytes from `k` to `k'` are a modular frame. Compare `FrameCodes`. -/
def XybFrameCodes (h : ImageHeader) (data : List UInt8) (k k' : Nat) (f : FrameHeader) (deq : List ℚ) (v : Pic) : Prop :=
  ∃ (p q : Nat) (lengths : List Nat),
    DecAt (decFrameHeader 0 false h.xyb h.extra.length h.size) data (8 * k) p f ∧ DecAt decBool data p (p + 1) false ∧
    DecAt (decLengths (sectionCount f)) data (8 * nextByte (p + 1)) q lengths ∧ SectionsCodeWith h f lengths data (nextByte q) k' v deq

/-- Frames one after the other. Only the last one says that it is. -/
def XybFramesAt (h : ImageHeader) (data : List UInt8) : Nat → List (FrameHeader × List ℚ × Pic) → Prop
  | _, [] => True
  | k, x :: xs => ∃ k', XybFrameCodes h data k k' x.1 x.2.1 x.2.2 ∧ x.1.isLast = xs.isEmpty ∧ XybFramesAt h data k' xs

/-- A modular frame in XYB that replaces part of the image. There are no filters and no extra channels. Compare `Plain` and `CodedSheet`. -/
structure XybLayer (h : ImageHeader) (f : FrameHeader) (v : Pic) : Prop extends ShownPlace h f where
  framed : Framed f
  modular : f.encoding = 1
  xyb : h.xyb = true
  colours : h.colour.space ≠ 1
  extra : h.extra = []
  jpegX : f.jpegX = [0, 0, 0]
  jpegY : f.jpegY = [0, 0, 0]
  filters : f.restoration.gab = false ∧ f.restoration.iterations = 0
  flags : f.flags.testBit 0 = false ∧ f.flags.testBit 1 = false ∧ f.flags.testBit 4 = false ∧ f.flags.testBit 5 = false
  samples : ∀ y x, y < f.size.height → x < f.size.width → |v 0 y x + v 2 y x| < 2 ^ 31
  groups : numGroupsOf f < 2 ^ 31
  streams : 18 + 3 * numLFGroupsOf f + numGroupsOf f * f.passes.numPasses < 2 ^ 32
  passes : f.passes.Valid (f.passes.numPasses - 1)

/-- A file with an image header, a colour profile or none, and such layers. -/
structure XybFile (file : List UInt8) (h : ImageHeader) (frames : List (FrameHeader × List ℚ × Pic)) : Prop where
  stored : ∃ k k' level profile, CodestreamIn file k level ∧ ImageHeaderAt level file k k' h profile ∧ XybFramesAt h file k' frames
  viewable : Viewable h
  some : frames ≠ []
  layers : ∀ x ∈ frames, XybLayer h x.1 x.2.2

end Jxl
