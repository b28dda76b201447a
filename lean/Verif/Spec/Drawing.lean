import Verif.Spec.Decode

/-!
# Specification: frames that are added to saved frames (C98)

A frame replaces what it covers, or is added to what a saved frame shows there. The picture that the canvas shows after a frame that is not the last can be saved in one of
four slots, which show zeros at first.
-/
namespace Jxl
namespace Spec

/-- What the canvas shows, and what was saved in the slots. -/
structure Drawing where
  canvas : Pic
  slots : Nat → Pic

/-- Before the first frame. -/
def blank : Drawing := ⟨fun _ _ _ => 0, fun _ _ _ _ => 0⟩

/-- How channel `c` is blended: colours have one rule, every extra channel has its own. -/
def blendingOf (h : ImageHeader) (f : FrameHeader) (c : Nat) : Blending :=
  if c < h.colourCount then f.blending else f.ecBlending.getD (c - h.colourCount) ⟨0, 0, false, 0⟩

/-- The frame covers the pixel in row `y` and column `x`. -/
def CoversPixel (f : FrameHeader) (y x : Nat) : Prop := f.y0 ≤ y ∧ (y : Int) < f.y0 + f.size.height ∧ f.x0 ≤ x ∧ (x : Int) < f.x0 + f.size.width

instance (f : FrameHeader) (y x : Nat) : Decidable (CoversPixel f y x) := by unfold CoversPixel; infer_instance

/-- What a frame with picture `v` shows where it covers the image: mode 1 adds to the slot that the channel names, mode 0 replaces. -/
def combined (h : ImageHeader) (f : FrameHeader) (v : Pic) (slots : Nat → Pic) : Pic := fun c y x =>
  let new := v c ((y : Int) - f.y0).toNat ((x : Int) - f.x0).toNat
  if (blendingOf h f c).mode = 1 then slots (blendingOf h f c).source c y x + new else new

/-- The picture after a frame, as the format has it: the other pixels are those of the slot that the channel names. -/
def overSlot (h : ImageHeader) (f : FrameHeader) (v : Pic) (d : Drawing) : Pic := fun c y x =>
  if CoversPixel f y x then combined h f v d.slots c y x else d.slots (blendingOf h f c).source c y x

/-- The picture after a frame that is put on the canvas as it is. -/
def overCanvas (h : ImageHeader) (f : FrameHeader) (v : Pic) (d : Drawing) : Pic := fun c y x =>
  if CoversPixel f y x then combined h f v d.slots c y x else d.canvas c y x

/-- The canvas shows `w` now, and is saved. -/
def save (f : FrameHeader) (w : Pic) (d : Drawing) : Drawing := ⟨w, fun i => if i = f.saveAsReference then w else d.slots i⟩

/-- All frames. -/
def drawing (over : ImageHeader → FrameHeader → Pic → Drawing → Pic) (h : ImageHeader) (frames : List (FrameHeader × Pic)) (d : Drawing) : Drawing :=
  frames.foldl (fun d x => save x.1 (over h x.1 x.2 d) d) d

/-- The picture that the frames draw according to the format. -/
def drawn (h : ImageHeader) (frames : List (FrameHeader × Pic)) : Pic := (drawing overSlot h frames blank).canvas

/-- The picture of the frames if each is put on the canvas as it is. -/
def stacked (h : ImageHeader) (frames : List (FrameHeader × Pic)) : Pic := (drawing overCanvas h frames blank).canvas

/-- All sums fit in 32 bits. -/
def SumsFit (h : ImageHeader) : List (FrameHeader × Pic) → Drawing → Prop
  | [], _ => True
  | x :: xs, d =>
    (∀ c r q, c < channelCount h → r < h.size.height → q < h.size.width → CoversPixel x.1 r q →
      -2 ^ 31 ≤ combined h x.1 x.2 d.slots c r q ∧ combined h x.1 x.2 d.slots c r q < 2 ^ 31) ∧
    SumsFit h xs (save x.1 (overCanvas h x.1 x.2 d) d)

/-- Every frame covers the whole image, or names, for all its channels, the slot in which the frame before it was saved (if any). -/
def Chained (h : ImageHeader) : Option Nat → List (FrameHeader × Pic) → Prop
  | _, [] => True
  | before, x :: xs =>
    (∀ i, before = some i → (∀ r q, r < h.size.height → q < h.size.width → CoversPixel x.1 r q) ∨ ∀ c, c < channelCount h → (blendingOf h x.1 c).source = i) ∧
    Chained h (some x.1.saveAsReference) xs

/-- A losslessly coded frame that replaces or adds, and is saved after the colour transform if it is not the last. -/
structure Addition (h : ImageHeader) (f : FrameHeader) (v : Pic) : Prop extends Sheet h f v where
  modes : f.blending.mode ≤ 1 ∧ ∀ b ∈ f.ecBlending, b.mode ≤ 1
  saved : f.isLast = false → f.saveBeforeCT = false

/-- A file with such frames. -/
structure DrawnFile (file : List UInt8) (h : ImageHeader) (icc : Option (List Nat)) (frames : List (FrameHeader × Pic)) : Prop where
  stored : ∃ k k' level profile, CodestreamIn file k level ∧ ImageHeaderAt level file k k' h profile ∧ FramesAt h file k' frames ∧
    match profile, icc with
    | none, none => True
    | some e, some p => EncodesProfile e p
    | _, _ => False
  viewable : Viewable h
  notXyb : h.xyb = false
  some : frames ≠ []
  additions : ∀ x ∈ frames, Addition h x.1 x.2
  fit : SumsFit h frames blank

end Spec
end Jxl
