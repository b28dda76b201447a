import Verif.Spec.Drawing
import Verif.Spec.Blend

/-!
# Specification: frames that are blended with saved frames (C99)

A frame replaces what it covers, or is blended with what a saved frame shows there: it is put over it with the alphas of both (mode 2), added to it after multiplication by its alpha
(mode 3), or multiplied with it (mode 4). `composite` (`Spec/Blend.lean`) is the formula of each mode. Samples are floats: the sample `v` of a channel of depth `d` stands for
`v / (2^d - 1)`.
-/
namespace Jxl
namespace Spec

/-- A picture in floats: the value of channel `c` in row `y` and column `x`. -/
abbrev FloatPic := Nat → Nat → Nat → F32

/-- What the canvas shows, and what was saved in the slots. -/
structure Collage where
  canvas : FloatPic
  slots : Nat → Option FloatPic

/-- Before the first frame: nothing has been saved. -/
def bare : Collage := ⟨fun _ _ _ => .fin 0, fun _ => none⟩

/-- The value of the frame with picture `v` on a pixel of the canvas. -/
def placed (h : ImageHeader) (f : FrameHeader) (v : Pic) : FloatPic := fun c y x => unit (depth h c) (v c ((y : Int) - f.y0).toNat ((x : Int) - f.x0).toNat)

/-- Channel `c` is an extra channel of type alpha. -/
def isAlphaChannel (h : ImageHeader) (c : Nat) : Bool := if c < h.colourCount then false else decide ((h.extra[c - h.colourCount]?).map (·.ecType) = some 0)

/-- The alphas of the saved picture and of the frame, in the extra channel that the blending rule names, and whether colours are multiplied by them already. -/
def alphasOf (h : ImageHeader) (f : FrameHeader) (v : Pic) (old : FloatPic) (n y x : Nat) : Option (F32 × F32 × Bool) :=
  if h.hasAlpha then
    some (old (h.colourCount + n) y x, placed h f v (h.colourCount + n) y x, ((h.extra[n]?).map (·.alphaAssociated)).getD false)
  else none

/-- What a frame with picture `v` shows where it covers the image. -/
def composed (I : BlendImpl) (h : ImageHeader) (f : FrameHeader) (v : Pic) (slots : Nat → Option FloatPic) : FloatPic := fun c y x =>
  match slots (blendingOf h f c).source with
  | none => placed h f v c y x
  | some old =>
    composite I (blendingOf h f c).mode (blendingOf h f c).clamp (isAlphaChannel h c) (alphasOf h f v old (blendingOf h f c).alpha y x) (old c y x) (placed h f v c y x)

/-- The picture after a frame, as the format has it: the other pixels are those of the slot that the channel names, or zero. -/
def upSlot (I : BlendImpl) (h : ImageHeader) (f : FrameHeader) (v : Pic) (d : Collage) : FloatPic := fun c y x =>
  if CoversPixel f y x then composed I h f v d.slots c y x else ((d.slots (blendingOf h f c).source).map (fun old => old c y x)).getD (.fin 0)

/-- The picture after a frame that is put on the canvas as it is. -/
def upCanvas (I : BlendImpl) (h : ImageHeader) (f : FrameHeader) (v : Pic) (d : Collage) : FloatPic := fun c y x =>
  if CoversPixel f y x then composed I h f v d.slots c y x else d.canvas c y x

/-- The canvas shows `w` now, and is saved. -/
def keep (f : FrameHeader) (w : FloatPic) (d : Collage) : Collage := ⟨w, fun i => if i = f.saveAsReference then some w else d.slots i⟩

/-- All frames. -/
def collage (up : ImageHeader → FrameHeader → Pic → Collage → FloatPic) (h : ImageHeader) (frames : List (FrameHeader × Pic)) (d : Collage) : Collage :=
  frames.foldl (fun d x => keep x.1 (up h x.1 x.2 d) d) d

/-- The picture that the frames make according to the format. -/
def blended (I : BlendImpl) (h : ImageHeader) (frames : List (FrameHeader × Pic)) : FloatPic := (collage (upSlot I) h frames bare).canvas

/-- The picture of the frames if each is put on the canvas as it is. -/
def heaped (I : BlendImpl) (h : ImageHeader) (frames : List (FrameHeader × Pic)) : FloatPic := (collage (upCanvas I) h frames bare).canvas

/-- Modes that blend name a slot in which a frame was saved. Frames that are not the last leave numbers on the canvas (mode 2 divides by the alpha of both, which may be zero). -/
def Usable (I : BlendImpl) (h : ImageHeader) : List (FrameHeader × Pic) → Collage → Prop
  | [], _ => True
  | x :: xs, d =>
    (∀ c, c < channelCount h → 2 ≤ (blendingOf h x.1 c).mode → d.slots (blendingOf h x.1 c).source ≠ none) ∧
    (xs ≠ [] → ∀ c y q, c < channelCount h → y < h.size.height → q < h.size.width → upCanvas I h x.1 x.2 d c y q ≠ .nan) ∧
    Usable I h xs (keep x.1 (upCanvas I h x.1 x.2 d) d)

/-- A losslessly coded frame that replaces or blends, and is saved after the colour transform if it is not the last. The alpha that a channel is blended with is in an extra channel of
the image, and is blended later if the frame is saved in the slot that it is blended with (the code would use the new alpha as the old one, `C37_shared_reference_wrong`). -/
structure Blended (h : ImageHeader) (f : FrameHeader) (v : Pic) : Prop extends Sheet h f v where
  modes : ∀ c, c < channelCount h → (blendingOf h f c).mode ≠ 1
  alphas : h.hasAlpha = true → ∀ c, c < channelCount h → (blendingOf h f c).mode = 2 ∨ (blendingOf h f c).mode = 3 → (blendingOf h f c).alpha < h.extra.length
  order : h.hasAlpha = true → ∀ c, c < channelCount h → (blendingOf h f c).mode = 2 ∨ (blendingOf h f c).mode = 3 → (blendingOf h f c).source = f.saveAsReference →
    c ≤ h.colourCount + (blendingOf h f c).alpha
  saved : f.isLast = false → f.saveBeforeCT = false

/-- A file with such frames. -/
structure BlendedFile (I : BlendImpl) (file : List UInt8) (h : ImageHeader) (icc : Option (List Nat)) (frames : List (FrameHeader × Pic)) : Prop where
  stored : ∃ k k' level profile, CodestreamIn file k level ∧ ImageHeaderAt level file k k' h profile ∧ FramesAt h file k' frames ∧
    match profile, icc with
    | none, none => True
    | some e, some p => EncodesProfile e p
    | _, _ => False
  viewable : Viewable h
  notXyb : h.xyb = false
  some : frames ≠ []
  blends : ∀ x ∈ frames, Blended h x.1 x.2
  usable : Usable I h frames bare

/-- The buffers of an image show the values, turned as the orientation says; a buffer holds floats, or integers that stand for them. -/
def ValuesTurned (h : ImageHeader) (w : FloatPic) (bufs : List ImageBuffer) : Prop :=
  ∃ rs cs, exif h.orientation = some (rs, cs) ∧ bufs.length = channelCount h ∧ ∀ c, c < channelCount h → ∃ b, bufs[c]? = some b ∧
    (b.IntPicture (shownSize rs h.size.height h.size.width).1 (shownSize rs h.size.height h.size.width).2 ∨
      b.FloatPicture (shownSize rs h.size.height h.size.width).1 (shownSize rs h.size.height h.size.width).2) ∧
    ∀ y x, y < h.size.height → x < h.size.width →
      value (depth h c) b (shown rs cs h.size.height h.size.width y x).1 (shown rs cs h.size.height h.size.width y x).2 = some (w c y x)

/-- The plane `m` of a Go image shows the values, turned as the orientation says: each byte is 255 times the value, rounded to an integer, up to the error of `float32` arithmetic. -/
def BytesShow (h : ImageHeader) (w : Nat → Nat → F32) (m : List (List Nat)) : Prop :=
  ∃ rs cs, exif h.orientation = some (rs, cs) ∧ ∀ y x, y < h.size.height → x < h.size.width →
    ∃ o q, sample m (shown rs cs h.size.height h.size.width y x).1 (shown rs cs h.size.height h.size.width y x).2 = some o ∧ o < 256 ∧ w y x = .fin q ∧
      |(o : ℚ) - 255 * q| ≤ 1 / 2 + 1 / 1000

end Spec
end Jxl
