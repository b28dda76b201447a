import Verif.Props.Drawing
import Verif.Props.DecodeWitness

/-!
# C98: examples of files with frames that are added
-/
namespace Jxl
open Spec

/-- Frames of two by two pixels of which colours are blended in the given mode with a slot, and which are saved in a slot. -/
def drawnLayer (crop : Bool) (x0 : Int) (last : Bool) (mode source slot : Nat) : FrameHeader :=
  { smallLayer crop x0 last with blending := ⟨mode, 0, false, source⟩, saveAsReference := slot }

/-- The bare codestream: the header, a frame that covers the image and is saved in slot 1, a frame one pixel to the right of it that is added to slot 1; all frames code
`diagonalPicture`. -/
def addedLayers : List UInt8 :=
  [255, 10, 8, 16, 11, 4, 197, 45, 1, 8, 0, 2, 0, 60, 0, 75, 10, 9, 18, 8, 88, 10, 72, 82, 72, 144, 64, 192, 137, 0,
   8, 32, 2, 0, 32, 128, 64, 5, 0, 60, 0, 75, 10, 9, 18, 8, 88, 10, 72, 82, 72, 144, 64, 192, 137, 0, 0]

/-- The same, with another frame between: it covers the image, is added to slot 1 and saved in slot 2. -/
def skippingLayers : List UInt8 :=
  [255, 10, 8, 16, 11, 4, 197, 45, 1, 8, 0, 2, 0, 60, 0, 75, 10, 9, 18, 8, 88, 10, 72, 82, 72, 144, 64, 192, 137, 0,
   8, 64, 17, 0, 60, 0, 75, 10, 9, 18, 8, 88, 10, 72, 82, 72, 144, 64, 192, 137, 0,
   8, 32, 2, 0, 32, 128, 64, 5, 0, 60, 0, 75, 10, 9, 18, 8, 88, 10, 72, 82, 72, 144, 64, 192, 137, 0, 0]

/-- The frames of the first example. -/
def addedFrames : List (FrameHeader × Pic) := [(drawnLayer false 0 false 0 0 1, diagonalPicture), (drawnLayer true 1 true 1 1 0, diagonalPicture)]

/-- The frames of the second example. -/
def skippingFrames : List (FrameHeader × Pic) :=
  [(drawnLayer false 0 false 0 0 1, diagonalPicture), (drawnLayer false 0 false 1 1 2, diagonalPicture), (drawnLayer true 1 true 1 1 0, diagonalPicture)]

theorem drawnLayer_sheet (crop : Bool) (x0 : Int) (hx : 0 ≤ x0 ∧ x0 ≤ 2) (last : Bool) (mode source slot : Nat) :
    Sheet smallHeader (drawnLayer crop x0 last mode source slot) diagonalPicture where
  plain :=
    { framed := ⟨⟨0, by decide, rfl⟩, rfl, (by show ∀ v ∈ [0, 0, 0], v ≤ 1; decide), (by show ∀ v ∈ [0, 0, 0], v ≤ 1; decide), by show 0 < 2 ∧ 2 ≤ _; decide, by show 0 < 2 ∧ 2 ≤ _; decide⟩
      small := by show 2 ≤ 2 ^ 30 ∧ 2 ≤ 2 ^ 30; decide
      modular := rfl
      xyb := rfl
      gray := fun _ => rfl
      integers := ⟨rfl, by intro e he; cases he⟩
      jpegX := rfl
      jpegY := rfl
      filters := ⟨rfl, rfl⟩
      flags := by show Nat.testBit 0 0 = false ∧ Nat.testBit 0 1 = false ∧ Nat.testBit 0 4 = false; decide }
  regular := .inl rfl
  size := by show 2 < 2 ^ 30 ∧ 2 < 2 ^ 30; decide
  unscaled := ⟨rfl, by intro u hu; cases hu⟩
  rgb := rfl
  noLF := by show Nat.testBit 0 5 = false; decide
  place := .inl ⟨hx.1, Int.le_refl 0⟩
  meets := by
    show x0 ≤ 2 ∧ (0 : Int) ≤ 2 ∧ 0 ≤ x0 + 2 ∧ (0 : Int) ≤ 0 + 2
    omega
  samples := by
    intro c y x _ _ _
    unfold diagonalPicture
    split <;> decide
  groups := by show numGroupsOf (modularFrame 2 2 onePass) < 2 ^ 31; decide
  streams := by
    show 18 + 3 * numLFGroupsOf (modularFrame 2 2 onePass) + numGroupsOf (modularFrame 2 2 onePass) * onePass.numPasses < 2 ^ 32
    decide
  passes := by show onePass.Valid (onePass.numPasses - 1); decide

theorem drawnLayer_addition (crop : Bool) (x0 : Int) (hx : 0 ≤ x0 ∧ x0 ≤ 2) (last : Bool) (mode source slot : Nat) (hm : mode ≤ 1) :
    Addition smallHeader (drawnLayer crop x0 last mode source slot) diagonalPicture where
  toSheet := drawnLayer_sheet crop x0 hx last mode source slot
  modes := ⟨hm, by intro b hb; cases hb⟩
  saved := fun _ => rfl

/-- Samples of `diagonalPicture` are small, so sums of a few of them are. -/
theorem diagonal_small (c y x : Nat) : 0 ≤ diagonalPicture c y x ∧ diagonalPicture c y x ≤ 3 := by
  unfold diagonalPicture
  split <;> decide

theorem combined_small {h : ImageHeader} {f : FrameHeader} {slots : Nat → Pic} {m : Int} (hs : ∀ i c y x, 0 ≤ slots i c y x ∧ slots i c y x ≤ m) (c y x : Nat) :
    0 ≤ combined h f diagonalPicture slots c y x ∧ combined h f diagonalPicture slots c y x ≤ m + 3 := by
  unfold combined
  dsimp only
  have h1 := diagonal_small c ((y : Int) - f.y0).toNat ((x : Int) - f.x0).toNat
  have h2 := hs (blendingOf h f c).source c y x
  split <;> omega

/-- All pictures of a drawing have small samples. -/
def SmallDrawing (d : Drawing) (m : Int) : Prop := (∀ c y x, 0 ≤ d.canvas c y x ∧ d.canvas c y x ≤ m) ∧ ∀ i c y x, 0 ≤ d.slots i c y x ∧ d.slots i c y x ≤ m

theorem save_small {h : ImageHeader} {f : FrameHeader} {d : Drawing} {m : Int} (hd : SmallDrawing d m) : SmallDrawing (save f (overCanvas h f diagonalPicture d) d) (m + 3) := by
  have hw : ∀ c y x, 0 ≤ overCanvas h f diagonalPicture d c y x ∧ overCanvas h f diagonalPicture d c y x ≤ m + 3 := by
    intro c y x
    unfold overCanvas
    split
    · exact combined_small hd.2 c y x
    · have := hd.1 c y x
      omega
  refine ⟨hw, fun i c y x => ?_⟩
  unfold save
  dsimp only
  split
  · exact hw c y x
  · have := hd.2 i c y x
    omega

theorem sums_fit {h : ImageHeader} : ∀ (frames : List (FrameHeader × Pic)) (d : Drawing) (m : Int), SmallDrawing d m → (∀ x ∈ frames, x.2 = diagonalPicture) →
    m + 3 * frames.length < 2 ^ 31 → SumsFit h frames d
  | [], _, _, _, _, _ => trivial
  | x :: xs, d, m, hd, hx, hm => by
    have e := hx x List.mem_cons_self
    rw [List.length_cons] at hm
    push_cast at hm
    refine ⟨fun c r q _ _ _ _ => ?_, ?_⟩
    · rw [e]
      have := combined_small (h := h) (f := x.1) hd.2 c r q
      omega
    · rw [e]
      exact sums_fit xs _ (m + 3) (save_small hd) (fun y hy => hx y (List.mem_cons_of_mem _ hy)) (by omega)

theorem blank_small : SmallDrawing blank 0 := ⟨fun _ _ _ => ⟨le_refl _, le_refl _⟩, fun _ _ _ _ => ⟨le_refl _, le_refl _⟩⟩

theorem addedLayers_frames : FramesAt smallHeader addedLayers 9 addedFrames := by
  obtain ⟨es, h⟩ := diagonal_inside addedLayers 120 ⟨by decide, by decide +kernel⟩ ⟨by decide, by decide +kernel⟩ ⟨by decide, by decide +kernel⟩ (by decide +kernel)
    (by decide +kernel) (by decide +kernel) (by decide +kernel) (by decide)
  obtain ⟨es', h'⟩ := diagonal_inside addedLayers 328 ⟨by decide, by decide +kernel⟩ ⟨by decide, by decide +kernel⟩ ⟨by decide, by decide +kernel⟩ (by decide +kernel)
    (by decide +kernel) (by decide +kernel) (by decide +kernel) (by decide)
  refine ⟨30, ⟨102, 116, [15], ⟨by decide, by decide +kernel⟩, ⟨by decide, by decide +kernel⟩, ⟨by decide, by decide +kernel⟩, [1 / 4096, 1 / 512, 1 / 256], some (codedTree, es), ⟨true, defaultWP, []⟩, 0, imageChannels 1 ⟨2, 2⟩ diagonalPicture, ?_⟩, rfl,
    56, ⟨309, 324, [15], ⟨by decide, by decide +kernel⟩, ⟨by decide, by decide +kernel⟩, ⟨by decide, by decide +kernel⟩, [1 / 4096, 1 / 512, 1 / 256], some (codedTree, es'), ⟨true, defaultWP, []⟩, 0, imageChannels 1 ⟨2, 2⟩ diagonalPicture, ?_⟩, rfl, trivial⟩
  · rw [if_pos (by decide)]
    exact ⟨_, h, by decide +kernel, rfl⟩
  · rw [if_pos (by decide)]
    exact ⟨_, h', by decide +kernel, rfl⟩

theorem skippingLayers_frames : FramesAt smallHeader skippingLayers 9 skippingFrames := by
  obtain ⟨es, h⟩ := diagonal_inside skippingLayers 120 ⟨by decide, by decide +kernel⟩ ⟨by decide, by decide +kernel⟩ ⟨by decide, by decide +kernel⟩ (by decide +kernel)
    (by decide +kernel) (by decide +kernel) (by decide +kernel) (by decide)
  obtain ⟨es1, h1⟩ := diagonal_inside skippingLayers 288 ⟨by decide, by decide +kernel⟩ ⟨by decide, by decide +kernel⟩ ⟨by decide, by decide +kernel⟩ (by decide +kernel)
    (by decide +kernel) (by decide +kernel) (by decide +kernel) (by decide)
  obtain ⟨es', h'⟩ := diagonal_inside skippingLayers 496 ⟨by decide, by decide +kernel⟩ ⟨by decide, by decide +kernel⟩ ⟨by decide, by decide +kernel⟩ (by decide +kernel)
    (by decide +kernel) (by decide +kernel) (by decide +kernel) (by decide)
  refine ⟨30, ⟨102, 116, [15], ⟨by decide, by decide +kernel⟩, ⟨by decide, by decide +kernel⟩, ⟨by decide, by decide +kernel⟩, [1 / 4096, 1 / 512, 1 / 256], some (codedTree, es), ⟨true, defaultWP, []⟩, 0, imageChannels 1 ⟨2, 2⟩ diagonalPicture, ?_⟩, rfl,
    51, ⟨271, 284, [15], ⟨by decide, by decide +kernel⟩, ⟨by decide, by decide +kernel⟩, ⟨by decide, by decide +kernel⟩, [1 / 4096, 1 / 512, 1 / 256], some (codedTree, es1), ⟨true, defaultWP, []⟩, 0, imageChannels 1 ⟨2, 2⟩ diagonalPicture, ?_⟩, rfl,
    77, ⟨477, 492, [15], ⟨by decide, by decide +kernel⟩, ⟨by decide, by decide +kernel⟩, ⟨by decide, by decide +kernel⟩, [1 / 4096, 1 / 512, 1 / 256], some (codedTree, es'), ⟨true, defaultWP, []⟩, 0, imageChannels 1 ⟨2, 2⟩ diagonalPicture, ?_⟩, rfl, trivial⟩
  · rw [if_pos (by decide)]
    exact ⟨_, h, by decide +kernel, rfl⟩
  · rw [if_pos (by decide)]
    exact ⟨_, h1, by decide +kernel, rfl⟩
  · rw [if_pos (by decide)]
    exact ⟨_, h', by decide +kernel, rfl⟩

theorem addedLayers_file : DrawnFile addedLayers smallHeader none addedFrames where
  stored := ⟨0, 9, 5, none, .inl ⟨rfl, rfl, by decide, by decide⟩, ⟨65, 65, ⟨by decide, by decide +kernel⟩, rfl, rfl, rfl⟩, addedLayers_frames, trivial⟩
  viewable := small_viewable
  notXyb := rfl
  some := by simp [addedFrames]
  additions := by
    intro x hx
    rcases List.mem_cons.mp hx with rfl | hx
    · exact drawnLayer_addition _ _ (by decide) _ _ _ _ (by decide)
    · rw [List.mem_singleton.mp hx]
      exact drawnLayer_addition _ _ (by decide) _ _ _ _ (by decide)
  fit := sums_fit _ _ 0 blank_small (by intro x hx; rcases List.mem_cons.mp hx with rfl | hx; · rfl
                                        · rw [List.mem_singleton.mp hx]) (by decide)

theorem skippingLayers_file : DrawnFile skippingLayers smallHeader none skippingFrames where
  stored := ⟨0, 9, 5, none, .inl ⟨rfl, rfl, by decide, by decide⟩, ⟨65, 65, ⟨by decide, by decide +kernel⟩, rfl, rfl, rfl⟩, skippingLayers_frames, trivial⟩
  viewable := small_viewable
  notXyb := rfl
  some := by simp [skippingFrames]
  additions := by
    intro x hx
    rcases List.mem_cons.mp hx with rfl | hx
    · exact drawnLayer_addition _ _ (by decide) _ _ _ _ (by decide)
    rcases List.mem_cons.mp hx with rfl | hx
    · exact drawnLayer_addition _ _ (by decide) _ _ _ _ (by decide)
    · rw [List.mem_singleton.mp hx]
      exact drawnLayer_addition _ _ (by decide) _ _ _ _ (by decide)
  fit := by
    refine sums_fit _ _ 0 blank_small (fun x hx => ?_) (by decide)
    rcases List.mem_cons.mp hx with rfl | hx
    · rfl
    rcases List.mem_cons.mp hx with rfl | hx
    · rfl
    · rw [List.mem_singleton.mp hx]

theorem addedFrames_chained : Chained smallHeader none addedFrames := by
  refine ⟨fun i hi => (by cases hi), ⟨fun i hi => .inr (fun c hc => ?_), trivial⟩⟩
  have hc : c < 1 := hc
  interval_cases c
  exact Option.some.inj hi

/-- The picture of the first example: the left column is that of the first frame, the right column is the sum of the right column of the first and the left column of the second. -/
theorem addedLayers_picture : [(0, 0), (0, 1), (1, 0), (1, 1)].map (fun p : Nat × Nat => drawn smallHeader addedFrames 0 p.1 p.2) = [3, 3, 0, 3] := by decide +kernel

theorem added_range (c y x : Nat) (hc : c < channelCount smallHeader) (hy : y < smallHeader.size.height) (hx : x < smallHeader.size.width) :
    0 ≤ drawn smallHeader addedFrames c y x ∧ drawn smallHeader addedFrames c y x < 256 := by
  have hc' : c < 1 := hc
  have hy' : y < 2 := hy
  have hx' : x < 2 := hx
  interval_cases c
  interval_cases y <;> interval_cases x <;> decide +kernel

/-- The hypotheses of C98 are met by the first example, … -/
example (D : DecodeParts) (procs : Int) : ∃ img s', coreDecode D 2 procs none (BR.new addedLayers) = (.ok (some img), s') ∧ Made img img.buffers smallHeader ∧ img.icc = none ∧
    ShowsTurned 1 6 ⟨2, 2⟩ (drawn smallHeader addedFrames) img.buffers :=
  C98_layers_partial D addedLayers_file addedFrames_chained (by decide) procs

/-- … also those of the theorem about pixels, … -/
example (D : DecodeParts) (curve : Nat → F32 → F32) (procs : Int) : ∃ px planes, readerDecode D curve 2 procs ⟨addedLayers, true, false⟩ = .ok px ∧
    px.pix = pixBytes planes px.height px.width ∧ ∀ (c : Nat) (m : List (List Nat)), planes[c]? = some m → PlaneShows smallHeader (drawn smallHeader addedFrames c) m := by
  obtain ⟨px, planes, e, -, -, -, e1, -, e2⟩ := C98_pixels_partial D curve addedLayers_file addedFrames_chained small_ordinary added_range (show 2 ≤ 2 by decide) procs false
  exact ⟨px, planes, e, e1, e2⟩

/-- … and the second example meets those of `C98_stacked_partial`. -/
example (D : DecodeParts) (procs : Int) : ∃ img s', coreDecode D 3 procs none (BR.new skippingLayers) = (.ok (some img), s') ∧ Made img img.buffers smallHeader ∧ img.icc = none ∧
    ShowsTurned 1 6 ⟨2, 2⟩ (stacked smallHeader skippingFrames) img.buffers :=
  C98_stacked_partial D skippingLayers_file (by decide) procs

/-- C98 is false of the code for frames that do not cover the image and name another slot than that of the frame before: the pixels that they do not cover are those of the
frame before, not those of the slot that they name. -/
theorem C98_fails_uncovered (D : DecodeParts) (procs : Int) : ∃ img s', coreDecode D 3 procs none (BR.new skippingLayers) = (.ok (some img), s') ∧
    ¬ ShowsTurned (channelCount smallHeader) smallHeader.orientation smallHeader.size (drawn smallHeader skippingFrames) img.buffers := by
  obtain ⟨img, s', e, -, -, rs, cs, h1, h2, h3⟩ := C98_stacked_partial D skippingLayers_file (show 3 ≤ 3 by decide) procs
  refine ⟨img, s', e, ?_⟩
  rintro ⟨rs', cs', g1, g2, g3⟩
  rw [h1] at g1
  cases g1
  obtain ⟨b, e1, -, p1⟩ := h3 0 (by decide)
  obtain ⟨b', e2, -, p2⟩ := g3 0 (by decide)
  rw [e1] at e2
  cases e2
  have q1 := p1 0 0 (by decide) (by decide)
  have q2 := p2 0 0 (by decide) (by decide)
  rw [q1] at q2
  have : stacked smallHeader skippingFrames 0 0 0 = drawn smallHeader skippingFrames 0 0 0 := Option.some.inj q2
  revert this
  decide +kernel

end Jxl
