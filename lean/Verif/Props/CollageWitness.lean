import Verif.Props.Collage
import Verif.Props.DrawingWitness
import Verif.Props.Blend

/-!
# C99: an example of a file with frames that are blended
-/
namespace Jxl
open Spec

/-- The bare codestream: the header, a frame that covers the image and is saved in slot 1, another that is blended with slot 1 (mode 2) and saved there, and a frame one pixel to the
right that is added to slot 1 with weight alpha (mode 3; there is no alpha, so it counts as 1); all frames code `diagonalPicture`. -/
def mixedLayers : List UInt8 :=
  [255, 10, 8, 16, 11, 4, 197, 45, 1, 8, 0, 2, 0, 60, 0, 75, 10, 9, 18, 8, 88, 10, 72, 82, 72, 144, 64, 192, 137, 0,
   8, 128, 9, 0, 60, 0, 75, 10, 9, 18, 8, 88, 10, 72, 82, 72, 144, 64, 192, 137, 0,
   8, 32, 2, 0, 32, 128, 192, 20, 0, 60, 0, 75, 10, 9, 18, 8, 88, 10, 72, 82, 72, 144, 64, 192, 137, 0, 0]

/-- Its frames. -/
def mixedFrames : List (FrameHeader × Pic) :=
  [(drawnLayer false 0 false 0 0 1, diagonalPicture), (drawnLayer false 0 false 2 1 1, diagonalPicture), (drawnLayer true 1 true 3 1 0, diagonalPicture)]

theorem drawnLayer_blended (crop : Bool) (x0 : Int) (hx : 0 ≤ x0 ∧ x0 ≤ 2) (last : Bool) (mode source slot : Nat) (hm : mode ≠ 1) :
    Blended smallHeader (drawnLayer crop x0 last mode source slot) diagonalPicture where
  toSheet := drawnLayer_sheet crop x0 hx last mode source slot
  modes := by
    intro c hc
    have hc : c < 1 := hc
    interval_cases c
    exact hm
  alphas := by intro ha; cases ha
  order := by intro ha; cases ha
  saved := fun _ => rfl

theorem mixedLayers_frames : FramesAt smallHeader mixedLayers 9 mixedFrames := by
  obtain ⟨es, h⟩ := diagonal_inside mixedLayers 120 ⟨by decide, by decide +kernel⟩ ⟨by decide, by decide +kernel⟩ ⟨by decide, by decide +kernel⟩ (by decide +kernel)
    (by decide +kernel) (by decide +kernel) (by decide +kernel) (by decide)
  obtain ⟨es1, h1⟩ := diagonal_inside mixedLayers 288 ⟨by decide, by decide +kernel⟩ ⟨by decide, by decide +kernel⟩ ⟨by decide, by decide +kernel⟩ (by decide +kernel)
    (by decide +kernel) (by decide +kernel) (by decide +kernel) (by decide)
  obtain ⟨es', h'⟩ := diagonal_inside mixedLayers 496 ⟨by decide, by decide +kernel⟩ ⟨by decide, by decide +kernel⟩ ⟨by decide, by decide +kernel⟩ (by decide +kernel)
    (by decide +kernel) (by decide +kernel) (by decide +kernel) (by decide)
  refine ⟨30, ⟨102, 116, [15], ⟨by decide, by decide +kernel⟩, ⟨by decide, by decide +kernel⟩, ⟨by decide, by decide +kernel⟩, [1 / 4096, 1 / 512, 1 / 256], some (codedTree, es), ⟨true, defaultWP, []⟩, 0, imageChannels 1 ⟨2, 2⟩ diagonalPicture, ?_⟩, rfl,
    51, ⟨271, 284, [15], ⟨by decide, by decide +kernel⟩, ⟨by decide, by decide +kernel⟩, ⟨by decide, by decide +kernel⟩, [1 / 4096, 1 / 512, 1 / 256], some (codedTree, es1), ⟨true, defaultWP, []⟩, 0, imageChannels 1 ⟨2, 2⟩ diagonalPicture, ?_⟩, rfl,
    77, ⟨479, 492, [15], ⟨by decide, by decide +kernel⟩, ⟨by decide, by decide +kernel⟩, ⟨by decide, by decide +kernel⟩, [1 / 4096, 1 / 512, 1 / 256], some (codedTree, es'), ⟨true, defaultWP, []⟩, 0, imageChannels 1 ⟨2, 2⟩ diagonalPicture, ?_⟩, rfl, trivial⟩
  · rw [if_pos (by decide)]
    exact ⟨_, h, by decide +kernel, rfl⟩
  · rw [if_pos (by decide)]
    exact ⟨_, h1, by decide +kernel, rfl⟩
  · rw [if_pos (by decide)]
    exact ⟨_, h', by decide +kernel, rfl⟩

theorem upCanvas_impl (I : BlendImpl) (h : ImageHeader) (f : FrameHeader) (v : Pic) (d : Collage) : upCanvas I h f v d = upCanvas (impl I.fused I.left) h f v d := rfl

theorem mixedFrames_usable (I : BlendImpl) : Usable I smallHeader mixedFrames bare := by
  generalize hf : I.fused = fused
  generalize hl : I.left = left
  refine ⟨fun c hc => ?_, fun _ c y x hc hy hx => ?_, fun c hc => ?_, fun _ c y x hc hy hx => ?_, fun c hc => ?_, fun hx => absurd rfl hx, trivial⟩
  all_goals
    have hc : c < 1 := hc
    interval_cases c
  · decide
  · have hy : y < 2 := hy
    have hx : x < 2 := hx
    rw [upCanvas_impl I, hf, hl]
    clear hf hl
    revert fused left
    interval_cases y <;> interval_cases x <;> decide +kernel
  · intro _ h
    cases h
  · have hy : y < 2 := hy
    have hx : x < 2 := hx
    rw [upCanvas_impl I, upCanvas_impl I, hf, hl]
    clear hf hl
    revert fused left
    interval_cases y <;> interval_cases x <;> decide +kernel
  · intro _ h
    cases h

theorem mixedLayers_file (I : BlendImpl) : BlendedFile I mixedLayers smallHeader none mixedFrames where
  stored := ⟨0, 9, 5, none, .inl ⟨rfl, rfl, by decide, by decide⟩, ⟨65, 65, ⟨by decide, by decide +kernel⟩, rfl, rfl, rfl⟩, mixedLayers_frames, trivial⟩
  viewable := small_viewable
  notXyb := rfl
  some := by simp [mixedFrames]
  blends := by
    intro x hx
    rcases List.mem_cons.mp hx with rfl | hx
    · exact drawnLayer_blended _ _ (by decide) _ _ _ _ (by decide)
    rcases List.mem_cons.mp hx with rfl | hx
    · exact drawnLayer_blended _ _ (by decide) _ _ _ _ (by decide)
    · rw [List.mem_singleton.mp hx]
      exact drawnLayer_blended _ _ (by decide) _ _ _ _ (by decide)
  usable := mixedFrames_usable I

theorem mixedFrames_chained : Chained smallHeader none mixedFrames := by
  refine ⟨fun i hi => (by cases hi), fun i hi => .inr (fun c hc => ?_), ⟨fun i hi => .inr (fun c hc => ?_), trivial⟩⟩
  all_goals
    have hc : c < 1 := hc
    interval_cases c
    exact Option.some.inj hi

/-- The hypotheses of C99 are met by the example. -/
example (D : DecodeParts) (procs : Int) : ∃ img s', coreDecode D 3 procs none (BR.new mixedLayers) = (.ok (some img), s') ∧ Made img img.buffers smallHeader ∧ img.icc = none ∧
    ValuesTurned smallHeader (blended D.impl smallHeader mixedFrames) img.buffers :=
  C99_blended_partial D (mixedLayers_file D.impl) mixedFrames_chained (by decide) procs

/-! ## An image with alpha -/

/-- A gray image of two by two pixels with an alpha channel. -/
def clearHeader : ImageHeader := { smallHeader with extra := [⟨[], 0, 1, 0, [0, 0, 0, 0], ⟨8, 0, false⟩, false⟩], alphaIndices := [0] }

/-- The gray channel is `diagonalPicture`, the alpha channel is 3 everywhere. -/
def clearPicture : Pic := fun c y x => if c = 1 ∨ y = x then 3 else 0

/-- Frames that cover the image. -/
def clearLayer (last : Bool) (colour alpha : Blending) (slot : Nat) : FrameHeader :=
  { smallLayer false 0 last with ecUpsampling := [1], blending := colour, ecBlending := [alpha], saveAsReference := slot }

/-- The bare codestream: the header, a frame that is saved in slot 1, a frame whose gray channel is multiplied with that of slot 1 and whose alpha channel replaces it, saved in slot 1, and
a frame that is put over slot 1 with alpha; all frames code `clearPicture`. -/
def clearLayers : List UInt8 :=
  [255, 10, 8, 16, 11, 44, 138, 91, 2,
   8, 0, 32, 0, 0, 64, 0, 75, 10, 9, 18, 8, 88, 10, 72, 82, 72, 144, 64, 192, 137, 170, 0,
   8, 0, 55, 4, 0, 64, 0, 75, 10, 9, 18, 8, 88, 10, 72, 82, 72, 144, 64, 192, 137, 170, 0,
   8, 0, 50, 81, 0, 0, 64, 0, 75, 10, 9, 18, 8, 88, 10, 72, 82, 72, 144, 64, 192, 137, 170, 0, 0, 0]

/-- Its frames. -/
def clearFrames : List (FrameHeader × Pic) :=
  [(clearLayer false ⟨0, 0, false, 0⟩ ⟨0, 0, false, 0⟩ 1, clearPicture), (clearLayer false ⟨4, 0, true, 1⟩ ⟨0, 0, false, 0⟩ 1, clearPicture),
   (clearLayer true ⟨2, 0, true, 1⟩ ⟨2, 0, false, 1⟩ 0, clearPicture)]

theorem clear_inside (data : List UInt8) (p : Nat) (h1 : DecAt decLFDequant data p (p + 1) [1 / 4096, 1 / 512, 1 / 256]) (h2 : DecAt decBool data (p + 1) (p + 2) true)
    (h3 : DecAt decModHeader data (p + 103) (p + 107) ⟨true, defaultWP, []⟩)
    (c1 : (treeCodes 6).bits <+: bitsFrom data (p + 2)) (c2 : codedTreeOut.flatMap (fun o => treeWord o.2) <+: bitsFrom data (p + 44))
    (c3 : (treeCodes 2).bits <+: bitsFrom data (p + 61)) (c4 : [2, 0, 0, 2, 2, 2, 2, 2].flatMap treeWord <+: bitsFrom data (p + 107)) (hl : p + 121 + 15 ≤ 8 * data.length) :
    ∃ es, GlobalAt 8 128 data p (p + 121) [1 / 4096, 1 / 512, 1 / 256] (some (codedTree, es)) ⟨true, defaultWP, []⟩ (imageChannels 2 ⟨2, 2⟩ clearPicture) 0
      (imageChannels 2 ⟨2, 2⟩ clearPicture) := by
  have l6 : (treeCodes 6).bits.length = 42 := by decide +kernel
  have l2 : (treeCodes 2).bits.length = 42 := by decide +kernel
  have lt : (codedTreeOut.flatMap fun o => treeWord o.2).length = 17 := by decide +kernel
  have ln : ([((1 : Int), 2), (1, 0), (1, 0), (1, 2), (1, 2), (1, 2), (1, 2), (1, 2)].flatMap fun o => treeWord o.2).length = 14 := by decide +kernel
  obtain ⟨ds, g1, g2⟩ := codesAt_of data (p + 2) 6 (treeCodes 6) treeCodes_valid6 c1 (by omega)
  have g3 := treeNumbers data (p + 44) 6 ds g2 0 codedTreeOut (by decide) (by decide) (by decide) c2 (by omega)
  obtain ⟨ds', g4, g5⟩ := codesAt_of data (p + 61) 2 (treeCodes 2) treeCodes_valid2 c3 (by omega)
  have g6 := treeNumbers data (p + 107) 2 ds' g5 2 [(1, 2), (1, 0), (1, 0), (1, 2), (1, 2), (1, 2), (1, 2), (1, 2)] (by decide) (by decide) (by decide) c4 (by rw [ln]; omega)
  rw [l6] at g1
  rw [lt] at g3
  rw [l2] at g4
  rw [ln] at g6
  refine ⟨_, p + 1, p + 103, h1, ⟨h2, ⟨_, p + 44, p + 61, codedTreeOut, g1, codedTree_serial, g3, g4⟩, by decide⟩,
    p + 107, p + 107, codedTree, _, [(1, 2), (1, 0), (1, 0), (1, 2), (1, 2), (1, 2), (1, 2), (1, 2)], h3, ⟨rfl, rfl⟩, .nil _ _, ?_, by decide +kernel, g6⟩
  have := imageChannels_shaped 2 ⟨2, 2⟩ clearPicture (by intro c y x _ _; unfold clearPicture; split <;> decide)
  exact fun c hc => this c (List.mem_of_mem_take hc)

theorem clearLayer_sheet (last : Bool) (colour alpha : Blending) (slot : Nat) : Sheet clearHeader (clearLayer last colour alpha slot) clearPicture where
  plain :=
    { framed := ⟨⟨0, by decide, rfl⟩, rfl, (by show ∀ v ∈ [0, 0, 0], v ≤ 1; decide), (by show ∀ v ∈ [0, 0, 0], v ≤ 1; decide), by show 0 < 2 ∧ 2 ≤ _; decide, by show 0 < 2 ∧ 2 ≤ _; decide⟩
      small := by show 2 ≤ 2 ^ 30 ∧ 2 ≤ 2 ^ 30; decide
      modular := rfl
      xyb := rfl
      gray := fun _ => rfl
      integers := ⟨rfl, by decide⟩
      jpegX := rfl
      jpegY := rfl
      filters := ⟨rfl, rfl⟩
      flags := by show Nat.testBit 0 0 = false ∧ Nat.testBit 0 1 = false ∧ Nat.testBit 0 4 = false; decide }
  regular := .inl rfl
  size := by show 2 < 2 ^ 30 ∧ 2 < 2 ^ 30; decide
  unscaled := ⟨rfl, by show ∀ u ∈ [1], u = 1; decide⟩
  rgb := rfl
  noLF := by show Nat.testBit 0 5 = false; decide
  place := .inl ⟨Int.le_refl 0, Int.le_refl 0⟩
  meets := by
    show (0 : Int) ≤ 2 ∧ (0 : Int) ≤ 2 ∧ (0 : Int) ≤ 0 + 2 ∧ (0 : Int) ≤ 0 + 2
    omega
  samples := by
    intro c y x _ _ _
    unfold clearPicture
    split <;> decide
  groups := by show numGroupsOf (modularFrame 2 2 onePass) < 2 ^ 31; decide
  streams := by
    show 18 + 3 * numLFGroupsOf (modularFrame 2 2 onePass) + numGroupsOf (modularFrame 2 2 onePass) * onePass.numPasses < 2 ^ 32
    decide
  passes := by show onePass.Valid (onePass.numPasses - 1); decide

theorem clearLayer_blended (last : Bool) (colour alpha : Blending) (slot : Nat) (hm : colour.mode ≠ 1 ∧ alpha.mode ≠ 1) (ha : colour.alpha = 0 ∧ alpha.alpha = 0) :
    Blended clearHeader (clearLayer last colour alpha slot) clearPicture where
  toSheet := clearLayer_sheet last colour alpha slot
  modes := by
    intro c hc
    have hc : c < 2 := hc
    interval_cases c
    · exact hm.1
    · exact hm.2
  alphas := by
    intro _ c hc _
    have hc : c < 2 := hc
    interval_cases c
    · show colour.alpha < 1
      omega
    · show alpha.alpha < 1
      omega
  order := by
    intro _ c hc _ _
    have hc : c < 2 := hc
    have : clearHeader.colourCount = 1 := rfl
    omega
  saved := fun _ => rfl

theorem clearLayers_frames : FramesAt clearHeader clearLayers 9 clearFrames := by
  obtain ⟨es, h⟩ := clear_inside clearLayers 128 ⟨by decide, by decide +kernel⟩ ⟨by decide, by decide +kernel⟩ ⟨by decide, by decide +kernel⟩ (by decide +kernel)
    (by decide +kernel) (by decide +kernel) (by decide +kernel) (by decide)
  obtain ⟨es1, h1⟩ := clear_inside clearLayers 312 ⟨by decide, by decide +kernel⟩ ⟨by decide, by decide +kernel⟩ ⟨by decide, by decide +kernel⟩ (by decide +kernel)
    (by decide +kernel) (by decide +kernel) (by decide +kernel) (by decide)
  obtain ⟨es', h'⟩ := clear_inside clearLayers 504 ⟨by decide, by decide +kernel⟩ ⟨by decide, by decide +kernel⟩ ⟨by decide, by decide +kernel⟩ (by decide +kernel)
    (by decide +kernel) (by decide +kernel) (by decide +kernel) (by decide)
  refine ⟨32, ⟨106, 124, [16], ⟨by decide, by decide +kernel⟩, ⟨by decide, by decide +kernel⟩, ⟨by decide, by decide +kernel⟩, [1 / 4096, 1 / 512, 1 / 256], some (codedTree, es), ⟨true, defaultWP, []⟩, 0, imageChannels 2 ⟨2, 2⟩ clearPicture, ?_⟩, rfl,
    55, ⟨294, 308, [16], ⟨by decide, by decide +kernel⟩, ⟨by decide, by decide +kernel⟩, ⟨by decide, by decide +kernel⟩, [1 / 4096, 1 / 512, 1 / 256], some (codedTree, es1), ⟨true, defaultWP, []⟩, 0, imageChannels 2 ⟨2, 2⟩ clearPicture, ?_⟩, rfl,
    79, ⟨481, 500, [16], ⟨by decide, by decide +kernel⟩, ⟨by decide, by decide +kernel⟩, ⟨by decide, by decide +kernel⟩, [1 / 4096, 1 / 512, 1 / 256], some (codedTree, es'), ⟨true, defaultWP, []⟩, 0, imageChannels 2 ⟨2, 2⟩ clearPicture, ?_⟩, rfl, trivial⟩
  · rw [if_pos (by decide)]
    exact ⟨_, h, by decide +kernel, rfl⟩
  · rw [if_pos (by decide)]
    exact ⟨_, h1, by decide +kernel, rfl⟩
  · rw [if_pos (by decide)]
    exact ⟨_, h', by decide +kernel, rfl⟩

theorem clearFrames_usable (I : BlendImpl) : Usable I clearHeader clearFrames bare := by
  generalize hf : I.fused = fused
  generalize hl : I.left = left
  refine ⟨fun c hc => ?_, fun _ c y x hc hy hx => ?_, fun c hc => ?_, fun _ c y x hc hy hx => ?_, fun c hc => ?_, fun hx => absurd rfl hx, trivial⟩
  all_goals
    have hc : c < 2 := hc
  · interval_cases c <;> decide
  · have hy : y < 2 := hy
    have hx : x < 2 := hx
    rw [upCanvas_impl I, hf, hl]
    clear hf hl
    revert fused left
    interval_cases c <;> interval_cases y <;> interval_cases x <;> decide +kernel
  · interval_cases c
    · intro _ h
      cases h
    · intro h
      exact absurd h (by decide)
  · have hy : y < 2 := hy
    have hx : x < 2 := hx
    rw [upCanvas_impl I, upCanvas_impl I, hf, hl]
    clear hf hl
    revert fused left
    interval_cases c <;> interval_cases y <;> interval_cases x <;> decide +kernel
  · intro _ h
    interval_cases c <;> cases h

theorem clearLayers_file (I : BlendImpl) : BlendedFile I clearLayers clearHeader none clearFrames where
  stored := ⟨0, 9, 5, none, .inl ⟨rfl, rfl, by decide, by decide⟩, ⟨66, 66, ⟨by decide, by decide +kernel⟩, rfl, rfl, rfl⟩, clearLayers_frames, trivial⟩
  viewable := ⟨rfl, by decide, by decide, by decide⟩
  notXyb := rfl
  some := by simp [clearFrames]
  blends := by
    intro x hx
    rcases List.mem_cons.mp hx with rfl | hx
    · exact clearLayer_blended _ _ _ _ (by decide) (by decide)
    rcases List.mem_cons.mp hx with rfl | hx
    · exact clearLayer_blended _ _ _ _ (by decide) (by decide)
    · rw [List.mem_singleton.mp hx]
      exact clearLayer_blended _ _ _ _ (by decide) (by decide)
  usable := clearFrames_usable I

theorem clearFrames_chained : Chained clearHeader none clearFrames := by
  have hcov : ∀ last colour alpha slot r q, r < clearHeader.size.height → q < clearHeader.size.width → CoversPixel (clearLayer last colour alpha slot) r q := by
    intro last colour alpha slot r q hr hq
    have hr : r < 2 := hr
    have hq : q < 2 := hq
    show (0 : Int) ≤ r ∧ (r : Int) < 0 + 2 ∧ (0 : Int) ≤ q ∧ (q : Int) < 0 + 2
    omega
  exact ⟨fun i hi => (by cases hi), fun i _ => .inl (hcov _ _ _ _), ⟨fun i _ => .inl (hcov _ _ _ _), trivial⟩⟩

/-- The hypotheses of C99 are met by the example with alpha. -/
example (D : DecodeParts) (procs : Int) : ∃ img s', coreDecode D 3 procs none (BR.new clearLayers) = (.ok (some img), s') ∧ Made img img.buffers clearHeader ∧ img.icc = none ∧
    ValuesTurned clearHeader (blended D.impl clearHeader clearFrames) img.buffers :=
  C99_blended_partial D (clearLayers_file D.impl) clearFrames_chained (by decide) procs

/-- The alpha of the picture is that of 3 / 255 over 3 / 255, which is larger; an off-diagonal gray value is 0. -/
theorem clearLayers_picture (fused left : Bool) : F32.lt (unit 8 3) (blended (impl fused left) clearHeader clearFrames 1 0 0) = true ∧
    blended (impl fused left) clearHeader clearFrames 0 0 1 = .fin 0 := by
  revert fused left
  decide +kernel

theorem clearFrames_units (I : BlendImpl) (c y x : Nat) (hc : c < channelCount clearHeader) (hy : y < clearHeader.size.height) (hx : x < clearHeader.size.width) :
    ∃ q : ℚ, heaped I clearHeader clearFrames c y x = .fin q ∧ 0 ≤ q ∧ q ≤ 1 := by
  have hb : (match heaped I clearHeader clearFrames c y x with
      | .fin q => decide (0 ≤ q ∧ q ≤ 1)
      | _ => false) = true := by
    have hc : c < 2 := hc
    have hy : y < 2 := hy
    have hx : x < 2 := hx
    rw [show heaped I clearHeader clearFrames = heaped (impl I.fused I.left) clearHeader clearFrames from rfl]
    generalize I.fused = fused
    generalize I.left = left
    revert fused left
    interval_cases c <;> interval_cases y <;> interval_cases x <;> decide +kernel
  generalize heaped I clearHeader clearFrames c y x = w at hb
  cases w with
  | fin q => exact ⟨q, rfl, of_decide_eq_true hb⟩
  | inf _ => cases hb
  | nan => cases hb

/-- The hypotheses of C99 for the pixels are met by the example with alpha. -/
example (D : DecodeParts) (curve : Nat → F32 → F32) (procs : Int) (peeks : Bool) : ∃ px planes, readerDecode D curve 3 procs ⟨clearLayers, true, peeks⟩ = .ok px ∧
    px.width = 2 ∧ px.height = 2 ∧ px.pix = pixBytes planes px.height px.width ∧ planes.length = shownPlanes clearHeader ∧
    ∀ (c : Nat) (m : List (List Nat)), planes[c]? = some m → BytesShow clearHeader (heaped D.impl clearHeader clearFrames c) m := by
  obtain ⟨px, planes, e, -, e1, e2, e3, e4, e5⟩ := C99_pixels_partial D curve (clearLayers_file D.impl) ⟨⟨rfl, by decide⟩, ⟨rfl, rfl, rfl⟩, .inr ⟨rfl, by decide⟩⟩
    (clearFrames_units D.impl) (show clearFrames.length ≤ 3 by decide) procs peeks
  exact ⟨px, planes, e, e1, e2, e3, e4, e5⟩

end Jxl
