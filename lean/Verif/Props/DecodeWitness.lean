import Verif.Props.Decode

/-!
# C85: an example of a file with two layers
-/
namespace Jxl
open Spec

/-- A gray image of two by two pixels with orientation 6. -/
def smallHeader : ImageHeader :=
  ⟨⟨2, 2⟩, 6, ⟨2, 2⟩, none, none, ⟨8, 0, false⟩, true, [], [], false, ⟨false, 1, 1, [], 1, [], 2 ^ 24 + 13, 1⟩, ⟨255, 0, 0, false⟩, ⟨List.replicate 64 [], 0⟩, none, none, none, none⟩

/-- Frames of two by two pixels. -/
def smallLayer (crop : Bool) (x0 : Int) (last : Bool) : FrameHeader :=
  { modularFrame 2 2 onePass with ecUpsampling := [], haveCrop := crop, x0 := x0, y0 := 0, width := if crop then 2 else 0, height := if crop then 2 else 0, isLast := last }

/-- The bare codestream: the header, a frame that covers the image, a frame one pixel to the right of it; both code `diagonalPicture`. -/
def twoLayers : List UInt8 :=
  [255, 10, 8, 16, 11, 4, 197, 45, 1, 8, 0, 0, 0, 60, 0, 75, 10, 9, 18, 8, 88, 10, 72, 82, 72, 144, 64, 192, 137, 0,
   8, 32, 2, 0, 32, 128, 0, 4, 0, 60, 0, 75, 10, 9, 18, 8, 88, 10, 72, 82, 72, 144, 64, 192, 137, 0, 0]

/-- A container: the header and a last frame that covers the image. -/
def oneLayer : List UInt8 :=
  container [⟨kindC, [255, 10, 8, 16, 11, 4, 197, 45, 1, 8, 0, 1, 0, 60, 0, 75, 10, 9, 18, 8, 88, 10, 72, 82, 72, 144, 64, 192, 137, 0, 0]⟩]

theorem smallLayer_layer (crop : Bool) (x0 : Int) (hx : 0 ≤ x0 ∧ x0 ≤ 2) (last : Bool) : Layer smallHeader (smallLayer crop x0 last) diagonalPicture where
  plain :=
    { framed := ⟨⟨0, by decide, rfl⟩, rfl, (by show ∀ v ∈ [0, 0, 0], v ≤ 1; decide), (by show ∀ v ∈ [0, 0, 0], v ≤ 1; decide), by show 0 < 2 ∧ 2 ≤ _; decide, by show 0 < 2 ∧ 2 ≤ _; decide⟩
      small := by show 2 ≤ 2 ^ 30 ∧ 2 ≤ 2 ^ 30; decide
      modular := rfl
      xyb := rfl
      gray := fun _ => rfl
      integers := ⟨rfl, by intro e he; cases he⟩
      jpegX := rfl
      jpegY := rfl
      filters := ⟨rfl, rfl⟩
      flags := by show Nat.testBit 0 0 = false ∧ Nat.testBit 0 1 = false ∧ Nat.testBit 0 4 = false; decide }
  regular := .inl rfl
  size := by show 2 < 2 ^ 30 ∧ 2 < 2 ^ 30; decide
  unscaled := ⟨rfl, by intro u hu; cases hu⟩
  rgb := rfl
  noLF := by show Nat.testBit 0 5 = false; decide
  replace := ⟨rfl, by intro b hb; cases hb⟩
  place := .inl ⟨hx.1, Int.le_refl 0⟩
  meets := by
    show x0 ≤ 2 ∧ (0 : Int) ≤ 2 ∧ 0 ≤ x0 + 2 ∧ (0 : Int) ≤ 0 + 2
    omega
  samples := by
    intro c y x _ _ _
    unfold diagonalPicture
    split <;> decide
  groups := by show numGroupsOf (modularFrame 2 2 onePass) < 2 ^ 31; decide
  streams := by
    show 18 + 3 * numLFGroupsOf (modularFrame 2 2 onePass) + numGroupsOf (modularFrame 2 2 onePass) * onePass.numPasses < 2 ^ 32
    decide
  passes := by show onePass.Valid (onePass.numPasses - 1); decide

theorem diagonal_inside (data : List UInt8) (p : Nat)  (h1 : DecAt decLFDequant data p (p + 1) [1 / 4096, 1 / 512, 1 / 256]) (h2 : DecAt decBool data (p + 1) (p + 2) true) (h3 : DecAt decModHeader data (p + 103) (p + 107) ⟨true, defaultWP, []⟩)
    (c1 : (treeCodes 6).bits <+: bitsFrom data (p + 2)) (c2 : codedTreeOut.flatMap (fun o => treeWord o.2) <+: bitsFrom data (p + 44))
    (c3 : (treeCodes 2).bits <+: bitsFrom data (p + 61)) (c4 : [2, 0, 0, 2].flatMap treeWord <+: bitsFrom data (p + 107)) (hl : p + 113 + 15 ≤ 8 * data.length) :
    ∃ es, GlobalAt 8 128 data p (p + 113) [1 / 4096, 1 / 512, 1 / 256] (some (codedTree, es)) ⟨true, defaultWP, []⟩ (imageChannels 1 ⟨2, 2⟩ diagonalPicture) 0
      (imageChannels 1 ⟨2, 2⟩ diagonalPicture) := by
  have l6 : (treeCodes 6).bits.length = 42 := by decide +kernel
  have l2 : (treeCodes 2).bits.length = 42 := by decide +kernel
  have lt : (codedTreeOut.flatMap fun o => treeWord o.2).length = 17 := by decide +kernel
  have ln : ([((1 : Int), 2), (1, 0), (1, 0), (1, 2)].flatMap fun o => treeWord o.2).length = 6 := by decide +kernel
  obtain ⟨ds, g1, g2⟩ := codesAt_of data (p + 2) 6 (treeCodes 6) treeCodes_valid6 c1 (by omega)
  have g3 := treeNumbers data (p + 44) 6 ds g2 0 codedTreeOut (by decide) (by decide) (by decide) c2 (by omega)
  obtain ⟨ds', g4, g5⟩ := codesAt_of data (p + 61) 2 (treeCodes 2) treeCodes_valid2 c3 (by omega)
  have g6 := treeNumbers data (p + 107) 2 ds' g5 2 [(1, 2), (1, 0), (1, 0), (1, 2)] (by decide) (by decide) (by decide) c4 (by rw [ln]; omega)
  rw [l6] at g1
  rw [lt] at g3
  rw [l2] at g4
  rw [ln] at g6
  refine ⟨_, p + 1, p + 103, h1, ⟨h2, ⟨_, p + 44, p + 61, codedTreeOut, g1, codedTree_serial, g3, g4⟩, by decide⟩,
    p + 107, p + 107, codedTree, _, [(1, 2), (1, 0), (1, 0), (1, 2)], h3, ⟨rfl, rfl⟩, .nil _ _, ?_, by decide +kernel, g6⟩
  have := imageChannels_shaped 1 ⟨2, 2⟩ diagonalPicture (by intro c y x _ _; unfold diagonalPicture; split <;> decide)
  exact fun c hc => this c (List.mem_of_mem_take hc)

theorem twoLayers_header : ImageHeaderAt 5 twoLayers 0 9 smallHeader none :=
  ⟨65, 65, ⟨by decide, by decide +kernel⟩, rfl, rfl, rfl⟩

theorem twoLayers_frames : FramesAt smallHeader twoLayers 9 [(smallLayer false 0 false, diagonalPicture), (smallLayer true 1 true, diagonalPicture)] := by
  obtain ⟨es, h⟩ := diagonal_inside twoLayers 120 ⟨by decide, by decide +kernel⟩ ⟨by decide, by decide +kernel⟩ ⟨by decide, by decide +kernel⟩ (by decide +kernel)
    (by decide +kernel) (by decide +kernel) (by decide +kernel) (by decide)
  obtain ⟨es', h'⟩ := diagonal_inside twoLayers 328 ⟨by decide, by decide +kernel⟩ ⟨by decide, by decide +kernel⟩ ⟨by decide, by decide +kernel⟩ (by decide +kernel)
    (by decide +kernel) (by decide +kernel) (by decide +kernel) (by decide)
  refine ⟨30, ⟨102, 116, [15], ⟨by decide, by decide +kernel⟩, ⟨by decide, by decide +kernel⟩, ⟨by decide, by decide +kernel⟩, [1 / 4096, 1 / 512, 1 / 256], some (codedTree, es), ⟨true, defaultWP, []⟩, 0, imageChannels 1 ⟨2, 2⟩ diagonalPicture, ?_⟩, rfl,
    56, ⟨309, 324, [15], ⟨by decide, by decide +kernel⟩, ⟨by decide, by decide +kernel⟩, ⟨by decide, by decide +kernel⟩, [1 / 4096, 1 / 512, 1 / 256], some (codedTree, es'), ⟨true, defaultWP, []⟩, 0, imageChannels 1 ⟨2, 2⟩ diagonalPicture, ?_⟩, rfl, trivial⟩
  · rw [if_pos (by decide)]
    exact ⟨_, h, by decide +kernel, rfl⟩
  · rw [if_pos (by decide)]
    exact ⟨_, h', by decide +kernel, rfl⟩

theorem small_viewable : Viewable smallHeader := ⟨rfl, by decide, by decide, by decide⟩

/-- The picture: the left column of the first layer, then that of the second. -/
theorem twoLayers_picture : [(0, 0), (0, 1), (1, 0), (1, 1)].map (fun p : Nat × Nat => layered [(smallLayer false 0 false, diagonalPicture), (smallLayer true 1 true, diagonalPicture)] 0 p.1 p.2) =
    [3, 3, 0, 0] := by decide +kernel

/-- The hypotheses of C85 are met by the example, … -/
theorem twoLayers_lossless : LosslessFile twoLayers smallHeader none [(smallLayer false 0 false, diagonalPicture), (smallLayer true 1 true, diagonalPicture)] where
  stored := ⟨0, 9, 5, none, .inl ⟨rfl, rfl, by decide, by decide⟩, twoLayers_header, twoLayers_frames, trivial⟩
  viewable := small_viewable
  notXyb := rfl
  some := by simp
  layers := by
    intro x hx
    rcases List.mem_cons.mp hx with rfl | hx
    · exact smallLayer_layer _ _ (by decide) _
    · rw [List.mem_singleton.mp hx]
      exact smallLayer_layer _ _ (by decide) _

example (D : DecodeParts) (procs : Int) : ∃ img s', coreDecode D 2 procs none (BR.new twoLayers) = (.ok (some img), s') ∧ Made img img.buffers smallHeader ∧ img.icc = none ∧
    ShowsTurned 1 6 ⟨2, 2⟩ (layered [(smallLayer false 0 false, diagonalPicture), (smallLayer true 1 true, diagonalPicture)]) img.buffers :=
  C85_layers_partial D twoLayers_lossless (by decide) procs

theorem small_ordinary : Ordinary8 smallHeader := ⟨⟨rfl, by decide⟩, ⟨rfl, rfl, rfl⟩, .inl rfl⟩

theorem small_range (c y x : Nat) (hc : c < channelCount smallHeader) (hy : y < smallHeader.size.height) (hx : x < smallHeader.size.width) :
    0 ≤ layered [(smallLayer false 0 false, diagonalPicture), (smallLayer true 1 true, diagonalPicture)] c y x ∧
      layered [(smallLayer false 0 false, diagonalPicture), (smallLayer true 1 true, diagonalPicture)] c y x < 256 := by
  have hc' : c < 1 := hc
  have hy' : y < 2 := hy
  have hx' : x < 2 := hx
  interval_cases c
  interval_cases y <;> interval_cases x <;> decide +kernel

/-- … also those of the theorem about pixels, and those of C86 for an orientation that exchanges the sides; … -/
example (D : DecodeParts) (curve : Nat → F32 → F32) (procs : Int) : ∃ px c, readerDecode D curve 2 procs ⟨twoLayers, true, false⟩ = .ok px ∧
    readerConfig ⟨twoLayers, true, false⟩ = .ok c ∧ c.width = px.height ∧ c.height = px.width :=
  C86_size_violated D curve twoLayers_lossless small_ordinary small_range (by decide) (by decide) procs false

theorem oneLayer_lossless : LosslessFile oneLayer smallHeader none [(smallLayer false 0 true, diagonalPicture)] where
  stored := by
    obtain ⟨es, h⟩ := diagonal_inside oneLayer 280 ⟨by decide, by decide +kernel⟩ ⟨by decide, by decide +kernel⟩ ⟨by decide, by decide +kernel⟩ (by decide +kernel)
      (by decide +kernel) (by decide +kernel) (by decide +kernel) (by decide)
    refine ⟨20, 29, 5, none, .inr ⟨[], [], _, by decide, by decide, rfl, rfl, rfl⟩, ⟨225, 225, ⟨by decide, by decide +kernel⟩, rfl, rfl, rfl⟩,
      ⟨50, ⟨259, 276, [15], ⟨by decide, by decide +kernel⟩, ⟨by decide, by decide +kernel⟩, ⟨by decide, by decide +kernel⟩, [1 / 4096, 1 / 512, 1 / 256], some (codedTree, es),
        ⟨true, defaultWP, []⟩, 0, imageChannels 1 ⟨2, 2⟩ diagonalPicture, ?_⟩, rfl, trivial⟩, trivial⟩
    rw [if_pos (by decide)]
    exact ⟨_, h, by decide +kernel, rfl⟩
  viewable := small_viewable
  notXyb := rfl
  some := by simp
  layers := by
    intro x hx
    rw [List.mem_singleton.mp hx]
    exact smallLayer_layer _ _ (by decide) _

/-- … and those of the theorem about still images, by a container. -/
example (D : DecodeParts) (procs : Int) : ∃ img s', coreDecode D 1 procs none (BR.new oneLayer) = (.ok (some img), s') ∧ Made img img.buffers smallHeader ∧ img.icc = none ∧
    ShowsTurned 1 6 ⟨2, 2⟩ diagonalPicture img.buffers :=
  C85_still_partial D oneLayer_lossless ⟨rfl, rfl⟩ rfl (by decide) procs

/-- `DecodeConfig` of the container. -/
example : readerConfig ⟨oneLayer, true, true⟩ = .ok ⟨.gray, 2, 2⟩ := by
  obtain ⟨k, k', level, profile, h1, h2, -⟩ := oneLayer_lossless.stored
  exact C86_config_partial h1 h2 true

/-- The bytes of the header only, and those of the signature (a bare codestream has 12 bytes at least). -/
def headerOnly : List UInt8 := container [⟨kindC, [255, 10, 8, 16, 11, 4, 197, 45, 1]⟩]

/-- The hypotheses of `C88_no_frames_panics` are met. -/
example (D : DecodeParts) (curve : Nat → F32 → F32) (fuel : Nat) (procs : Int) : readerDecode D curve fuel procs ⟨headerOnly, true, true⟩ = .panic :=
  C88_no_frames_panics D curve (k := 20) (level := 5) (.inr ⟨[], [], _, by decide, by decide, rfl, rfl, rfl⟩) (h := smallHeader) (profile := none)
    ⟨225, 225, ⟨by decide, by decide +kernel⟩, by decide, rfl, rfl⟩ rfl rfl fuel procs true

end Jxl
