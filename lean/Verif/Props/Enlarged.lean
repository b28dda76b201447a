import Verif.Proofs.Enlarged
import Verif.Props.DecodeWitness

/-! # C104: files with losslessly coded frames that are made larger -/
namespace Jxl
open Spec

/-- The goroutines that make a frame larger do all their steps, in any order. -/
def DecodeParts.Enlarges (D : DecodeParts) (h : ImageHeader) (options : Option Int) (f : FrameHeader) : Prop :=
  ∀ c, c < channelCount h → Interleaving (upWorkers f.size.height f.size.width f.upsampling options) (D.orders f c)

theorem roundGrown_ok (D : DecodeParts) {h : ImageHeader} (hV : Viewable h) (hS : StatedHeader h) (hu : WeightsStated h) {f : FrameHeader} {v : Pic} {w : FloatPic} (hL : GrownLayer h f v)
    {options : Option Int} (hD : D.Enlarges h options f)
    {data : List UInt8} {k k' : Nat} (hF : FrameCodes h data k k' f v) {st : DecodeState} (hlf : st.lf.length = 5) (hc : FloatCanvas h w st.store) {s : BR} {p0 : Nat}
    (hs : AtBit s p0) (hp0 : nextByte p0 = k) (hdata : s.data = data) :
    ∃ st' s' q, decodeRound D h none st s = (.ok (st', f.isLast), s') ∧ st'.lf.length = 5 ∧ FloatCanvas h (putFloatsOn f.moved (enlarged h f v) w) st'.store ∧
      (∃ l, st'.store.slices[st'.store.canvas]? = some l ∧ FloatsShow (channelCount h) h.size (putFloatsOn f.moved (enlarged h f v) w) l) ∧ AtBit s' q ∧ nextByte q = k' ∧ s'.data = data := by
  obtain ⟨hr, l, b, lengths, s1, j, e1, el, hlen, hS', a1, d1⟩ := frameFront_ok hV.width hV.height hL.toCodedSheet hF hlf hs hp0 hdata
  obtain ⟨bufs, s2, q, e2, hb, a2, hq, d2⟩ := frameData_ok (D.frames b) D.impl.toFloatImpl hL.toCodedSheet hr el hlen hS' a1 d1
  have e3 : keepLF f bufs st.lf = .ok st.lf := by
    unfold keepLF
    rw [if_neg (by rw [hr.lfLevel]; omega)]
  obtain ⟨out, e4, hout⟩ := grow_ok hL hV hu hr.ecUpsampling hb options hD
  obtain ⟨s3, l', e5, r3, c3, p3⟩ := composeGrown_ok D.impl (matrix := none) hL.toShownPlace (frameColours_plain hL.plain) ⟨hr.lfLevel, hr.save, hr.blending, hr.ecBlending, hr.ecUpsampling⟩ hV hS.alphas hc (colours_plain hL.rgb _) hout
  refine ⟨⟨s3, st.lf⟩, s2, q, ?_, hlf, ⟨r3, Or.inr ⟨l', c3, p3⟩⟩, ⟨l', c3, p3⟩, a2, hq, d2⟩
  unfold decodeRound
  rw [Rd.bind_ok e1]
  dsimp only
  rw [Rd.bind_ok e2, e3, Rd.bind_ok (lift_ok rfl _), if_neg (by have := hL.regular; omega), e4, Rd.bind_ok (lift_ok rfl _), e5, Rd.bind_ok (lift_ok rfl _)]
  rfl

theorem roundsGrown_ok (D : DecodeParts) {h : ImageHeader} (hV : Viewable h) (hS : StatedHeader h) (hu : WeightsStated h) {options : Option Int} {data : List UInt8} :
    ∀ (frames : List (FrameHeader × Pic)) (fuel k : Nat) (w : FloatPic) (st : DecodeState) (s : BR) (p0 : Nat), frames ≠ [] → frames.length ≤ fuel →
      (∀ x ∈ frames, GrownLayer h x.1 x.2) → (∀ x ∈ frames, D.Enlarges h options x.1) → FramesAt h data k frames → st.lf.length = 5 → FloatCanvas h w st.store → AtBit s p0 →
      nextByte p0 = k → s.data = data →
      ∃ st' s' q, decodeRounds D h none fuel st s = (.ok st', s') ∧
        (∃ l, st'.slices[st'.canvas]? = some l ∧ FloatsShow (channelCount h) h.size (frames.foldl (fun w x => putFloatsOn x.1.moved (enlarged h x.1 x.2) w) w) l) ∧
        AtBit s' q ∧ s'.data = data := by
  intro frames
  induction frames with
  | nil => intro _ _ _ _ _ _ hne; exact absurd rfl hne
  | cons x xs ih =>
    intro fuel k w st s p0 _ hfu hL hD hF hlf hc hs hp hd
    obtain ⟨n, rfl⟩ : ∃ n, fuel = n + 1 := ⟨fuel - 1, by rw [List.length_cons] at hfu; omega⟩
    obtain ⟨k', hF1, hlast, hF2⟩ := hF
    obtain ⟨st1, s1, q, e1, l1, c1, c1', a1, q1, d1⟩ := roundGrown_ok D hV hS hu (hL x List.mem_cons_self) (hD x List.mem_cons_self) hF1 hlf hc hs hp hd
    unfold decodeRounds
    rw [Rd.bind_ok e1]
    cases hx : xs with
    | nil =>
      rw [hlast, hx]
      exact ⟨st1.store, s1, q, rfl, c1', a1, d1⟩
    | cons y ys =>
      rw [hlast, hx]
      dsimp only [List.isEmpty_cons]
      rw [if_neg (by simp)]
      obtain ⟨st2, s2, q2, e2, c2, a2, d2⟩ := ih n k' _ st1 s1 q (by rw [hx]; simp) (by rw [List.length_cons] at hfu; omega)
        (fun z hz => hL z (List.mem_cons_of_mem _ hz)) (fun z hz => hD z (List.mem_cons_of_mem _ hz)) hF2 l1 c1 a1 q1 d1
      rw [hx] at c2
      exact ⟨st2, s2, q2, e2, c2, a2, d2⟩

/-- The decoder on such a file: the image, and how it was made. -/
theorem enlargedFile_ok (D : DecodeParts) {file : List UInt8} {h : ImageHeader} {icc : Option (List Nat)} {frames : List (FrameHeader × Pic)} (hf : GrownFile file h icc frames)
    {options : Option Int} (hD : ∀ x ∈ frames, D.Enlarges h options x.1) {fuel : Nat} (hfu : frames.length ≤ fuel) (procs : Int) :
    StatedHeader h ∧ ∃ img s' enc, coreDecode D fuel procs none (BR.new file) = (.ok (some img), s') ∧ Made img img.buffers h ∧ img.icc = icc ∧ newJXLImage img.buffers h enc = .ok img ∧
      ShowsFloatsTurned (channelCount h) h.orientation h.size (layeredFloats (frames.map fun x => (x.1.moved, enlarged h x.1 x.2))) img.buffers := by
  obtain ⟨⟨k, k', level, profile, h1, h2, h3, h4⟩, hV, hx, hne, hL⟩ := hf
  have hu : WeightsStated h := by
    obtain ⟨p, q, hd, -⟩ := h2
    exact weights_stated (yields_upWeights level _ _ _ hd.2)
  obtain ⟨img, s', e, m, n, t⟩ := file_of_finish D h1 h2 hV hx (framesAt_inside hne h3) (fuel := fuel) (R := fun img => Made img img.buffers h ∧
      newJXLImage img.buffers h (profile.map fun e => e.map UInt8.ofNat) = .ok img ∧
      ShowsFloatsTurned (channelCount h) h.orientation h.size (layeredFloats (frames.map fun x => (x.1.moved, enlarged h x.1 x.2))) img.buffers) (fun hS s1 a1 d1 => by
    have hcv : FloatCanvas h (fun _ _ _ => .fin 0) (newState h).store := ⟨rfl, Or.inl ⟨rfl, rfl⟩⟩
    obtain ⟨st, s2, q, e2, ⟨l, hl, hlw⟩, a2, d2⟩ := roundsGrown_ok D hV hS hu frames fuel k' _ (newState h) s1 (8 * k') hne hfu hL hD h3 rfl hcv a1 (by unfold nextByte; omega) d1
    refine ⟨st, s2, e2, finishFloats_ok hV.width hV.height hS (profile_ok hx ?_) hl ?_ a2⟩
    · rintro e rfl
      cases icc with
      | none => cases h4
      | some p => exact ⟨p, profile_decodes h4⟩
    · unfold layeredFloats
      rw [List.foldl_map]
      exact hlw)
  have hS : StatedHeader h := by
    obtain ⟨p, q, hd, -⟩ := h2
    exact yields_imageHeader level _ _ _ hd.2
  exact ⟨hS, img, s', _, e, m, profile_icc hx h4 n, n, t⟩

/-- C104, what the code does: the image has the fields of the header and the profile, and its channels, in floats, show the layers, made larger, one on top of the other, turned
as the orientation says. This holds for any number of goroutines and any order of their steps. The corner of a frame is at a multiple of where the header puts it. -/
theorem C104_layers (D : DecodeParts) {file : List UInt8} {h : ImageHeader} {icc : Option (List Nat)} {frames : List (FrameHeader × Pic)} (hf : GrownFile file h icc frames)
    {options : Option Int} (hD : ∀ x ∈ frames, D.Enlarges h options x.1) {fuel : Nat} (hfu : frames.length ≤ fuel) (procs : Int) :
    ∃ img s', coreDecode D fuel procs none (BR.new file) = (.ok (some img), s') ∧ Made img img.buffers h ∧ img.icc = icc ∧
      ShowsFloatsTurned (channelCount h) h.orientation h.size (layeredFloats (frames.map fun x => (x.1.moved, enlarged h x.1 x.2))) img.buffers := by
  obtain ⟨-, img, s', -, e, m, i, -, t⟩ := enlargedFile_ok D hf hD hfu procs
  exact ⟨img, s', e, m, i, t⟩

/-- C104, as seen through the package: the bytes of the Go image of such a file with 8-bit samples, with the place where the decoder puts the frames. -/
theorem C104_pixels_partial (D : DecodeParts) (curve : Nat → F32 → F32) {file : List UInt8} {h : ImageHeader} {icc : Option (List Nat)} {frames : List (FrameHeader × Pic)} (hf : GrownFile file h icc frames)
    {options : Option Int} (hD : ∀ x ∈ frames, D.Enlarges h options x.1) {fuel : Nat} (hfu : frames.length ≤ fuel) (procs : Int)
    (h8 : OrdinaryFloats h) (peeks : Bool) :
    ∃ px, readerDecode D curve fuel procs ⟨file, true, peeks⟩ = .ok px ∧
      PixelsShow D.impl.toFloatImpl curve h (layeredFloats (frames.map fun x => (x.1.moved, enlarged h x.1 x.2))) px := by
  obtain ⟨hS, img, s', enc, e, -, -, hn, t⟩ := enlargedFile_ok D hf hD hfu procs
  exact floatPixels_of curve hS e hn t h8 peeks

/-- C104 (partial: the frames start at the upper left corner of the image, and are losslessly coded modular frames which replace what they cover; one codestream box; all
channels have the same factor). The image shows the layers, made larger, one on top of the other. -/
theorem C104_image_partial (D : DecodeParts) {file : List UInt8} {h : ImageHeader} {icc : Option (List Nat)} {frames : List (FrameHeader × Pic)} (hf : GrownFile file h icc frames)
    (h0 : ∀ x ∈ frames, x.1.x0 = 0 ∧ x.1.y0 = 0)
    {options : Option Int} (hD : ∀ x ∈ frames, D.Enlarges h options x.1) {fuel : Nat} (hfu : frames.length ≤ fuel) (procs : Int) :
    ∃ img s', coreDecode D fuel procs none (BR.new file) = (.ok (some img), s') ∧ Made img img.buffers h ∧ img.icc = icc ∧
      ShowsFloatsTurned (channelCount h) h.orientation h.size (layeredFloats (frames.map fun x => (x.1.grown, enlarged h x.1 x.2))) img.buffers := by
  have : (frames.map fun x => (x.1.grown, enlarged h x.1 x.2)) = frames.map fun x => (x.1.moved, enlarged h x.1 x.2) := by
    refine List.map_congr_left (fun x hx => ?_)
    obtain ⟨e1, e2⟩ := h0 x hx
    obtain ⟨f, v⟩ := x
    cases f
    dsimp only at e1 e2
    subst e1 e2
    simp [FrameHeader.moved, FrameHeader.grown]
  rw [this]
  exact C104_layers D hf hD hfu procs

/-! ## Examples -/

/-- A gray image of four by four pixels with orientation 6. -/
def grownHeader : ImageHeader := { smallHeader with size := ⟨4, 4⟩, orientedSize := ⟨4, 4⟩ }

/-- Frames of two by two samples that are made larger by two. -/
def grownLayer (crop : Bool) (x0 : Int) : FrameHeader :=
  { smallLayer crop x0 true with upsampling := 2, width := if crop then 4 else 0, height := if crop then 4 else 0 }

/-- A frame that covers the image. -/
def grownStill : List UInt8 :=
  [255, 10, 24, 16, 11, 4, 197, 45, 1, 136, 0, 1, 0, 60, 0, 75, 10, 9, 18, 8, 88, 10, 72, 82, 72, 144, 64, 192, 137, 0, 0]

/-- A frame one pixel to the right of it. -/
def grownCrop : List UInt8 :=
  [255, 10, 24, 16, 11, 4, 197, 45, 1, 136, 32, 2, 0, 64, 0, 1, 4, 0, 60, 0, 75, 10, 9, 18, 8, 88, 10, 72, 82, 72, 144, 64, 192, 137, 0, 0]

theorem grownLayer_layer (crop : Bool) (x0 : Int) (hx : 0 ≤ x0 ∧ x0 ≤ 2) : GrownLayer grownHeader (grownLayer crop x0) diagonalPicture where
  plain :=
    { framed := ⟨⟨0, by decide, rfl⟩, rfl, (by show ∀ v ∈ [0, 0, 0], v ≤ 1; decide), (by show ∀ v ∈ [0, 0, 0], v ≤ 1; decide), by show 0 < 2 ∧ 2 ≤ _; decide, by show 0 < 2 ∧ 2 ≤ _; decide⟩
      small := by show 2 ≤ 2 ^ 30 ∧ 2 ≤ 2 ^ 30; decide
      modular := rfl
      xyb := rfl
      gray := fun _ => rfl
      integers := ⟨rfl, by intro e he; cases he⟩
      jpegX := rfl
      jpegY := rfl
      filters := ⟨rfl, rfl⟩
      flags := by show Nat.testBit 0 0 = false ∧ Nat.testBit 0 1 = false ∧ Nat.testBit 0 4 = false; decide }
  regular := .inl rfl
  size := by show 2 < 2 ^ 30 ∧ 2 < 2 ^ 30; decide
  scale := by show 2 ∈ [1, 2, 4, 8]; decide
  factor := ⟨by show 2 ∈ [2, 4, 8]; decide, by intro u hu; cases hu⟩
  small := by show 2 ≤ 2 ^ 26 ∧ 2 ≤ 2 ^ 26; decide
  rgb := rfl
  noLF := by show Nat.testBit 0 5 = false; decide
  replace := ⟨rfl, by intro b hb; cases hb⟩
  place := .inl ⟨by show 0 ≤ x0 * 2; omega, by show (0 : Int) ≤ 0 * 2; decide⟩
  meets := by
    show x0 * 2 ≤ 4 ∧ (0 : Int) * 2 ≤ 4 ∧ 0 ≤ x0 * 2 + 4 ∧ (0 : Int) ≤ 0 * 2 + 4
    omega
  samples := by
    intro c y x _ _ _
    unfold diagonalPicture
    split <;> decide
  groups := by show numGroupsOf (modularFrame 2 2 onePass) < 2 ^ 31; decide
  streams := by
    show 18 + 3 * numLFGroupsOf (modularFrame 2 2 onePass) + numGroupsOf (modularFrame 2 2 onePass) * onePass.numPasses < 2 ^ 32
    decide
  passes := by show onePass.Valid (onePass.numPasses - 1); decide

theorem grown_viewable : Viewable grownHeader := ⟨rfl, by decide, by decide, by decide⟩

theorem grownStill_file : GrownFile grownStill grownHeader none [(grownLayer false 0, diagonalPicture)] where
  stored := by
    obtain ⟨es, h⟩ := diagonal_inside grownStill 120 ⟨by decide, by decide +kernel⟩ ⟨by decide, by decide +kernel⟩ ⟨by decide, by decide +kernel⟩ (by decide +kernel)
      (by decide +kernel) (by decide +kernel) (by decide +kernel) (by decide)
    refine ⟨0, 9, 5, none, .inl ⟨rfl, rfl, by decide, by decide⟩, ⟨65, 65, ⟨by decide, by decide +kernel⟩, rfl, rfl, rfl⟩,
      ⟨30, ⟨99, 116, [15], ⟨by decide, by decide +kernel⟩, ⟨by decide, by decide +kernel⟩, ⟨by decide, by decide +kernel⟩, [1 / 4096, 1 / 512, 1 / 256], some (codedTree, es),
        ⟨true, defaultWP, []⟩, 0, imageChannels 1 ⟨2, 2⟩ diagonalPicture, ?_⟩, rfl, trivial⟩, trivial⟩
    rw [if_pos (by decide)]
    exact ⟨_, h, by decide +kernel, rfl⟩
  viewable := grown_viewable
  notXyb := rfl
  some := by simp
  layers := by
    intro x hx
    rw [List.mem_singleton.mp hx]
    exact grownLayer_layer _ _ (by decide)

theorem grownCrop_file : GrownFile grownCrop grownHeader none [(grownLayer true 1, diagonalPicture)] where
  stored := by
    obtain ⟨es, h⟩ := diagonal_inside grownCrop 160 ⟨by decide, by decide +kernel⟩ ⟨by decide, by decide +kernel⟩ ⟨by decide, by decide +kernel⟩ (by decide +kernel)
      (by decide +kernel) (by decide +kernel) (by decide +kernel) (by decide)
    refine ⟨0, 9, 5, none, .inl ⟨rfl, rfl, by decide, by decide⟩, ⟨65, 65, ⟨by decide, by decide +kernel⟩, rfl, rfl, rfl⟩,
      ⟨35, ⟨141, 156, [15], ⟨by decide, by decide +kernel⟩, ⟨by decide, by decide +kernel⟩, ⟨by decide, by decide +kernel⟩, [1 / 4096, 1 / 512, 1 / 256], some (codedTree, es),
        ⟨true, defaultWP, []⟩, 0, imageChannels 1 ⟨2, 2⟩ diagonalPicture, ?_⟩, rfl, trivial⟩, trivial⟩
    rw [if_pos (by decide)]
    exact ⟨_, h, by decide +kernel, rfl⟩
  viewable := grown_viewable
  notXyb := rfl
  some := by simp
  layers := by
    intro x hx
    rw [List.mem_singleton.mp hx]
    exact grownLayer_layer _ _ (by decide)

/-- The hypotheses of `C104_image_partial` are met, for any number of goroutines that run one after the other. -/
example (D : DecodeParts) (options : Option Int) (hD : D.orders = fun f _ => (upWorkers f.size.height f.size.width f.upsampling options).flatten) (procs : Int) :
    ∃ img s', coreDecode D 1 procs none (BR.new grownStill) = (.ok (some img), s') ∧ Made img img.buffers grownHeader ∧ img.icc = none ∧
      ShowsFloatsTurned 1 6 ⟨4, 4⟩ (layeredFloats [((grownLayer false 0).grown, enlarged grownHeader (grownLayer false 0) diagonalPicture)]) img.buffers :=
  C104_image_partial D grownStill_file (fun x hx => by rw [List.mem_singleton.mp hx]; exact ⟨rfl, rfl⟩) (options := options)
    (fun x hx c _ => by rw [hD]; exact Interleaving.sequential _ _ rfl) (by decide) procs

/-- The hypotheses of `C104_pixels_partial` are met. -/
example (D : DecodeParts) (curve : Nat → F32 → F32) (options : Option Int) (hD : D.orders = fun f _ => (upWorkers f.size.height f.size.width f.upsampling options).flatten) (procs : Int) :
    ∃ px, readerDecode D curve 1 procs ⟨grownStill, true, false⟩ = .ok px ∧ px.gray = true ∧ px.width = 4 ∧ px.height = 4 := by
  obtain ⟨px, h1, planes, h2, h3, h4, -⟩ := C104_pixels_partial D curve grownStill_file (options := options)
    (fun x hx c _ => by rw [hD]; exact Interleaving.sequential _ _ rfl) (fuel := 1) (by decide) procs
    ⟨rfl, by unfold Ordinary; decide, .inr (by decide), .inl rfl⟩ false
  exact ⟨px, h1, h2, h3, h4⟩

/-- The upper left value of the enlarged picture is not zero. -/
theorem grown_corner : enlarged grownHeader (grownLayer true 1) diagonalPicture 0 0 0 ≠ .fin 0 := by decide +kernel

/-- C104 fails if a frame is put elsewhere: the code multiplies the coordinates of the corner by the factor, and the frame of this file, whose corner is at column 1, starts at
column 2. -/
theorem C104_corner_fails : ∃ (file : List UInt8) (h : ImageHeader) (frames : List (FrameHeader × Pic)), GrownFile file h none frames ∧
    ∀ (D : DecodeParts) (options : Option Int) (procs : Int) (fuel : Nat), (∀ x ∈ frames, D.Enlarges h options x.1) → frames.length ≤ fuel →
      ∃ img s', coreDecode D fuel procs none (BR.new file) = (.ok (some img), s') ∧
        ¬ ShowsFloatsTurned (channelCount h) h.orientation h.size (layeredFloats (frames.map fun x => (x.1.grown, enlarged h x.1 x.2))) img.buffers := by
  refine ⟨grownCrop, grownHeader, _, grownCrop_file, fun D options procs fuel hD hfu => ?_⟩
  obtain ⟨img, s', e, -, -, t⟩ := C104_layers D grownCrop_file hD hfu procs
  refine ⟨img, s', e, fun t' => ?_⟩
  obtain ⟨rs, cs, h1, -, h3⟩ := t
  obtain ⟨rs', cs', h1', -, h3'⟩ := t'
  rw [h1] at h1'
  obtain ⟨rfl, rfl⟩ := Prod.mk.inj (Option.some.inj h1')
  obtain ⟨b, e1, -, p⟩ := h3 0 (by decide)
  obtain ⟨b', e1', -, p'⟩ := h3' 0 (by decide)
  rw [e1] at e1'
  cases e1'
  have q := p 0 1 (by decide) (by decide)
  rw [p' 0 1 (by decide) (by decide)] at q
  exact grown_corner (Option.some.inj q)

end Jxl
