import Verif.Proofs.DecodeFile
import Verif.Props.ToImage
import Verif.Props.ModularWitness

/-!
# C85 to C89: decoding of files
-/
namespace Jxl
open Spec

/-! ## C85: a file with losslessly coded layers decodes to the picture that it codes -/

theorem profile_decodes {e icc : List Nat} (h : EncodesProfile e icc) : getDecodedICC (e.map UInt8.ofNat) = .ok icc := by
  rcases h with ⟨p, size, h1, h2, h3, h4, h5, rfl, rfl⟩ | ⟨es, h1, h2, h3, rfl, rfl⟩
  · exact C57_profile_partial p size h1 h2 h3 h4 h5
  · exact C57_short_partial es h1 h2 h3

theorem newJXLImage_icc {buffers : List ImageBuffer} {h : ImageHeader} {enc : Option (List UInt8)} {img : JXLImage} (hn : newJXLImage buffers h enc = .ok img) :
    ∃ p, imageProfile h enc = .ok p ∧ img.icc = p.2 := by
  have key : ∃ alpha, (do
      let p ← imageProfile h enc
      let pre ← imagePremultiplied h alpha
      let ds ← channelDepths h (if h.colour.space = 1 then 1 else 3) 0 buffers.length
      Res.ok (⟨buffers, p.2, ds, h.colour.primXY, h.colour.whiteXY, h, h.orientedSize.width, h.orientedSize.height, h.colour.space, alpha, h.colour.primaries,
        h.colour.whitePoint, p.1, h.colour.tf, pre⟩ : JXLImage)) = .ok img := by
    unfold newJXLImage at hn
    dsimp only at hn
    split at hn
    · obtain ⟨alpha, -, hn⟩ := Res.of_bind hn
      exact ⟨alpha, hn⟩
    · exact ⟨-1, hn⟩
  obtain ⟨alpha, hn⟩ := key
  obtain ⟨p, hp, hn⟩ := Res.of_bind hn
  obtain ⟨pre, -, hn⟩ := Res.of_bind hn
  obtain ⟨ds, -, hn⟩ := Res.of_bind hn
  cases hn
  exact ⟨p, hp, rfl⟩

theorem profile_icc {buffers : List ImageBuffer} {h : ImageHeader} {profile icc : Option (List Nat)} {img : JXLImage} (hx : h.xyb = false)
    (h4 : match profile, icc with
      | none, none => True
      | some e, some p => EncodesProfile e p
      | _, _ => False)
    (n : newJXLImage buffers h (profile.map fun e => e.map UInt8.ofNat) = .ok img) : img.icc = icc := by
  obtain ⟨pr, hpr, hicc⟩ := newJXLImage_icc n
  rw [hicc]
  unfold imageProfile at hpr
  rw [hx] at hpr
  cases profile with
  | none =>
    cases icc with
    | none => cases hpr; rfl
    | some p => cases h4
  | some e =>
    cases icc with
    | none => cases h4
    | some p =>
      obtain ⟨p', hp', hpr⟩ := Res.of_bind (show (do let p ← getDecodedICC (e.map UInt8.ofNat); Res.ok (h.colour.tf, some p)) = .ok pr from hpr)
      rw [profile_decodes h4] at hp'
      cases hp'
      cases hpr
      rfl

theorem lossless_ok (D : DecodeParts) {file : List UInt8} {h : ImageHeader} {icc : Option (List Nat)} {frames : List (FrameHeader × Pic)} (hf : LosslessFile file h icc frames) {fuel : Nat}
    (hfu : frames.length ≤ fuel) :
    StatedHeader h ∧ ∃ img s' enc, decodeFile D false fuel (BR.new file) = (.ok (some img), s') ∧ Made img img.buffers h ∧ newJXLImage img.buffers h enc = .ok img ∧ img.icc = icc ∧
      ShowsTurned (channelCount h) h.orientation h.size (layered frames) img.buffers := by
  obtain ⟨⟨k, k', level, profile, h1, h2, h3, h4⟩, hV, hx, hne, hL⟩ := hf
  obtain ⟨img, s', e, m, n, t⟩ := file_ok D h1 h2 hV hx (by
    rintro e rfl
    cases icc with
    | none => cases h4
    | some p => exact ⟨p, profile_decodes h4⟩) hne hL h3 hfu
  refine ⟨?_, img, s', _, e, m, n, profile_icc hx h4 n, t⟩
  obtain ⟨p, q, hd, -⟩ := h2
  exact yields_imageHeader level _ _ _ hd.2

/-- C85 (partial: layers as in `Layer`, that is losslessly coded modular frames which replace what they cover; one codestream box). Whatever the parts of the decoder
compute that such frames do not use, and whatever the number of processors: the image has the fields of the header and the profile, and its channels show the layers one on
top of the other, turned as the orientation says. -/
theorem C85_layers_partial (D : DecodeParts) {file : List UInt8} {h : ImageHeader} {icc : Option (List Nat)} {frames : List (FrameHeader × Pic)} (hf : LosslessFile file h icc frames)
    {fuel : Nat} (hfu : frames.length ≤ fuel) (procs : Int) :
    ∃ img s', coreDecode D fuel procs none (BR.new file) = (.ok (some img), s') ∧ Made img img.buffers h ∧ img.icc = icc ∧
      ShowsTurned (channelCount h) h.orientation h.size (layered frames) img.buffers := by
  obtain ⟨-, img, s', enc, e, m, -, i, t⟩ := lossless_ok D hf hfu
  exact ⟨img, s', e, m, i, t⟩

theorem layered_single {f : FrameHeader} {v : Pic} {h : ImageHeader} (h0 : f.x0 = 0 ∧ f.y0 = 0) (hs : f.size = h.size) (c y x : Nat) (hy : y < h.size.height)
    (hx : x < h.size.width) : layered [(f, v)] c y x = v c y x := by
  show putOn f v (fun _ _ _ => 0) c y x = _
  unfold putOn
  rw [h0.1, h0.2, hs, if_pos (by omega), Int.sub_zero, Int.sub_zero, Int.toNat_natCast, Int.toNat_natCast]

theorem ShowsTurned.congr {n o : Nat} {size : Dim} {v w : Pic} {bufs : List ImageBuffer} (h : ShowsTurned n o size v bufs)
    (e : ∀ c y x, y < size.height → x < size.width → v c y x = w c y x) : ShowsTurned n o size w bufs := by
  obtain ⟨rs, cs, h1, h2, h3⟩ := h
  refine ⟨rs, cs, h1, h2, fun c hc => ?_⟩
  obtain ⟨b, e1, e2, e3⟩ := h3 c hc
  exact ⟨b, e1, e2, fun y x hy hx => by rw [e3 y x hy hx, e c y x hy hx]⟩

/-- C85 for still images: a file with one frame that covers exactly the image decodes to the coded picture. -/
theorem C85_still_partial (D : DecodeParts) {file : List UInt8} {h : ImageHeader} {icc : Option (List Nat)} {f : FrameHeader} {v : Pic} (hf : LosslessFile file h icc [(f, v)])
    (h0 : f.x0 = 0 ∧ f.y0 = 0) (hs : f.size = h.size) {fuel : Nat} (hfu : 0 < fuel) (procs : Int) :
    ∃ img s', coreDecode D fuel procs none (BR.new file) = (.ok (some img), s') ∧ Made img img.buffers h ∧ img.icc = icc ∧
      ShowsTurned (channelCount h) h.orientation h.size v img.buffers := by
  obtain ⟨img, s', e, m, i, t⟩ := C85_layers_partial D hf (show 1 ≤ fuel from hfu) procs
  exact ⟨img, s', e, m, i, t.congr (fun c y x hy hx => layered_single h0 hs c y x hy hx)⟩

theorem shownSize_oriented {o : Nat} {rs cs : Side} (h : exif o = some (rs, cs)) (size : Dim) :
    shownSize rs size.height size.width = ((orientedSize o size).height, (orientedSize o size).width) := by
  unfold exif at h
  split at h <;> cases h <;> rfl

/-- The pixels of the Go image, if the channels of the image show `w`. -/
theorem pixels_of (D : DecodeParts) (curve : Nat → F32 → F32) {file : List UInt8} {h : ImageHeader} {icc : Option (List Nat)} {w : Pic} {fuel : Nat} {img : JXLImage} {s' : BR}
    {enc : Option (List UInt8)} (hV : Viewable h) (hx : h.xyb = false) (hS : StatedHeader h) (e : decodeFile D false fuel (BR.new file) = (.ok (some img), s'))
    (hn : newJXLImage img.buffers h enc = .ok img) (hicc : img.icc = icc) (ht : ShowsTurned (channelCount h) h.orientation h.size w img.buffers) (h8 : Ordinary8 h)
    (hr : ∀ c y x, c < channelCount h → y < h.size.height → x < h.size.width → 0 ≤ w c y x ∧ w c y x < 256) (procs : Int) (peeks : Bool) :
    ∃ px planes, readerDecode D curve fuel procs ⟨file, true, peeks⟩ = .ok px ∧ px.gray = decide (h.colour.space = 1) ∧ px.width = (orientedSize h.orientation h.size).width ∧
      px.height = (orientedSize h.orientation h.size).height ∧ px.pix = pixBytes planes px.height px.width ∧ planes.length = shownPlanes h ∧
      ∀ (c : Nat) (m : List (List Nat)), planes[c]? = some m → PlaneShows h (w c) m := by
  obtain ⟨rs, cs, hex, hlen, hb⟩ := ht
  have hsz := shownSize_oriented hex h.size
  have hpath : ColourPath curve img h id := by
    cases icc with
    | none => exact .srgb hicc hx h8.colours.1 h8.colours.2.1 h8.colours.2.2
    | some p => exact .profile p hicc
  have hcc : channelCount h = h.colourCount + h.extra.length := rfl
  have hint : ∀ (c : Nat) (b : ImageBuffer), img.buffers[c]? = some b → c < channelCount h ∧ b.IntPicture (orientedSize h.orientation h.size).height (orientedSize h.orientation h.size).width ∧
      ∀ y x, y < h.size.height → x < h.size.width → sample b.ints (shown rs cs h.size.height h.size.width y x).1 (shown rs cs h.size.height h.size.width y x).2 = some (w c y x) := by
    intro c b hcb
    have hlt : c < channelCount h := by rw [← hlen]; exact (List.getElem?_eq_some_iff.mp hcb).1
    obtain ⟨b', e1, e2, e3⟩ := hb c hlt
    rw [hcb] at e1
    cases e1
    rw [hsz] at e2
    exact ⟨hlt, e2, e3⟩
  have hord : Ordinary h.colour := by
    refine ⟨?_, ?_, ?_, .inl h8.colours.2.1⟩ <;> rw [h8.colours.1] <;> decide
  obtain ⟨px, img', planes, e1, e2, e3, e4, e5, e6, e7⟩ := C61_to_image_partial D.impl.toFloatImpl curve h _ img.buffers img (orientedSize h.orientation h.size).height
    (orientedSize h.orientation h.size).width id hn (by rw [hlen, hcc]) (by rw [hS.oriented])
    (fun b hb => by
      obtain ⟨c, hc, eb⟩ := List.mem_iff_getElem.mp hb
      exact .inl (hint c b (by rw [List.getElem?_eq_getElem hc, eb])).2.1)
    (fun c b hcb _ => hV.depths c (hint c b hcb).1) hord hpath (by rw [hS.alphas]; exact h8.alpha)
  refine ⟨px, planes, ?_, e2, e3, e4, by rw [e3, e4]; exact e5, e6, fun c m hcm => ⟨rs, cs, hex, fun y x hy hx' => ?_⟩⟩
  · unfold readerDecode pkgDecode coreDecode
    rw [if_pos rfl]
    rw [Rd.bind_ok (show decodeFile D (newOptions procs (some (newOptions procs none))).parseOnly fuel (BR.new file) = _ from e)]
    dsimp only
    rw [e1]
    rfl
  · obtain ⟨ht, b, hcb, hsh⟩ := e7 c m hcm
    obtain ⟨hlt, hpic, hsam⟩ := hint c b hcb
    have hsv := hsam y x hy hx'
    obtain ⟨o, ho⟩ : ∃ o, sample m (shown rs cs h.size.height h.size.width y x).1 (shown rs cs h.size.height h.size.width y x).2 = some o := by
      have hin := hpic.2.2.2.sample_lt hsv
      exact ht.sample hin.1 hin.2
    refine ⟨o, ho, ?_⟩
    have := (hsh _ _ o ho).2.1 hpic.1 _ hsv (hr c y x hlt hy hx').1 (by rw [h8.bits.2 c hlt]; exact (hr c y x hlt hy hx').2)
    exact this.1 (by rw [h8.bits.2 c hlt]; unfold outDepth; rw [h8.bits.1]; rfl)

/-- C85, as seen through the package: the Go image of a file with 8-bit samples has the displayed size, and the bytes of its planes (gray; or red, green, blue and, if there
is an alpha channel, alpha) are the samples of the layers. -/
theorem C85_pixels_partial (D : DecodeParts) (curve : Nat → F32 → F32) {file : List UInt8} {h : ImageHeader} {icc : Option (List Nat)} {frames : List (FrameHeader × Pic)}
    (hf : LosslessFile file h icc frames) (h8 : Ordinary8 h)
    (hr : ∀ c y x, c < channelCount h → y < h.size.height → x < h.size.width → 0 ≤ layered frames c y x ∧ layered frames c y x < 256) {fuel : Nat} (hfu : frames.length ≤ fuel)
    (procs : Int) (peeks : Bool) :
    ∃ px planes, readerDecode D curve fuel procs ⟨file, true, peeks⟩ = .ok px ∧ px.gray = decide (h.colour.space = 1) ∧ px.width = (orientedSize h.orientation h.size).width ∧
      px.height = (orientedSize h.orientation h.size).height ∧ px.pix = pixBytes planes px.height px.width ∧ planes.length = shownPlanes h ∧
      ∀ (c : Nat) (m : List (List Nat)), planes[c]? = some m → PlaneShows h (layered frames c) m := by
  obtain ⟨hS, img, s', enc, e, hm, hn, hicc, ht⟩ := lossless_ok D hf hfu
  exact pixels_of D curve hf.viewable hf.notXyb hS e hn hicc ht h8 hr procs peeks

/-! ## C86: the configuration of a file -/

/-- C86 (partial: files with one codestream box). `DecodeConfig` returns the size and the colour model of the image header of every file. -/
theorem C86_config_partial {file : List UInt8} {k k' level : Nat} (hf : CodestreamIn file k level) {h : ImageHeader} {profile : Option (List Nat)}
    (hh : ImageHeaderAt level file k k' h profile) (peeks : Bool) :
    readerConfig ⟨file, true, peeks⟩ = .ok ⟨configModel h.colour.space, h.size.width, h.size.height⟩ := by
  obtain ⟨s0, box, e0, hbox, d0, i0, hlev⟩ := boxes_ok hf
  have hk : k < file.length := by
    obtain ⟨p, q, hd, -⟩ := hh
    exact imageHeader_inside hd.2
  obtain ⟨s1, e1, a1, d1⟩ := headerAt_ok hlev hh hk i0 d0
  unfold readerConfig pkgDecodeConfig getHeader
  rw [if_pos rfl]
  have : (do
      let b ← readBoxHeader
      if b.1.length > 1 then Rd.fail
      else do
        let box ← Rd.lift (idx b.1 0)
        headerAt box.offset b.2) (BR.new file) = (.ok (some (h, profile.map fun e => e.map UInt8.ofNat)), s1) := by
    rw [Rd.bind_ok e0]
    dsimp only
    rw [if_neg (by simp), show idx [box] 0 = .ok box from rfl, Rd.bind_ok (lift_ok rfl _), hbox, e1]
  rw [Rd.bind_ok this]
  rfl

/-- C86 (partial: the files of C85). If the orientation does not exchange the sides, `DecodeConfig` returns the size of the image that `Decode` returns. -/
theorem C86_size_partial (D : DecodeParts) (curve : Nat → F32 → F32) {file : List UInt8} {h : ImageHeader} {icc : Option (List Nat)} {frames : List (FrameHeader × Pic)}
    (hf : LosslessFile file h icc frames) (h8 : Ordinary8 h)
    (hr : ∀ c y x, c < channelCount h → y < h.size.height → x < h.size.width → 0 ≤ layered frames c y x ∧ layered frames c y x < 256) (ho : h.orientation ≤ 4) {fuel : Nat}
    (hfu : frames.length ≤ fuel) (procs : Int) (peeks : Bool) :
    ∃ px c, readerDecode D curve fuel procs ⟨file, true, peeks⟩ = .ok px ∧ readerConfig ⟨file, true, peeks⟩ = .ok c ∧ c.width = px.width ∧ c.height = px.height := by
  obtain ⟨px, planes, e, -, e1, e2, -⟩ := C85_pixels_partial D curve hf h8 hr hfu procs peeks
  obtain ⟨k, k', level, profile, h1, h2, h3, h4⟩ := hf.stored
  refine ⟨px, _, e, C86_config_partial h1 h2 peeks, ?_, ?_⟩
  · rw [e1]
    unfold orientedSize
    rw [if_neg (by omega)]
  · rw [e2]
    unfold orientedSize
    rw [if_neg (by omega)]

/-- C86 is false of the code for the other orientations: the sides are exchanged. -/
theorem C86_size_violated (D : DecodeParts) (curve : Nat → F32 → F32) {file : List UInt8} {h : ImageHeader} {icc : Option (List Nat)} {frames : List (FrameHeader × Pic)}
    (hf : LosslessFile file h icc frames) (h8 : Ordinary8 h)
    (hr : ∀ c y x, c < channelCount h → y < h.size.height → x < h.size.width → 0 ≤ layered frames c y x ∧ layered frames c y x < 256) (ho : 5 ≤ h.orientation) {fuel : Nat}
    (hfu : frames.length ≤ fuel) (procs : Int) (peeks : Bool) :
    ∃ px c, readerDecode D curve fuel procs ⟨file, true, peeks⟩ = .ok px ∧ readerConfig ⟨file, true, peeks⟩ = .ok c ∧ c.width = px.height ∧ c.height = px.width := by
  obtain ⟨px, planes, e, -, e1, e2, -⟩ := C85_pixels_partial D curve hf h8 hr hfu procs peeks
  obtain ⟨k, k', level, profile, h1, h2, h3, h4⟩ := hf.stored
  refine ⟨px, _, e, C86_config_partial h1 h2 peeks, ?_, ?_⟩
  · rw [e2]
    unfold orientedSize
    rw [if_pos ho]
  · rw [e1]
    unfold orientedSize
    rw [if_pos ho]

/-- C86 is false of the code for the colour model of images that are not gray: `RGBA` is announced and `NRGBA` is returned. -/
theorem C86_model_violated (D : DecodeParts) (curve : Nat → F32 → F32) {file : List UInt8} {h : ImageHeader} {icc : Option (List Nat)} {frames : List (FrameHeader × Pic)}
    (hf : LosslessFile file h icc frames) (h8 : Ordinary8 h)
    (hr : ∀ c y x, c < channelCount h → y < h.size.height → x < h.size.width → 0 ≤ layered frames c y x ∧ layered frames c y x < 256) {fuel : Nat}
    (hfu : frames.length ≤ fuel) (procs : Int) (peeks : Bool) :
    ∃ px c, readerDecode D curve fuel procs ⟨file, true, peeks⟩ = .ok px ∧ readerConfig ⟨file, true, peeks⟩ = .ok c ∧ (c.model = px.model ↔ h.colour.space = 1) := by
  obtain ⟨px, planes, e, e0, -⟩ := C85_pixels_partial D curve hf h8 hr hfu procs peeks
  obtain ⟨k, k', level, profile, h1, h2, h3, h4⟩ := hf.stored
  refine ⟨px, _, e, C86_config_partial h1 h2 peeks, ?_⟩
  unfold Pixels.model configModel
  rw [e0]
  by_cases hs : h.colour.space = 1
  · rw [hs]
    exact ⟨fun _ => rfl, fun _ => rfl⟩
  · rw [decide_eq_false hs]
    refine ⟨fun hx => ?_, fun hx => absurd hx hs⟩
    dsimp only at hx
    split at hx
    · cases hx
    · split at hx
      · cases hx
      · split at hx
        · contradiction
        · cases hx

/-- C86 is false of the code for codestreams in several boxes: `DecodeConfig` fails, whatever the boxes are. -/
theorem C86_pieces_violated (boxes : List Box) (hb : ∀ b ∈ boxes, b.Usual) (hp : 2 ≤ (pieces 12 boxes).length) (peeks : Bool) :
    readerConfig ⟨container boxes, true, peeks⟩ = .err := by
  obtain ⟨s1, n, e, a, _⟩ := readBoxHeader_at boxes hb []
  rw [List.append_nil] at e
  rw [boxLoop_end n _ _ a] at e
  unfold readerConfig pkgDecodeConfig getHeader
  rw [if_pos rfl]
  have : (do
      let b ← readBoxHeader
      if b.1.length > 1 then Rd.fail
      else do
        let box ← Rd.lift (idx b.1 0)
        headerAt box.offset b.2) (BR.new (container boxes)) = ((.err : Res (Option (ImageHeader × Option (List UInt8)))), s1) := by
    rw [Rd.bind_ok e]
    dsimp only
    rw [if_pos (by rw [List.length_map]; exact hp)]
    rfl
  show (Rd.bind _ _ _).1 = _
  unfold Rd.bind
  rw [this]

example : (∀ b ∈ [(⟨kindP, [0, 0, 0, 0, 255, 10]⟩ : Box), ⟨kindP, [128, 0, 0, 1, 7]⟩], b.Usual) ∧
    2 ≤ (pieces 12 [⟨kindP, [0, 0, 0, 0, 255, 10]⟩, ⟨kindP, [128, 0, 0, 1, 7]⟩]).length := by decide

/-! ## C87: the registry of the package `image` -/

/-- C87 (partial: readers that have both `Seek` and `Peek`). For a container, `image.Decode` and `image.DecodeConfig` return what the package returns. -/
theorem C87_registered_partial (D : DecodeParts) (curve : Nat → F32 → F32) (fuel : Nat) (procs : Int) (boxes : List Box) :
    registryDecode [jxlFormat D curve fuel procs] ⟨container boxes, true, true⟩ = readerDecode D curve fuel procs ⟨container boxes, true, true⟩ ∧
    registryConfig [jxlFormat D curve fuel procs] ⟨container boxes, true, true⟩ = readerConfig ⟨container boxes, true, true⟩ := by
  have hm : magicMatches (jxlFormat D curve fuel procs).magic (container boxes) = true := by
    unfold magicMatches container
    rw [Bool.and_eq_true]
    refine ⟨decide_eq_true ?_, ?_⟩
    · rw [List.length_append]
      exact Nat.le_add_right 12 _
    · rfl
  unfold registryDecode registryConfig asReader
  simp only [List.find?_cons, if_true, hm]
  exact ⟨rfl, rfl⟩

/-- C87 is false of the code for readers without `Peek`, such as files and `bytes.Reader`: nothing is ever decoded, whatever other formats that do not
match are registered. -/
theorem C87_violated (D : DecodeParts) (curve : Nat → F32 → F32) (fuel : Nat) (procs : Int) (data : List UInt8) (seeks : Bool) (before after : List Format)
    (hb : ∀ f ∈ before ++ after, magicMatches f.magic data = false) :
    registryDecode (before ++ [jxlFormat D curve fuel procs] ++ after) ⟨data, seeks, false⟩ = .err ∧
    registryConfig (before ++ [jxlFormat D curve fuel procs] ++ after) ⟨data, seeks, false⟩ = .err := by
  unfold registryDecode registryConfig asReader
  simp only [Bool.false_eq_true, if_false]
  cases e : (before ++ [jxlFormat D curve fuel procs] ++ after).find? (fun f => magicMatches f.magic data) with
  | none => exact ⟨rfl, rfl⟩
  | some f =>
    have hm := List.find?_some e
    have hmem := List.mem_of_find?_eq_some e
    rw [List.mem_append, List.mem_append, List.mem_singleton] at hmem
    have hx : f = jxlFormat D curve fuel procs := by
      rcases hmem with (h | h) | h
      · rw [hb f (List.mem_append_left _ h)] at hm
        cases hm
      · exact h
      · rw [hb f (List.mem_append_right _ h)] at hm
        cases hm
    rw [hx]
    exact ⟨rfl, rfl⟩

/-- C87 is false of the code for bare codestreams, which are not registered. -/
theorem C87_bare_violated (D : DecodeParts) (curve : Nat → F32 → F32) (fuel : Nat) (procs : Int) (data : List UInt8) (seeks peeks : Bool) :
    registryDecode [jxlFormat D curve fuel procs] ⟨0xFF :: 0x0A :: data, seeks, peeks⟩ = .err := by
  have hm : magicMatches (jxlFormat D curve fuel procs).magic (0xFF :: 0x0A :: data) = false := by
    unfold magicMatches jxlFormat
    rw [Bool.and_eq_false_iff]
    right
    rfl
  have hd : (asReader ⟨0xFF :: 0x0A :: data, seeks, peeks⟩).data = 0xFF :: 0x0A :: data := by
    unfold asReader
    split <;> rfl
  unfold registryDecode
  simp only [List.find?_cons, hd, hm, List.find?_nil]

/-! ## C88: parsing without decoding, and files without frames -/

theorem parseRounds_not_ok (h : ImageHeader) : ∀ (fuel : Nat) (s s' : BR), parseRounds h fuel s ≠ (.ok (), s')
  | 0, s, s' => by intro e; cases e
  | fuel + 1, s, s' => by
    intro e
    unfold parseRounds at e
    obtain ⟨x, s1, -, e⟩ := Rd.of_bind e
    obtain ⟨_, s2, -, e⟩ := Rd.of_bind e
    exact parseRounds_not_ok h fuel s2 s' e

/-- C88 is false of the code: with the option `ParseOnly`, no file is ever parsed to its end without an error. At best, if there is nothing after the image header, a `nil` image is
returned without an error. -/
theorem C88_violated (D : DecodeParts) (fuel : Nat) (procs : Int) (o : Options) (ho : o.parseOnly = true) (file : List UInt8) (img : JXLImage) (s' : BR) :
    coreDecode D fuel procs (some o) (BR.new file) ≠ (.ok (some img), s') := by
  intro e
  unfold coreDecode at e
  dsimp only at e
  rw [show (newOptions procs (some o)).parseOnly = true from ho] at e
  unfold decodeFile at e
  obtain ⟨b, s1, -, e⟩ := Rd.of_bind e
  obtain ⟨box, s2, -, e⟩ := Rd.of_bind e
  obtain ⟨hd, s3, -, e⟩ := Rd.of_bind e
  cases hd with
  | none => cases e
  | some hd =>
    dsimp only at e
    unfold decodeFrames at e
    split at e
    · cases e
    · obtain ⟨m, s4, -, e⟩ := Rd.of_bind e
      obtain ⟨_, s5, -, e⟩ := Rd.of_bind e
      split at e
      · cases e
      · rw [if_pos rfl] at e
        obtain ⟨_, s6, e6, -⟩ := Rd.of_bind e
        exact parseRounds_not_ok _ _ _ _ e6

/-- C88 (partial: the core decoder and files without frames). A file that ends with the image header is parsed without an error or a crash, with any options. -/
theorem C88_no_frames_partial (D : DecodeParts) {file : List UInt8} {k level : Nat} (hf : CodestreamIn file k level) {h : ImageHeader} {profile : Option (List Nat)}
    (hh : ImageHeaderAt level file k file.length h profile) (hp : h.preview = none) (hx : h.xyb = false) (fuel : Nat) (procs : Int) (o : Option Options) :
    ∃ s', coreDecode D fuel procs o (BR.new file) = (.ok none, s') := by
  obtain ⟨s0, box, e0, hbox, d0, i0, hlev⟩ := boxes_ok hf
  have hk : k < file.length := by
    obtain ⟨p, q, hd, -⟩ := hh
    exact imageHeader_inside hd.2
  obtain ⟨s1, e1, a1, d1⟩ := headerAt_ok hlev hh hk i0 d0
  refine ⟨s1, ?_⟩
  unfold coreDecode decodeFile
  rw [Rd.bind_ok e0]
  dsimp only
  rw [show idx [box] 0 = .ok box from rfl, Rd.bind_ok (lift_ok rfl _), hbox, Rd.bind_ok e1]
  dsimp only
  unfold decodeFrames
  rw [hp]
  rw [if_neg (by simp)]
  have em : imageMatrix D.cbrt h = .ok none := by unfold imageMatrix; rw [hx]; rfl
  rw [em, Rd.bind_ok (lift_ok rfl _), Rd.bind_ok (show seekFrames [box] s1 = (.ok (), s1) from rfl)]
  rw [C03_atEnd _ _ a1, show decide (8 * file.length = 8 * s1.data.length) = true from decide_eq_true (by rw [d1])]

/-- C88 is false of the code for files that end with the image header: `Decode` of the package panics. -/
theorem C88_no_frames_panics (D : DecodeParts) (curve : Nat → F32 → F32) {file : List UInt8} {k level : Nat} (hf : CodestreamIn file k level) {h : ImageHeader} {profile : Option (List Nat)}
    (hh : ImageHeaderAt level file k file.length h profile) (hp : h.preview = none) (hx : h.xyb = false) (fuel : Nat) (procs : Int) (peeks : Bool) :
    readerDecode D curve fuel procs ⟨file, true, peeks⟩ = .panic := by
  obtain ⟨s1, key⟩ := C88_no_frames_partial D hf hh hp hx fuel procs none
  unfold readerDecode pkgDecode
  rw [if_pos rfl]
  rw [Rd.bind_ok key]
  rfl

/-! ## C89: options -/

/-- C89 (partial: without `RenderVarblocks`). The options of the caller that ask for more than one goroutine are those that the decoder works with; no options, or any other
number, give one goroutine for each processor. -/
theorem C89_options_partial (procs : Int) (o : Options) :
    (newOptions procs (some o)).debug = o.debug ∧ (newOptions procs (some o)).parseOnly = o.parseOnly ∧
    (1 < o.maxGoroutines → (newOptions procs (some o)).maxGoroutines = o.maxGoroutines) ∧
    (o.maxGoroutines ≤ 0 → (newOptions procs (some o)).maxGoroutines = procs) ∧ (newOptions procs none).maxGoroutines = procs ∧
    newOptions procs (some (newOptions procs (some o))) = newOptions procs (some o) := by
  refine ⟨rfl, rfl, fun h => if_pos h, fun h => if_neg (by omega), rfl, ?_⟩
  unfold newOptions
  dsimp only
  congr 1
  repeat' split
  all_goals rfl

/-- C89 is false of the code: `RenderVarblocks` is ignored, and so is the wish for a single goroutine. -/
theorem C89_violated (procs : Int) (o : Options) :
    (newOptions procs (some o)).renderVarblocks = false ∧ (o.maxGoroutines = 1 → (newOptions procs (some o)).maxGoroutines = procs) :=
  ⟨rfl, fun h => if_neg (by omega)⟩

example : newOptions 8 (some ⟨true, false, true, 3⟩) = ⟨true, false, false, 3⟩ ∧ newOptions 8 (some ⟨true, false, true, 1⟩) = ⟨true, false, false, 8⟩ := ⟨rfl, rfl⟩

end Jxl
