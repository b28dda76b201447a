import Verif.Props.PNG
import Verif.Spec.ToImage

/-! # Conversion to a Go image (C61), and rendering twice (C62) -/
namespace Jxl

/-- The first two steps of both kinds of output. -/
theorem output_shows (I : FloatImpl) (curve : Nat → F32 → F32) {hd : ImageHeader} {buffers : List ImageBuffer}
    {img : JXLImage} {h w B : Nat} {f : F32 → F32} (hB : B = 8 ∨ B = 16) (hm : Made img buffers hd)
    (hl : buffers.length = hd.colourCount + hd.extra.length) (hsz : hd.orientedSize = ⟨w, h⟩)
    (hp : ∀ b ∈ buffers, b.IntPicture h w ∨ b.FloatPicture h w)
    (hdep : ∀ (c : Nat) (b : ImageBuffer), buffers[c]? = some b → b.bufferType = 0 → 1 ≤ hd.depth c ∧ hd.depth c ≤ 31)
    (ho : Ordinary hd.colour) (hc : ColourPath curve img hd f) (hpre : img.premultiplied = false) :
    ∃ bs1 bs2, toOutputColours curve img = .ok { img with buffers := bs1 } ∧ toOutputSamples I { img with buffers := bs1 } B = .ok { img with buffers := bs2 } ∧
      bs2.length = buffers.length ∧ (∀ b ∈ bs2, Settled B h w b) ∧
      ∀ (c : Nat) (b2 : ImageBuffer), bs2[c]? = some b2 → ∃ b, buffers[c]? = some b ∧
        Shows I B (hd.depth c) (if c < hd.colourCount then f else id) b (natPlane b2.ints) := by
  obtain ⟨bs1, e1, l1, p1, s1⟩ := outputColours_ok hm ho hl (by rw [hsz]) (by rw [hsz]) hp hc
  obtain ⟨bs2, e2, l2, s2⟩ := outputSamples_ok I { img with buffers := bs1 } (B := B) (h := h) (w := w) (by omega) (by omega) hpre
    (by simp only; rw [l1]; exact hm.depths) p1
    (fun c b d hb hdd ht => by
      have hcl : c < buffers.length := by rw [← l1]; exact getElem?_lt hb
      have hd2 := hm.depth c hcl
      simp only at hdd
      rw [hdd] at hd2
      injection hd2 with hd2
      rw [hd2]
      have hcb := List.getElem?_eq_getElem hcl
      obtain ⟨b1, hb1, hr⟩ := s1 c _ hcb
      simp only at hb
      rw [hb] at hb1
      injection hb1 with hb1
      subst hb1
      exact hdep c _ hcb (by rw [← hr.1]; exact ht))
  simp only at e2 l2 s2
  refine ⟨bs1, bs2, e1, e2, by rw [l2, l1], ?_, ?_⟩
  · intro b hb
    obtain ⟨c, hcl, hcb⟩ := List.getElem_of_mem hb
    obtain ⟨b', d, h1, h2, h3, _⟩ := s2 c _ (List.getElem?_eq_getElem (show c < bs1.length by omega))
    rw [List.getElem?_eq_getElem hcl, hcb] at h1
    injection h1 with h1
    subst h1
    exact h3
  · intro c b2 hb2
    have hcl : c < buffers.length := by rw [← l1, ← l2]; exact getElem?_lt hb2
    have hcb := List.getElem?_eq_getElem hcl
    generalize buffers[c] = b at hcb
    obtain ⟨b1, hb1, hr⟩ := s1 c b hcb
    obtain ⟨b2', d, h1, h2, h3, h4⟩ := s2 c b1 hb1
    rw [hb2] at h1
    injection h1 with h1
    subst h1
    have hdd := hm.depth c hcl
    rw [h2] at hdd
    injection hdd with hdd
    subst hdd
    exact ⟨b, hcb, shows_of_renders I hB (fun ht => (hdep c b hcb ht).1) hr h3 h4⟩

theorem settled_byte {B h w : Nat} {b : ImageBuffer} (hs : Settled B h w b) {y x : Nat} (hy : y < h) (hx : x < w) :
    ∃ v, at2 b.ints y x = .ok v ∧ byteOf v = UInt8.ofNat ((sample (natPlane b.ints) y x).getD 0) := by
  obtain ⟨v, hv⟩ := hs.1.2.2.2.sample hy hx
  refine ⟨v, at2_sample hv, ?_⟩
  rw [sample_natPlane, hv, byteOf_nat (hs.2 y x v hv).1]
  rfl

/-- The Go image of every image of ordinary range has the size of the image, and its bytes are those of the samples that a
rendering with `outDepth` bits shows: for images of at most 8 bits, exactly the samples (see `Shows`); the alpha channel, if it is the first
extra channel and the image is not gray, is that of the image. -/
theorem C61_to_image_partial (I : FloatImpl) (curve : Nat → F32 → F32) (hd : ImageHeader) (enc : Option (List UInt8)) (buffers : List ImageBuffer)
    (img : JXLImage) (h w : Nat) (f : F32 → F32) (hnew : newJXLImage buffers hd enc = .ok img)
    (hl : buffers.length = hd.colourCount + hd.extra.length) (hsz : hd.orientedSize = ⟨w, h⟩)
    (hp : ∀ b ∈ buffers, b.IntPicture h w ∨ b.FloatPicture h w)
    (hdep : ∀ (c : Nat) (b : ImageBuffer), buffers[c]? = some b → b.bufferType = 0 → 1 ≤ hd.depth c ∧ hd.depth c ≤ 31)
    (ho : Ordinary hd.colour) (hc : ColourPath curve img hd f)
    (hal : hd.alphaIndices = [] ∨ (hd.alphaIndices.head? = some 0 ∧ ∀ e, hd.extra[0]? = some e → e.alphaAssociated = false)) :
    ∃ px img' planes, toImage I curve img = .ok (px, img') ∧ px.gray = decide (hd.colour.space = 1) ∧ px.width = w ∧ px.height = h ∧
      px.pix = pixBytes planes h w ∧ planes.length = shownPlanes hd ∧
      ∀ (c : Nat) (m : List (List Nat)), planes[c]? = some m → Table h w m ∧ ∃ b, buffers[c]? = some b ∧
        Shows I (outDepth hd) (hd.depth c) (if c < hd.colourCount then f else id) b m := by
  have hm := newJXLImage_made hnew hl
  have hBv : outDepth hd = 8 ∨ outDepth hd = 16 := by unfold outDepth; split <;> omega
  have hal0 : hd.alphaIndices ≠ [] → img.premultiplied = false ∧ 0 < hd.extra.length := by
    intro hne
    rcases hal with h1 | ⟨h2, h4⟩
    · exact absurd h1 hne
    · cases hai : hd.alphaIndices with
      | nil => exact absurd hai hne
      | cons a as =>
        rw [hai] at h2
        injection h2 with h2
        subst h2
        obtain ⟨_, e, he, hpe⟩ := hm.alpha 0 as hai
        rw [hpe]
        exact ⟨h4 e he, getElem?_lt he⟩
  have hpre : img.premultiplied = false := by
    by_cases hne : hd.alphaIndices = []
    · exact (hm.noAlpha hne).2
    · exact (hal0 hne).1
  have haemp : hd.hasAlpha = true ↔ hd.alphaIndices ≠ [] := by
    unfold ImageHeader.hasAlpha
    cases hd.alphaIndices <;> simp
  obtain ⟨bs1, bs2, e1, e2, l2, hset, hsh⟩ := output_shows I curve hBv hm hl hsz hp hdep ho hc hpre
  have hcc1 : 1 ≤ hd.colourCount := by unfold ImageHeader.colourCount; split <;> omega
  have hb0 := List.getElem?_eq_getElem (show 0 < bs2.length by omega)
  have hs0 := hset _ (List.getElem_mem (show 0 < bs2.length by omega))
  generalize bs2[0] = b0 at hb0 hs0
  have i0 : idx bs2 0 = .ok b0 := idx_some (k := 0) hb0
  have hw0 : b0.width.toNat = w := by rw [hs0.1.2.2.1]; simp
  have hh0 : b0.height.toNat = h := by rw [hs0.1.2.1]; simp
  have hplanes : ∀ n, n ≤ bs2.length → ∀ (c : Nat) (m : List (List Nat)), ((bs2.take n).map (fun b => natPlane b.ints))[c]? = some m →
      Table h w m ∧ ∃ b, buffers[c]? = some b ∧ Shows I (outDepth hd) (hd.depth c) (if c < hd.colourCount then f else id) b m := by
    intro n hn c m hcm
    simp only [List.getElem?_map, List.getElem?_take] at hcm
    split at hcm
    · obtain ⟨b2, hb2, rfl⟩ := Option.map_eq_some_iff.mp hcm
      exact ⟨table_natPlane (hset b2 (List.mem_of_getElem? hb2)).1.2.2.2, hsh c b2 hb2⟩
    · cases hcm
  have hstart : ∀ r, (if hd.colourCount = 1 then do
        let p ← grayPix { img with buffers := bs2 }
        Res.ok ((⟨true, b0.width.toNat, b0.height.toNat, p⟩ : Pixels), ({ img with buffers := bs2 } : JXLImage))
      else do
        let p ← nrgbaPix { img with buffers := bs2 }
        .ok (⟨false, b0.width.toNat, b0.height.toNat, p⟩, { img with buffers := bs2 })) = r → toImage I curve img = r := by
    intro r hr
    unfold toImage
    rw [show (if 8 < img.header.bitDepth.bits then 16 else 8) = outDepth hd by rw [hm.header]; rfl]
    rw [e1]
    simp only [Res.bind_ok]
    rw [e2]
    simp only [Res.bind_ok]
    rw [i0]
    simp only [Res.bind_ok]
    rw [show img.header.colourCount = hd.colourCount by rw [hm.header]]
    exact hr
  by_cases hg : hd.colour.space = 1
  · -- gray
    have hc1 : hd.colourCount = 1 := by unfold ImageHeader.colourCount; rw [if_pos hg]
    have hpix : grayPix { img with buffers := bs2 } = .ok (pixBytes [natPlane b0.ints] h w) := by
      unfold grayPix pixBytes
      simp only
      rw [i0, Res.bind_ok, hh0, hw0]
      rw [forFrom_append0 _ (fun y => (List.range w).flatMap (fun x => [UInt8.ofNat ((sample (natPlane b0.ints) y x).getD 0)])) h [] (fun y acc hy => by
        rw [forFrom_append0 _ (fun x => [UInt8.ofNat ((sample (natPlane b0.ints) y x).getD 0)]) w acc (fun x acc hx => by
          obtain ⟨v, h1, h2⟩ := settled_byte hs0 hy hx
          rw [h1, Res.bind_ok, h2])])]
      simp
    refine ⟨⟨true, b0.width.toNat, b0.height.toNat, pixBytes [natPlane b0.ints] h w⟩, { img with buffers := bs2 }, [natPlane b0.ints], hstart _ ?_, ?_, ?_, ?_, ?_, ?_, ?_⟩
    · rw [if_pos hc1, hpix]; rfl
    · simp [hg]
    · exact hw0
    · exact hh0
    · rfl
    · unfold shownPlanes; rw [if_pos hg]; rfl
    · have := hplanes 1 (by omega)
      have e : (bs2.take 1).map (fun b => natPlane b.ints) = [natPlane b0.ints] := by
        cases hbs : bs2 with
        | nil => rw [hbs] at hb0; cases hb0
        | cons x xs => rw [hbs] at hb0; injection hb0 with hb0; simp [hb0]
      rw [e] at this
      exact this
  · have hc3 : hd.colourCount = 3 := by unfold ImageHeader.colourCount; rw [if_neg hg]
    have hb1 := List.getElem?_eq_getElem (show 1 < bs2.length by omega)
    have hs1 := hset _ (List.getElem_mem (show 1 < bs2.length by omega))
    generalize bs2[1] = b1 at hb1 hs1
    have i1 : idx bs2 1 = .ok b1 := idx_some (k := 1) hb1
    have hb2 := List.getElem?_eq_getElem (show 2 < bs2.length by omega)
    have hs2 := hset _ (List.getElem_mem (show 2 < bs2.length by omega))
    generalize bs2[2] = b2 at hb2 hs2
    have i2 : idx bs2 2 = .ok b2 := idx_some (k := 2) hb2
    have hn4 : shownPlanes hd ≤ bs2.length := by
      unfold shownPlanes
      rw [if_neg hg]
      by_cases hne : hd.alphaIndices = []
      · rw [if_pos hne]; omega
      · rw [if_neg hne]; have := (hal0 hne).2; omega
    have hpix : nrgbaPix { img with buffers := bs2 } = .ok (pixBytes ((bs2.take (shownPlanes hd)).map (fun b => natPlane b.ints)) h w) := by
      unfold nrgbaPix pixBytes
      simp only
      rw [i0, Res.bind_ok, hh0, hw0]
      rw [forFrom_append0 _ (fun y => (List.range w).flatMap (fun x => ((bs2.take (shownPlanes hd)).map (fun b => natPlane b.ints)).map
          (fun m => UInt8.ofNat ((sample m y x).getD 0)) ++ (if ((bs2.take (shownPlanes hd)).map (fun b => natPlane b.ints)).length = 3 then [255] else [])))
          h [] (fun y acc hy => by
        rw [forFrom_append0 _ (fun x => ((bs2.take (shownPlanes hd)).map (fun b => natPlane b.ints)).map
          (fun m => UInt8.ofNat ((sample m y x).getD 0)) ++ (if ((bs2.take (shownPlanes hd)).map (fun b => natPlane b.ints)).length = 3 then [255] else []))
          w acc (fun x acc hx => by
          obtain ⟨v0, h1, h2⟩ := settled_byte hs0 hy hx
          obtain ⟨v1, h3, h4⟩ := settled_byte hs1 hy hx
          obtain ⟨v2, h5, h6⟩ := settled_byte hs2 hy hx
          rw [h1, Res.bind_ok, i1, Res.bind_ok, h3, Res.bind_ok, i2, Res.bind_ok, h5, Res.bind_ok, h2, h4, h6]
          unfold alphaByte
          simp only
          rw [hm.header]
          by_cases hne : hd.alphaIndices = []
          · have hna : hd.hasAlpha = false := by
              by_contra hh
              exact haemp.mp (by simpa using hh) hne
            have hsp : shownPlanes hd = 3 := by unfold shownPlanes; rw [if_neg hg, if_pos hne]
            have e : bs2.take 3 = [b0, b1, b2] := by
              have h3 : 3 ≤ bs2.length := by omega
              match hbs : bs2, h3 with
              | x :: y :: z :: xs, _ =>
                injection hb0 with hb0
                injection hb1 with hb1
                injection hb2 with hb2
                simp [hb0, hb1, hb2]
            rw [hna, hsp, e]
            simp
          · have hna : hd.hasAlpha = true := haemp.mpr hne
            have hsp : shownPlanes hd = 4 := by unfold shownPlanes; rw [if_neg hg, if_neg hne]
            have hb3 := List.getElem?_eq_getElem (show 3 < bs2.length by omega)
            have hs3 := hset _ (List.getElem_mem (show 3 < bs2.length by omega))
            generalize bs2[3] = b3 at hb3 hs3
            have i3 : idx bs2 3 = .ok b3 := idx_some (k := 3) hb3
            obtain ⟨v3, h7, h8⟩ := settled_byte hs3 hy hx
            have e : bs2.take 4 = [b0, b1, b2, b3] := by
              have h3 : 4 ≤ bs2.length := by omega
              match hbs : bs2, h3 with
              | x :: y :: z :: u :: xs, _ =>
                injection hb0 with hb0
                injection hb1 with hb1
                injection hb2 with hb2
                injection hb3 with hb3
                simp [hb0, hb1, hb2, hb3]
            rw [hna, hsp, e, if_pos rfl, i3, Res.bind_ok, h7, Res.bind_ok, h8]
            simp)])]
      rfl
    refine ⟨⟨false, b0.width.toNat, b0.height.toNat, pixBytes ((bs2.take (shownPlanes hd)).map (fun b => natPlane b.ints)) h w⟩, { img with buffers := bs2 },
      (bs2.take (shownPlanes hd)).map (fun b => natPlane b.ints), hstart _ ?_, ?_, ?_, ?_, ?_, ?_, hplanes _ hn4⟩
    · rw [if_neg (by omega), hpix]; rfl
    · simp [hg]
    · exact hw0
    · exact hh0
    · rfl
    · simp only [List.length_map, List.length_take]; omega

/-- The bytes of the Go image of the given channels and header, rendered `n` times in a row (the last rendering). -/
def rendered (curve : Nat → F32 → F32) (buffers : List ImageBuffer) (hd : ImageHeader) (n : Nat) : Res (List UInt8) := do
  let img ← newJXLImage buffers hd none
  let img ← forFrom (fun _ img => do
    let r ← toImage anyFloats curve img
    .ok r.2) n 0 img
  let r ← toImage anyFloats curve img
  .ok r.1.pix

/-- An 8-bit picture with alpha. -/
example : rendered (fun _ v => v) [onePixel 10, onePixel 20, onePixel 30, onePixel 40] (pngHeader 8 [pngAlpha 8] [0]) 0 = .ok [10, 20, 30, 40] := by
  decide +kernel

/-- Pictures of more than 8 bits: the Go image has the low bytes of the samples, so that 255 of 65535 (almost black) is shown as white
and 256 as black. -/
theorem C61_deep_samples_lose_high_byte : rendered (fun _ v => v) [onePixel 255, onePixel 256, onePixel 65280] (pngHeader 16 [] []) 0 = .ok [255, 0, 0, 255] := by
  decide +kernel

/-- The alpha channel is the second extra channel, but the first (99) is shown in its place. -/
theorem C61_alpha_elsewhere : rendered (fun _ v => v) [onePixel 10, onePixel 20, onePixel 30, onePixel 99, onePixel 40]
    (pngHeader 8 [pngDepth, pngAlpha 8] [1]) 0 = .ok [10, 20, 30, 99] := by decide +kernel

/-- The alpha of a gray picture is not shown. -/
theorem C61_gray_alpha_dropped : rendered (fun _ v => v) [onePixel 10, onePixel 0]
    { pngHeader 8 [pngAlpha 8] [0] with colour := { ColourEncoding.dflt with space := 1 } } 0 = .ok [10] := by decide +kernel

/-- Images with premultiplied alpha are never converted. -/
theorem C61_premultiplied_never_shown (I : FloatImpl) (curve : Nat → F32 → F32) (img : JXLImage) (r : Pixels × JXLImage)
    (hp : img.premultiplied = true) : toImage I curve img ≠ .ok r := by
  intro h
  unfold toImage at h
  obtain ⟨i1, h1, h⟩ := Res.of_bind h
  obtain ⟨i2, h2, h⟩ := Res.of_bind h
  have s1 := toOutputColours_same h1
  have := (toOutputSamples_same h2).2
  rw [s1.2] at this
  simp only at this
  rw [hp] at this
  cases this

theorem needsCoerce_same (B : Nat) : ∀ (bs : List ImageBuffer) (ds : List Nat), bs.length ≤ ds.length → (∀ d ∈ ds, d = B) → needsCoerce B bs ds = .ok false
  | [], _, _, _ => rfl
  | b :: bs, [], h, _ => by simp at h
  | b :: bs, d :: ds, h, hd => by
    have ih := needsCoerce_same B bs ds (by simpa using h) (fun d hm => hd d (List.mem_cons_of_mem _ hm))
    unfold needsCoerce
    rw [hd d List.mem_cons_self]
    simp [ih]

/-- Rendering does not change what later renderings show: for an image whose samples have the depth of the output (8 or 16 bits) and whose
colours are those of the output, the image that `ToImage` leaves behind has the same Go image and the same PNG file. -/
theorem C62_repeatable_partial (I : FloatImpl) (curve : Nat → F32 → F32) (hd : ImageHeader) (enc : Option (List UInt8)) (buffers : List ImageBuffer)
    (img : JXLImage) (h w : Nat) (hnew : newJXLImage buffers hd enc = .ok img)
    (hl : buffers.length = hd.colourCount + hd.extra.length) (hsz : hd.orientedSize = ⟨w, h⟩)
    (hp : ∀ b ∈ buffers, b.IntPicture h w ∨ b.FloatPicture h w) (hdep : ∀ c, c < buffers.length → hd.depth c = outDepth hd)
    (ho : Ordinary hd.colour) (hx : hd.xyb = false) (hc : ColourPath curve img hd id) (hpre : img.premultiplied = false)
    (px : Pixels) (img' : JXLImage) (h1 : toImage I curve img = .ok (px, img')) :
    toImage I curve img' = .ok (px, img') ∧ ∀ Z s, writePNG I Z curve s img' = writePNG I Z curve s img := by
  have hm := newJXLImage_made hnew hl
  have hBv : outDepth hd = 8 ∨ outDepth hd = 16 := by unfold outDepth; split <;> omega
  obtain ⟨bs1, bs2, e1, e2, l2, hset, _⟩ := output_shows I curve hBv hm hl hsz hp (fun c b hb _ => by
    rw [hdep c (getElem?_lt hb)]; omega) ho hc hpre
  have hhdr := ordinary_not_hdr hm ho
  have hid : ∀ bs, toOutputColours curve { img with buffers := bs } = .ok { img with buffers := bs } := by
    intro bs
    have hhdr' : ({ img with buffers := bs } : JXLImage).isHDR = false := hhdr
    unfold toOutputColours
    generalize (id : F32 → F32) = g at hc
    cases hc with
    | profile p hicc => simp only [hicc]
    | srgb hicc _ htf hpr hwp =>
      rw [hhdr']
      simp only [hicc]
      unfold transform transferImage
      have t1 : img.transfer = tfSRGB := by rw [hm.notXyb hx, htf]
      have t2 : img.prim = priSRGB := by rw [hm.prim]; unfold ColourEncoding.primXY; rw [hpr]; rfl
      have t3 : img.white = wpD65 := by rw [hm.white]; unfold ColourEncoding.whiteXY; rw [hwp]; rfl
      simp [t1, t2, t3, srgb_self, d65_self]
    | xyb hxyb _ => rw [hx] at hxyb; cases hxyb
  have hdall : ∀ d ∈ img.bitDepths, d = outDepth hd := by
    intro d hdm
    obtain ⟨c, hc, he⟩ := List.getElem_of_mem hdm
    have := hm.depth c (by rw [← hm.depths]; exact hc)
    rw [List.getElem?_eq_getElem hc, he] at this
    injection this with this
    rw [this, hdep c (by rw [← hm.depths]; exact hc)]
  have hsam : toOutputSamples I { img with buffers := bs2 } (outDepth hd) = .ok { img with buffers := bs2 } := by
    unfold toOutputSamples coerceSamples
    simp only [hpre, Bool.false_eq_true, if_false]
    rw [needsCoerce_same _ _ _ (by rw [hm.depths, l2]) hdall]
    simp only [Res.bind_ok, Bool.false_eq_true, if_false]
    rw [← hpre]
    exact settleChannels_id I (by omega) (by omega) _ (by simp only; rw [hm.depths, l2]) hset
  have hBeq : (if 8 < img.header.bitDepth.bits then 16 else 8) = outDepth hd := by rw [hm.header]; rfl
  have himg : img' = { img with buffers := bs2 } := by
    unfold toImage at h1
    rw [hBeq, e1] at h1
    simp only [Res.bind_ok] at h1
    rw [e2] at h1
    simp only [Res.bind_ok] at h1
    obtain ⟨b0, _, h1⟩ := Res.of_bind h1
    split at h1
    · obtain ⟨p, _, h1⟩ := Res.of_bind h1
      injection h1 with h1
      injection h1 with _ h1
      exact h1.symm
    · obtain ⟨p, _, h1⟩ := Res.of_bind h1
      injection h1 with h1
      injection h1 with _ h1
      exact h1.symm
  subst himg
  constructor
  · rw [← h1]
    unfold toImage
    simp only
    rw [hid bs2, hBeq]
    rw [e1]
    simp only [Res.bind_ok]
    rw [e2, hsam]
  · intro Z s
    have hhdr' : ({ img with buffers := bs2 } : JXLImage).isHDR = false := hhdr
    unfold writePNG
    simp only
    rw [hid bs2, hBeq, hhdr', hhdr]
    rw [e1]
    simp only [Res.bind_ok, Bool.false_eq_true, if_false]
    rw [e2, hsam]

/-- The hypotheses are met by an 8-bit picture with alpha. -/
example : ∃ img, newJXLImage [onePixel 10, onePixel 20, onePixel 30, onePixel 40] (pngHeader 8 [pngAlpha 8] [0]) none = .ok img ∧
    (∀ c, c < 4 → (pngHeader 8 [pngAlpha 8] [0]).depth c = outDepth (pngHeader 8 [pngAlpha 8] [0])) ∧ img.premultiplied = false :=
  ⟨_, rfl, by decide, rfl⟩

/-- A picture of 10 bits changes when it is rendered again: rendering leaves samples of 16 bits behind, which are then taken for
samples of 10 bits and saturate. -/
theorem C62_ten_bits_twice_differ :
    rendered (fun _ v => v) [onePixel 4, onePixel 5, onePixel 6] (pngHeader 10 [] []) 0 = .ok [0, 64, 128, 255] ∧
    rendered (fun _ v => v) [onePixel 4, onePixel 5, onePixel 6] (pngHeader 10 [] []) 1 = .ok [16, 20, 24, 255] := by
  decide +kernel

/-- An XYB-encoded picture changes when it is rendered again: the curve is applied once more, to integer samples divided by the
number of bits. Here the curve is the identity and the samples are 0, 4 and 255 of 255. -/
theorem C62_xyb_twice_differ :
    rendered (fun _ v => v) [⟨1, 1, 1, [[.fin 0]], []⟩, ⟨1, 1, 1, [[.fin (1 / 64)]], []⟩, ⟨1, 1, 1, [[.fin 1]], []⟩] { pngHeader 8 [] [] with xyb := true } 0 =
      .ok [0, 4, 255, 255] ∧
    rendered (fun _ v => v) [⟨1, 1, 1, [[.fin 0]], []⟩, ⟨1, 1, 1, [[.fin (1 / 64)]], []⟩, ⟨1, 1, 1, [[.fin 1]], []⟩] { pngHeader 8 [] [] with xyb := true } 1 =
      .ok [0, 128, 255, 255] := by
  decide +kernel

end Jxl
