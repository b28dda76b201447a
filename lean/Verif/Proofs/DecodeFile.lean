import Verif.Proofs.Decode
import Verif.Proofs.DecodeCompose
import Verif.Props.Image
import Verif.Proofs.PNG

/-! # Decoding of files: all frames, and the image -/
namespace Jxl
open Spec

/-- What the image header satisfies. -/
structure StatedHeader (h : ImageHeader) : Prop where
  alphas : h.alphaIndices = alphaChannels h.extra
  orientation : 1 ≤ h.orientation ∧ h.orientation ≤ 8
  oriented : h.orientedSize = orientedSize h.orientation h.size

theorem yields_imageHeader (level : Int) : Yields (decImageHeader level) StatedHeader := by
  unfold decImageHeader
  refine Yields.skip (fun magic => Yields.skip (fun _ => Yields.skip (fun size => Yields.skip (fun allDefault => Yields.skip (fun extraFields => ?_)))))
  refine Yields.bind (P := fun x => 1 ≤ x.1 ∧ x.1 ≤ 8) (Yields.if (fun _ => ?_) (fun _ => ⟨Nat.le_refl _, by decide⟩)) (fun x hx => ?_)
  · unfold decExtraImageFields
    refine Yields.bind (Yields.bits 3) (fun o ho => ?_)
    refine Yields.skip (fun hasI => Yields.skip (fun intr => Yields.skip (fun hasP => Yields.skip (fun prev => Yields.skip (fun anim => Yields.check (fun _ => ?_))))))
    dsimp only
    omega
  refine Yields.skip (fun f => Yields.skip (fun tone => Yields.skip (fun ext => Yields.skip (fun dt => Yields.skip (fun opsin => Yields.skip (fun mask => ?_))))))
  refine Yields.skip (fun up2 => Yields.skip (fun up4 => Yields.skip (fun up8 => Yields.pure ?_)))
  exact ⟨rfl, hx, rfl⟩

theorem exif_of {o : Nat} (h : 1 ≤ o ∧ o ≤ 8) : ∃ rs cs, exif o = some (rs, cs) := by
  obtain ⟨h1, h2⟩ := h
  interval_cases o <;> exact ⟨_, _, rfl⟩

theorem round_ok (D : DecodeParts) {h : ImageHeader} (hV : Viewable h) (hal : h.alphaIndices = alphaChannels h.extra) {f : FrameHeader} {v w : Pic} (hL : Layer h f v)
    {data : List UInt8} {k k' : Nat} (hF : FrameCodes h data k k' f v) {st : DecodeState} (hlf : st.lf.length = 5) (hc : Canvas h w st.store) {s : BR} {p0 : Nat}
    (hs : AtBit s p0) (hp0 : nextByte p0 = k) (hdata : s.data = data) :
    ∃ st' s' q, decodeRound D h none st s = (.ok (st', f.isLast), s') ∧ st'.lf.length = 5 ∧ Canvas h (putOn f v w) st'.store ∧ (∃ l, st'.store.slices[st'.store.canvas]? = some l ∧ ShowsPicture (channelCount h) h.size (putOn f v w) l) ∧ AtBit s' q ∧ nextByte q = k' ∧ s'.data = data := by
  obtain ⟨hr, l, b, lengths, s1, j, e1, el, hlen, hS, a1, d1⟩ := frameFront_ok hV.width hV.height hL.toSheet.toCodedSheet hF hlf hs hp0 hdata
  obtain ⟨bufs, s2, q, e2, hb, a2, hq, d2⟩ := frameData_ok (D.frames b) D.impl.toFloatImpl hL.toSheet.toCodedSheet hr el hlen hS a1 d1
  have e3 : keepLF f bufs st.lf = .ok st.lf := by
    unfold keepLF
    rw [if_neg (by rw [hr.lfLevel]; omega)]
  have e4 : upsampleFrame h f (imageWeights h) (D.orders f) bufs = .ok bufs := by
    refine upsample_unscaled hL.unscaled ?_ _ _
    rw [hb.1, hr.ecUpsampling]
    unfold frameColourCount
    rw [hL.plain.xyb, hL.plain.modular]
    exact Nat.le_refl _
  obtain ⟨s3, l', e5, r3, c3, p3⟩ := compose_ok D.impl hL hr hV hal hc hb
  refine ⟨⟨s3, st.lf⟩, s2, q, ?_, hlf, ⟨r3, Or.inr ⟨l', c3, p3⟩⟩, ⟨l', c3, p3⟩, a2, hq, d2⟩
  unfold decodeRound
  rw [Rd.bind_ok e1]
  dsimp only
  rw [Rd.bind_ok e2, e3, Rd.bind_ok (lift_ok rfl _), if_neg (by have := hL.regular; omega), e4, Rd.bind_ok (lift_ok rfl _), e5, Rd.bind_ok (lift_ok rfl _)]
  rfl

theorem rounds_ok (D : DecodeParts) {h : ImageHeader} (hV : Viewable h) (hal : h.alphaIndices = alphaChannels h.extra) {data : List UInt8} :
    ∀ (frames : List (FrameHeader × Pic)) (fuel k : Nat) (w : Pic) (st : DecodeState) (s : BR) (p0 : Nat), frames ≠ [] → frames.length ≤ fuel →
      (∀ x ∈ frames, Layer h x.1 x.2) → FramesAt h data k frames → st.lf.length = 5 → Canvas h w st.store → AtBit s p0 → nextByte p0 = k → s.data = data →
      ∃ st' s' q, decodeRounds D h none fuel st s = (.ok st', s') ∧ (∃ l, st'.slices[st'.canvas]? = some l ∧ ShowsPicture (channelCount h) h.size (frames.foldl (fun w x => putOn x.1 x.2 w) w) l) ∧ AtBit s' q ∧ s'.data = data := by
  intro frames
  induction frames with
  | nil => intro _ _ _ _ _ _ hne; exact absurd rfl hne
  | cons x xs ih =>
    intro fuel k w st s p0 _ hfu hL hF hlf hc hs hp hd
    obtain ⟨n, rfl⟩ : ∃ n, fuel = n + 1 := ⟨fuel - 1, by rw [List.length_cons] at hfu; omega⟩
    obtain ⟨k', hF1, hlast, hF2⟩ := hF
    obtain ⟨st1, s1, q, e1, l1, c1, c1', a1, q1, d1⟩ := round_ok D hV hal (hL x List.mem_cons_self) hF1 hlf hc hs hp hd
    unfold decodeRounds
    rw [Rd.bind_ok e1]
    cases hx : xs with
    | nil =>
      rw [hlast, hx]
      exact ⟨st1.store, s1, q, rfl, c1', a1, d1⟩
    | cons y ys =>
      rw [hlast, hx]
      dsimp only [List.isEmpty_cons]
      rw [if_neg (by simp)]
      obtain ⟨st2, s2, q2, e2, c2, a2, d2⟩ := ih n k' _ st1 s1 q (by rw [hx]; simp) (by rw [List.length_cons] at hfu; omega)
        (fun z hz => hL z (List.mem_cons_of_mem _ hz)) hF2 l1 c1 a1 q1 d1
      rw [hx] at c2
      exact ⟨st2, s2, q2, e2, c2, a2, d2⟩

theorem orientCanvas_ok {h w o : Nat} {rs cs : Side} (hh : 0 < h) (hw : 0 < w) (hh' : h < 2 ^ 31) (hw' : w < 2 ^ 31) (ho : exif o = some (rs, cs)) :
    ∀ l : List ImageBuffer, (∀ b ∈ l, b.IntPicture h w) →
      ∃ l', orientCanvas l o = .ok l' ∧ l'.length = l.length ∧ ∀ (c : Nat) (b : ImageBuffer), l[c]? = some b → ∃ b', l'[c]? = some b' ∧
        b'.IntPicture (shownSize rs h w).1 (shownSize rs h w).2 ∧ ∀ y x, y < h → x < w → sample b'.ints (shown rs cs h w y x).1 (shown rs cs h w y x).2 = sample b.ints y x
  | [], _ => ⟨[], rfl, rfl, fun c b hb => by simp at hb⟩
  | b :: bs, hl => by
    obtain ⟨b', e1, p1, q1⟩ := C33_ints b h w o rs cs (hl b List.mem_cons_self) hh hw hh' hw' ho
    obtain ⟨l', e2, n2, q2⟩ := orientCanvas_ok hh hw hh' hw' ho bs (fun b hb => hl b (List.mem_cons_of_mem _ hb))
    refine ⟨b' :: l', ?_, by simp [n2], fun c a hc => ?_⟩
    · unfold orientCanvas
      rw [e1, Res.bind_ok, e2, Res.bind_ok]
    · cases c with
      | zero =>
        rw [List.getElem?_cons_zero] at hc
        cases hc
        exact ⟨b', rfl, p1, q1⟩
      | succ c =>
        rw [List.getElem?_cons_succ] at hc ⊢
        exact q2 c a hc

theorem newImage_ok {buffers : List ImageBuffer} {h : ImageHeader} {enc : Option (List UInt8)} (hal : h.alphaIndices = alphaChannels h.extra) (hl : buffers.length = channelCount h)
    (hp : ∃ p, imageProfile h enc = .ok p) : ∃ img, newJXLImage buffers h enc = .ok img := by
  obtain ⟨p, hp⟩ := hp
  have hcol : (if h.colour.space = 1 then 1 else 3) = h.colourCount := rfl
  obtain ⟨ds, ed, -, -⟩ := channelDepths_ok h buffers.length 0 (by rw [hl]; unfold channelCount ImageHeader.colourCount; omega)
  unfold newJXLImage
  rw [hcol, ed, hp]
  cases ha : h.alphaIndices with
  | nil =>
    have hn : h.hasAlpha = false := by unfold ImageHeader.hasAlpha; rw [ha]; rfl
    unfold imagePremultiplied
    rw [hn]
    exact ⟨_, rfl⟩
  | cons a as =>
    have hn : h.hasAlpha = true := by unfold ImageHeader.hasAlpha; rw [ha]; simp
    have ham : a ∈ alphaChannels h.extra := by rw [← hal, ha]; exact List.mem_cons_self
    have hlt : a < h.extra.length := by
      unfold alphaChannels at ham
      have := (List.mem_filter.mp ham).1
      exact List.mem_range.mp this
    unfold imagePremultiplied
    rw [hn, if_pos rfl]
    rw [show idx (a :: as) 0 = .ok a from rfl]
    simp only [Res.bind_ok, if_true]
    rw [idx_of_getElem? _ _ _ (List.getElem?_eq_getElem hlt)]
    exact ⟨_, rfl⟩

theorem finish_ok {h : ImageHeader} (hV : Viewable h) (hS : StatedHeader h) {enc : Option (List UInt8)} (hp : ∃ p, imageProfile h enc = .ok p) {w : Pic} {st : Store} {l : List ImageBuffer}
    (hl : st.slices[st.canvas]? = some l) (hlw : ShowsPicture (channelCount h) h.size w l) {s : BR} {p : Nat} (hs : AtBit s p) :
    ∃ img s', finishImage h enc st s = (.ok img, s') ∧ Made img img.buffers h ∧ newJXLImage img.buffers h enc = .ok img ∧
      ShowsTurned (channelCount h) h.orientation h.size w img.buffers := by
  obtain ⟨s1, e1, a1, d1⟩ := zeroPad_spec s p hs
  obtain ⟨rs, cs, hex⟩ := exif_of hS.orientation
  have hall : ∀ b ∈ l, b.IntPicture h.size.height h.size.width := by
    intro b hb
    obtain ⟨c, hc, e⟩ := List.mem_iff_getElem.mp hb
    obtain ⟨b', e', p', -⟩ := hlw.2 c (by rw [← hlw.1]; exact hc)
    rw [List.getElem?_eq_getElem hc, e] at e'
    cases e'
    exact p'
  obtain ⟨l', e2, n2, q2⟩ := orientCanvas_ok hV.height.1 hV.width.1 (by have := hV.height.2; omega) (by have := hV.width.2; omega) hex l hall
  obtain ⟨img, e3⟩ := newImage_ok hS.alphas (n2.trans hlw.1) hp
  have hm := newJXLImage_made e3 (by rw [n2, hlw.1]; rfl)
  refine ⟨img, s1, ?_, by rw [hm.bufs]; exact hm, by rw [hm.bufs]; exact e3, rs, cs, hex, by rw [hm.bufs, n2, hlw.1], fun c hc => ?_⟩
  · unfold finishImage
    rw [Rd.bind_ok e1, idx_of_getElem? _ _ _ hl, Rd.bind_ok (lift_ok rfl _), e2, Rd.bind_ok (lift_ok rfl _), e3]
    exact lift_ok rfl _
  · obtain ⟨b, eb, pb, hb⟩ := hlw.2 c hc
    obtain ⟨b', eb', pb', hb'⟩ := q2 c b eb
    rw [hm.bufs]
    refine ⟨b', eb', pb', fun y x hy hx => ?_⟩
    rw [hb' y x hy hx]
    exact hb.2 y x hy hx

theorem bits_inside {α : Type} {d : Dec α} {data : List UInt8} {k : Nat} {x : α × List Bool} (h : d (bitsFrom data (8 * k)) = some x) (hn : d [] = none) : k < data.length := by
  by_contra hk
  have : bitsFrom data (8 * k) = [] := by
    unfold bitsFrom
    exact List.drop_eq_nil_of_le (by rw [length_streamBits]; omega)
  rw [this, hn] at h
  cases h

theorem imageHeader_inside {level : Int} {data : List UInt8} {k : Nat} {x : ImageHeader × List Bool} (h : decImageHeader level (bitsFrom data (8 * k)) = some x) : k < data.length :=
  bits_inside h rfl

theorem frameHeader_inside {most : Nat} {m xyb : Bool} {nec : Nat} {size : Dim} {data : List UInt8} {k : Nat} {x : FrameHeader × List Bool}
    (h : decFrameHeader most m xyb nec size (bitsFrom data (8 * k)) = some x) : k < data.length :=
  bits_inside h rfl

/-- A profile that can be decoded is the profile of the image. -/
theorem profile_ok {h : ImageHeader} (hx : h.xyb = false) {profile : Option (List Nat)} (hp : ∀ e, profile = some e → ∃ p, getDecodedICC (e.map UInt8.ofNat) = .ok p) :
    ∃ p, imageProfile h (profile.map fun e => e.map UInt8.ofNat) = .ok p := by
  unfold imageProfile
  rw [hx]
  cases profile with
  | none => exact ⟨_, rfl⟩
  | some e =>
    obtain ⟨p, hp⟩ := hp e rfl
    refine ⟨(h.colour.tf, some p), ?_⟩
    show (do let p ← getDecodedICC (e.map UInt8.ofNat); Res.ok (h.colour.tf, some p)) = _
    rw [hp]
    rfl

/-- If the frames are decoded and the image is made then the file is decoded. -/
theorem file_of_finish (D : DecodeParts) {file : List UInt8} {k k' level : Nat} (hf : CodestreamIn file k level) {h : ImageHeader} {profile : Option (List Nat)}
    (hh : ImageHeaderAt level file k k' h profile) (hV : Viewable h) (hx : h.xyb = false) (hk' : k' < file.length) {R : JXLImage → Prop} {fuel : Nat}
    (hR : StatedHeader h → ∀ s1, AtBit s1 (8 * k') → s1.data = file → ∃ st s2, decodeRounds D h none fuel (newState h) s1 = (.ok st, s2) ∧
      ∃ img s3, finishImage h (profile.map fun e => e.map UInt8.ofNat) st s2 = (.ok img, s3) ∧ R img) :
    ∃ img s', decodeFile D false fuel (BR.new file) = (.ok (some img), s') ∧ R img := by
  obtain ⟨s0, box, e0, hbox, d0, i0, hlev⟩ := boxes_ok hf
  have hS : StatedHeader h := by
    obtain ⟨p, q, hd, -⟩ := hh
    exact yields_imageHeader level _ _ _ hd.2
  have hk : k < file.length := by
    obtain ⟨p, q, hd, -⟩ := hh
    exact imageHeader_inside hd.2
  obtain ⟨s1, e1, a1, d1⟩ := headerAt_ok hlev hh hk i0 d0
  obtain ⟨st, s2, e2, img, s3, e3, r⟩ := hR hS s1 a1 d1
  refine ⟨img, s3, ?_, r⟩
  unfold decodeFile
  rw [Rd.bind_ok e0]
  dsimp only
  rw [show idx [box] 0 = .ok box from rfl, Rd.bind_ok (lift_ok rfl _), hbox, Rd.bind_ok e1]
  dsimp only
  unfold decodeFrames
  rw [hV.noPreview]
  rw [if_neg (by simp)]
  have em : imageMatrix D.cbrt h = .ok none := by unfold imageMatrix; rw [hx]; rfl
  rw [em, Rd.bind_ok (lift_ok rfl _), Rd.bind_ok (show seekFrames [box] s1 = (.ok (), s1) from rfl)]
  rw [C03_atEnd _ _ a1, show decide (8 * k' = 8 * s1.data.length) = false from decide_eq_false (by rw [d1]; omega)]
  dsimp only
  rw [if_neg (by simp), Rd.bind_ok e2, Rd.bind_ok e3]
  rfl

/-- If the frames are decoded then the file is. -/
theorem file_of_rounds (D : DecodeParts) {file : List UInt8} {k k' level : Nat} (hf : CodestreamIn file k level) {h : ImageHeader} {profile : Option (List Nat)}
    (hh : ImageHeaderAt level file k k' h profile) (hV : Viewable h) (hx : h.xyb = false) (hp : ∀ e, profile = some e → ∃ p, getDecodedICC (e.map UInt8.ofNat) = .ok p)
    (hk' : k' < file.length) {w : Pic} {fuel : Nat}
    (hR : StatedHeader h → ∀ s1, AtBit s1 (8 * k') → s1.data = file → ∃ st s2 q, decodeRounds D h none fuel (newState h) s1 = (.ok st, s2) ∧
      (∃ l, st.slices[st.canvas]? = some l ∧ ShowsPicture (channelCount h) h.size w l) ∧ AtBit s2 q ∧ s2.data = file) :
    ∃ img s', decodeFile D false fuel (BR.new file) = (.ok (some img), s') ∧ Made img img.buffers h ∧
      newJXLImage img.buffers h (profile.map fun e => e.map UInt8.ofNat) = .ok img ∧ ShowsTurned (channelCount h) h.orientation h.size w img.buffers := by
  refine file_of_finish D hf hh hV hx hk' (fun hS s1 a1 d1 => ?_)
  obtain ⟨st, s2, q, e2, ⟨l, hl, hlw⟩, a2, d2⟩ := hR hS s1 a1 d1
  exact ⟨st, s2, e2, finish_ok hV hS (profile_ok hx hp) hl hlw a2⟩

theorem framesAt_inside {h : ImageHeader} {data : List UInt8} {k : Nat} {frames : List (FrameHeader × Pic)} (hne : frames ≠ []) (hF : FramesAt h data k frames) : k < data.length := by
  obtain ⟨x, xs, rfl⟩ := List.exists_cons_of_ne_nil hne
  obtain ⟨j, ⟨p, q, lengths, hd, -⟩, -⟩ := hF
  exact frameHeader_inside hd.2

theorem file_ok (D : DecodeParts) {file : List UInt8} {k k' level : Nat} (hf : CodestreamIn file k level) {h : ImageHeader} {profile : Option (List Nat)}
    (hh : ImageHeaderAt level file k k' h profile) (hV : Viewable h) (hx : h.xyb = false) (hp : ∀ e, profile = some e → ∃ p, getDecodedICC (e.map UInt8.ofNat) = .ok p)
    {frames : List (FrameHeader × Pic)} (hne : frames ≠ []) (hL : ∀ x ∈ frames, Layer h x.1 x.2) (hF : FramesAt h file k' frames) {fuel : Nat} (hfu : frames.length ≤ fuel) :
    ∃ img s', decodeFile D false fuel (BR.new file) = (.ok (some img), s') ∧ Made img img.buffers h ∧
      newJXLImage img.buffers h (profile.map fun e => e.map UInt8.ofNat) = .ok img ∧ ShowsTurned (channelCount h) h.orientation h.size (layered frames) img.buffers := by
  refine file_of_rounds D hf hh hV hx hp (framesAt_inside hne hF) (fun hS s1 a1 d1 => ?_)
  have hcv : Canvas h (fun _ _ _ => 0) (newState h).store := ⟨rfl, Or.inl ⟨rfl, rfl⟩⟩
  exact rounds_ok D hV hS.alphas frames fuel k' _ (newState h) s1 (8 * k') hne hfu hL hF rfl hcv a1 (by unfold nextByte; omega) d1

end Jxl
