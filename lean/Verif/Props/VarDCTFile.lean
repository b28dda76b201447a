import Verif.Proofs.VarDCTFile
import Verif.Props.Decode

/-! # C94: files with VarDCT frames -/
namespace Jxl
open Spec

/-- The VarDCT part of a decoder computes in the arithmetic `A`, with the tables and functions `V`. The rest may be anything. -/
def ComputesIn (D : DecodeParts) (A : Arith F32) (V : VarParts F32) : Prop := ∀ b, ∃ (P : FrameParts) (lf : List (List (List F32))), D.frames b = P.withVarDCT A V D.impl.toFloatImpl lf

theorem varRound_ok {D : DecodeParts} {A : Arith F32} {V : VarParts F32} (hD : ComputesIn D A V) {cos : Nat → Nat → Nat → F32} {B : Nat → Nat → F32} (hV : V.Ok cos B) {h : ImageHeader}
    (hw : 0 < h.size.width ∧ h.size.width < 2 ^ 30) (hh : 0 < h.size.height ∧ h.size.height < 2 ^ 30) (hal : h.alphaIndices = alphaChannels h.extra) {matrix : Option (Opsin F32)}
    (hm : imageMatrix D.cbrt h = .ok matrix) {f : FrameHeader} {F : CodedFrame} {w : FloatPic} (hL : VarLayer h f F) (hwt : ∃ weights, allWeights V.quant F.params 0 = .ok weights)
    {data : List UInt8} {k k' : Nat} (hF : VarFrameCodes h data k k' f F) {st : DecodeState} (hlf : st.lf.length = 5) (hc : FloatCanvas h w st.store) {s : BR} {p0 : Nat}
    (hs : AtBit s p0) (hp0 : nextByte p0 = k) (hdata : s.data = data) :
    ∃ v st' s' q, F.Shows A h f cos B V.scale V.pow V.quant V.filters.stepMultiplier matrix v ∧ decodeRound D h matrix st s = (.ok (st', f.isLast), s') ∧ st'.lf.length = 5 ∧ FloatCanvas h (putFloatsOn f v w) st'.store ∧
      (∃ l, st'.store.slices[st'.store.canvas]? = some l ∧ FloatsShow (channelCount h) h.size (putFloatsOn f v w) l) ∧ AtBit s' q ∧ nextByte q = k' ∧ s'.data = data := by
  obtain ⟨weights, hwt⟩ := hwt
  obtain ⟨hr, l, b, lengths, s1, j, e1, hlen, hS, a1, d1⟩ := varFront_ok hw hh hL.toVarCoded hF hlf hs hp0 hdata
  obtain ⟨P, lfb, hDb⟩ := hD b
  obtain ⟨out, s2, q, e2, hb, a2, hq, d2⟩ := varData_ok A V P D.impl.toFloatImpl lfb hV hL.toVarCoded hwt (l := l) hlen hS a1 d1
  obtain ⟨hlen3, ⟨coded, hcoded, hfil⟩, hbs, hbt, hbx⟩ := hb
  have hfil' := hfil
  obtain ⟨_, _, _, _, hafter⟩ := hfil'
  have hplane : FloatsShow 3 (blocksOf f) (fun c y x => (sample (((out.take 3).map ImageBuffer.floats).getD c []) y x).getD (.fin 0)) (out.take 3) := by
    have hlen : (out.take 3).length = 3 := by have := hafter.1; rwa [List.length_map] at this
    refine ⟨hlen, fun c hc => ?_⟩
    have hb0 := List.getElem?_eq_getElem (show c < (out.take 3).length by omega)
    generalize (out.take 3)[c]'(by omega) = b0 at hb0
    have hb1 : ((out.take 3).map ImageBuffer.floats)[c]? = some b0.floats := by rw [List.getElem?_map, hb0]; rfl
    obtain ⟨ht, -⟩ := hafter.2 c _ hb1
    have t1 := hbt b0 (List.mem_of_getElem? hb0)
    obtain ⟨t2, t3⟩ := hbs b0 (List.mem_of_mem_take (List.mem_of_getElem? hb0))
    refine ⟨b0, hb0, ⟨t1, t3, t2, ht⟩, fun y x hy hx => ?_⟩
    dsimp only
    rw [List.getD_eq_getElem?_getD, hb1, Option.getD_some]
    obtain ⟨v, hv⟩ := ht.sample hy hx
    rw [hv]
    rfl
  obtain ⟨bufs, e6, hdrop, hbufs⟩ := varColours_ok (matrix := matrix) (fun o ho => imageMatrix_shape hL.plain.opsin (by rw [hm, ho])) hL hplane
  have e3 : keepLF f out st.lf = .ok st.lf := by
    unfold keepLF
    rw [if_neg (by rw [hr.lfLevel]; omega)]
  have hextra : ExtraShow h f F.channels.v (bufs.drop 3) := by
    rw [hdrop]
    refine ⟨by rw [List.length_drop, hlen3]; omega, fun c hc => ?_⟩
    obtain ⟨b, e, p, q⟩ := hbx c hc
    exact ⟨b, by rw [List.getElem?_drop]; exact e, p, q⟩
  have e4 : upsampleFrame h f (imageWeights h) (D.orders f) out = .ok out := by
    refine upsample_unscaled hL.unscaled ?_ _ _
    rw [hlen3, hr.ecUpsampling]
    unfold frameColourCount
    rw [hL.plain.encoding]
    cases h.xyb <;> exact Nat.le_refl _
  obtain ⟨s3, l', e5, r3, c3, p3⟩ := composeFloats_ok D.impl hL hr hw hh hal hc e6 hbufs hextra
  refine ⟨_, ⟨s3, st.lf⟩, s2, q, ⟨weights, coded, (out.take 3).map ImageBuffer.floats, hwt, hcoded, hfil, ?_, ?_⟩, ?_, hlf, ⟨r3, Or.inr ⟨l', c3, p3⟩⟩, ⟨l', c3, p3⟩, a2, hq, d2⟩
  · intro c y x hc _ _
    unfold paintedPic
    rw [if_pos hc]
    have h3 : colourFor h (c : Nat) < 3 := by unfold colourFor; split <;> omega
    dsimp only
    rw [dif_pos h3]
    congr 1
    unfold colourFor
    by_cases hx : h.colourCount = 3
    · simp only [if_pos hx]
    · simp only [if_neg hx]
      rfl
  · intro c e y x he _ _
    unfold paintedPic depth
    rw [if_neg (by omega), if_neg (by omega), Nat.add_sub_cancel_left, he]
    rfl
  · unfold decodeRound
    rw [Rd.bind_ok e1]
    dsimp only
    rw [hDb, Rd.bind_ok e2, e3, Rd.bind_ok (lift_ok rfl _), if_neg (by have := hL.regular; omega), e4, Rd.bind_ok (lift_ok rfl _), e5, Rd.bind_ok (lift_ok rfl _)]
    rfl

/-- Every frame shows its picture. -/
def AllShow (A : Arith F32) (h : ImageHeader) (cos : Nat → Nat → Nat → F32) (B : Nat → Nat → F32) (V : VarParts F32) (matrix : Option (Opsin F32)) (frames : List (FrameHeader × CodedFrame))
    (pics : List (FrameHeader × FloatPic)) : Prop :=
  List.Forall₂ (fun x p => p.1 = x.1 ∧ x.2.Shows A h x.1 cos B V.scale V.pow V.quant V.filters.stepMultiplier matrix p.2) frames pics

theorem varRounds_ok {D : DecodeParts} {A : Arith F32} {V : VarParts F32} (hD : ComputesIn D A V) {cos : Nat → Nat → Nat → F32} {B : Nat → Nat → F32} (hV : V.Ok cos B) {h : ImageHeader}
    (hw : 0 < h.size.width ∧ h.size.width < 2 ^ 30) (hh : 0 < h.size.height ∧ h.size.height < 2 ^ 30) (hal : h.alphaIndices = alphaChannels h.extra) {matrix : Option (Opsin F32)}
    (hm : imageMatrix D.cbrt h = .ok matrix) {data : List UInt8} :
    ∀ (frames : List (FrameHeader × CodedFrame)) (fuel k : Nat) (w : FloatPic) (st : DecodeState) (s : BR) (p0 : Nat), frames ≠ [] → frames.length ≤ fuel →
      (∀ x ∈ frames, VarLayer h x.1 x.2) → (∀ x ∈ frames, ∃ weights, allWeights V.quant x.2.params 0 = .ok weights) → VarFramesAt h data k frames → st.lf.length = 5 → FloatCanvas h w st.store →
      AtBit s p0 → nextByte p0 = k → s.data = data →
      ∃ pics st' s' q, AllShow A h cos B V matrix frames pics ∧ decodeRounds D h matrix fuel st s = (.ok st', s') ∧
        (∃ l, st'.slices[st'.canvas]? = some l ∧ FloatsShow (channelCount h) h.size (pics.foldl (fun w x => putFloatsOn x.1 x.2 w) w) l) ∧ AtBit s' q ∧ s'.data = data := by
  intro frames
  induction frames with
  | nil => intro _ _ _ _ _ _ hne; exact absurd rfl hne
  | cons x xs ih =>
    intro fuel k w st s p0 _ hfu hL hwt hF hlf hc hs hp hd
    obtain ⟨n, rfl⟩ : ∃ n, fuel = n + 1 := ⟨fuel - 1, by rw [List.length_cons] at hfu; omega⟩
    obtain ⟨k', hF1, hlast, hF2⟩ := hF
    obtain ⟨v, st1, s1, q, sh, e1, l1, c1, c1', a1, q1, d1⟩ := varRound_ok hD hV hw hh hal hm (hL x List.mem_cons_self) (hwt x List.mem_cons_self) hF1 hlf hc hs hp hd
    unfold decodeRounds
    rw [Rd.bind_ok e1]
    cases hx : xs with
    | nil =>
      rw [hlast, hx]
      exact ⟨[(x.1, v)], st1.store, s1, q, .cons ⟨rfl, sh⟩ .nil, rfl, c1', a1, d1⟩
    | cons y ys =>
      rw [hlast, hx]
      dsimp only [List.isEmpty_cons]
      rw [if_neg (by simp)]
      obtain ⟨pics, st2, s2, q2, all, e2, c2, a2, d2⟩ := ih n k' _ st1 s1 q (by rw [hx]; simp) (by rw [List.length_cons] at hfu; omega)
        (fun z hz => hL z (List.mem_cons_of_mem _ hz)) (fun z hz => hwt z (List.mem_cons_of_mem _ hz)) hF2 l1 c1 a1 q1 d1
      rw [hx] at all
      exact ⟨(x.1, v) :: pics, st2, s2, q2, .cons ⟨rfl, sh⟩ all, e2, c2, a2, d2⟩

theorem orientFloats_ok {h w o : Nat} {rs cs : Side} (hh : 0 < h) (hw : 0 < w) (hh' : h < 2 ^ 31) (hw' : w < 2 ^ 31) (ho : exif o = some (rs, cs)) :
    ∀ l : List ImageBuffer, (∀ b ∈ l, b.FloatPicture h w) →
      ∃ l', orientCanvas l o = .ok l' ∧ l'.length = l.length ∧ ∀ (c : Nat) (b : ImageBuffer), l[c]? = some b → ∃ b', l'[c]? = some b' ∧
        b'.FloatPicture (shownSize rs h w).1 (shownSize rs h w).2 ∧ ∀ y x, y < h → x < w → sample b'.floats (shown rs cs h w y x).1 (shown rs cs h w y x).2 = sample b.floats y x
  | [], _ => ⟨[], rfl, rfl, fun c b hb => by simp at hb⟩
  | b :: bs, hl => by
    obtain ⟨b', e1, p1, q1⟩ := C33_floats b h w o rs cs (hl b List.mem_cons_self) hh hw hh' hw' ho
    obtain ⟨l', e2, n2, q2⟩ := orientFloats_ok hh hw hh' hw' ho bs (fun b hb => hl b (List.mem_cons_of_mem _ hb))
    refine ⟨b' :: l', ?_, by simp [n2], fun c a hc => ?_⟩
    · unfold orientCanvas
      rw [e1, Res.bind_ok, e2, Res.bind_ok]
    · cases c with
      | zero =>
        rw [List.getElem?_cons_zero] at hc
        cases hc
        exact ⟨b', rfl, p1, q1⟩
      | succ c =>
        rw [List.getElem?_cons_succ] at hc ⊢
        exact q2 c a hc

theorem finishFloats_ok {h : ImageHeader} (hw : 0 < h.size.width ∧ h.size.width < 2 ^ 30) (hh : 0 < h.size.height ∧ h.size.height < 2 ^ 30) (hS : StatedHeader h) {enc : Option (List UInt8)}
    (hp : ∃ p, imageProfile h enc = .ok p) {w : FloatPic} {st : Store} {l : List ImageBuffer}
    (hl : st.slices[st.canvas]? = some l) (hlw : FloatsShow (channelCount h) h.size w l) {s : BR} {p : Nat} (hs : AtBit s p) :
    ∃ img s', finishImage h enc st s = (.ok img, s') ∧ Made img img.buffers h ∧ newJXLImage img.buffers h enc = .ok img ∧
      ShowsFloatsTurned (channelCount h) h.orientation h.size w img.buffers := by
  obtain ⟨s1, e1, a1, d1⟩ := zeroPad_spec s p hs
  obtain ⟨rs, cs, hex⟩ := exif_of hS.orientation
  have hall : ∀ b ∈ l, b.FloatPicture h.size.height h.size.width := by
    intro b hb
    obtain ⟨c, hc, e⟩ := List.mem_iff_getElem.mp hb
    obtain ⟨b', e', p', -⟩ := hlw.2 c (by rw [← hlw.1]; exact hc)
    rw [List.getElem?_eq_getElem hc, e] at e'
    cases e'
    exact p'
  obtain ⟨l', e2, n2, q2⟩ := orientFloats_ok hh.1 hw.1 (by omega) (by omega) hex l hall
  obtain ⟨img, e3⟩ := newImage_ok hS.alphas (n2.trans hlw.1) hp
  have hm := newJXLImage_made e3 (by rw [n2, hlw.1]; rfl)
  refine ⟨img, s1, ?_, by rw [hm.bufs]; exact hm, by rw [hm.bufs]; exact e3, rs, cs, hex, by rw [hm.bufs, n2, hlw.1], fun c hc => ?_⟩
  · unfold finishImage
    rw [Rd.bind_ok e1, idx_of_getElem? _ _ _ hl, Rd.bind_ok (lift_ok rfl _), e2, Rd.bind_ok (lift_ok rfl _), e3]
    exact lift_ok rfl _
  · obtain ⟨b, eb, pb, hb⟩ := hlw.2 c hc
    obtain ⟨b', eb', pb', hb'⟩ := q2 c b eb
    rw [hm.bufs]
    refine ⟨b', eb', pb', fun y x hy hx => ?_⟩
    rw [hb' y x hy hx]
    exact hb y x hy hx

/-- The decoder on such a file: the image, and how it was made. -/
theorem varFile_ok {D : DecodeParts} {A : Arith F32} {V : VarParts F32} (hD : ComputesIn D A V) {cos : Nat → Nat → Nat → F32} {B : Nat → Nat → F32} (hV : V.Ok cos B) {file : List UInt8}
    {h : ImageHeader} {frames : List (FrameHeader × CodedFrame)} (hf : VarDCTFile file h frames) (hwt : ∀ x ∈ frames, ∃ weights, allWeights V.quant x.2.params 0 = .ok weights)
    {matrix : Option (Opsin F32)} (hm : imageMatrix D.cbrt h = .ok matrix) {fuel : Nat} (hfu : frames.length ≤ fuel) (procs : Int) :
    StatedHeader h ∧ ∃ img s' pics enc, coreDecode D fuel procs none (BR.new file) = (.ok (some img), s') ∧ AllShow A h cos B V matrix frames pics ∧ Made img img.buffers h ∧ newJXLImage img.buffers h enc = .ok img ∧
      ShowsFloatsTurned (channelCount h) h.orientation h.size (layeredFloats pics) img.buffers := by
  obtain ⟨k, k', level, profile, hcs, hh, hF, hpr⟩ := hf.stored
  obtain ⟨s0, box, e0, hbox, d0, i0, hlev⟩ := boxes_ok hcs
  have hS : StatedHeader h := by
    obtain ⟨p, q, hd, -⟩ := hh
    exact yields_imageHeader level _ _ _ hd.2
  have hk : k < file.length := by
    obtain ⟨p, q, hd, -⟩ := hh
    exact imageHeader_inside hd.2
  have hk' : k' < file.length := by
    obtain ⟨x, xs, rfl⟩ := List.exists_cons_of_ne_nil hf.some
    obtain ⟨j, ⟨p, q, lengths, -, hd, -⟩, -⟩ := hF
    exact frameHeader_inside hd.2
  obtain ⟨s1, e1, a1, d1⟩ := headerAt_ok hlev hh hk i0 d0
  have hcv : FloatCanvas h (fun _ _ _ => .fin 0) (newState h).store := ⟨rfl, Or.inl ⟨rfl, rfl⟩⟩
  obtain ⟨pics, st, s2, q, all, e2, c2, a2, d2⟩ := varRounds_ok hD hV hf.width hf.height hS.alphas hm frames fuel k' _ (newState h) s1 (8 * k') hf.some hfu hf.layers hwt hF rfl hcv a1
    (by unfold nextByte; omega) d1
  obtain ⟨l, hl, hlw⟩ := c2
  obtain ⟨img, s3, e3, m3, n3, t3⟩ := finishFloats_ok hf.width hf.height hS (enc := profile.map fun e => e.map UInt8.ofNat) (by
    unfold imageProfile
    cases hx : h.xyb with
    | true => exact ⟨_, rfl⟩
    | false =>
      cases profile with
      | none => exact ⟨_, rfl⟩
      | some e =>
        obtain ⟨icc, hp⟩ := hpr hx e rfl
        refine ⟨(h.colour.tf, some icc), ?_⟩
        show (do let p ← getDecodedICC (e.map UInt8.ofNat); Res.ok (h.colour.tf, some p)) = _
        rw [profile_decodes hp]
        rfl) hl hlw a2
  refine ⟨hS, img, s3, pics, _, ?_, all, m3, n3, t3⟩
  show decodeFile D false fuel (BR.new file) = _
  unfold decodeFile
  rw [Rd.bind_ok e0]
  dsimp only
  rw [show idx [box] 0 = .ok box from rfl, Rd.bind_ok (lift_ok rfl _), hbox, Rd.bind_ok e1]
  dsimp only
  unfold decodeFrames
  rw [hf.noPreview]
  rw [if_neg (by simp)]
  rw [hm, Rd.bind_ok (lift_ok rfl _), Rd.bind_ok (show seekFrames [box] s1 = (.ok (), s1) from rfl)]
  rw [C03_atEnd _ _ a1, show decide (8 * k' = 8 * s1.data.length) = false from decide_eq_false (by rw [d1]; omega)]
  dsimp only
  rw [if_neg (by simp), Rd.bind_ok e2, Rd.bind_ok e3]
  rfl

/-- **C94**, in part: a file with VarDCT frames decodes to an image in floats with the pictures of its frames, one on top of the other, in the colours that the header asks for, turned as the header says. -/
theorem C94_image_partial {D : DecodeParts} {A : Arith F32} {V : VarParts F32} (hD : ComputesIn D A V) {cos : Nat → Nat → Nat → F32} {B : Nat → Nat → F32} (hV : V.Ok cos B) {file : List UInt8}
    {h : ImageHeader} {frames : List (FrameHeader × CodedFrame)} (hf : VarDCTFile file h frames) (hwt : ∀ x ∈ frames, ∃ weights, allWeights V.quant x.2.params 0 = .ok weights)
    {matrix : Option (Opsin F32)} (hm : imageMatrix D.cbrt h = .ok matrix) {fuel : Nat} (hfu : frames.length ≤ fuel) (procs : Int) :
    ∃ img s' pics, coreDecode D fuel procs none (BR.new file) = (.ok (some img), s') ∧ AllShow A h cos B V matrix frames pics ∧ Made img img.buffers h ∧
      ShowsFloatsTurned (channelCount h) h.orientation h.size (layeredFloats pics) img.buffers := by
  obtain ⟨-, img, s', pics, -, e, all, m, -, t⟩ := varFile_ok hD hV hf hwt hm hfu procs
  exact ⟨img, s', pics, e, all, m, t⟩

/-- The pixels of the Go image, if the channels of the image are floats and show `v`. -/
theorem floatPixels_of {D : DecodeParts} (curve : Nat → F32 → F32) {file : List UInt8} {h : ImageHeader} {v : FloatPic} {fuel : Nat} {procs : Int} {img : JXLImage} {s' : BR} {enc : Option (List UInt8)}
    (hS : StatedHeader h) (e : coreDecode D fuel procs none (BR.new file) = (.ok (some img), s')) (hn : newJXLImage img.buffers h enc = .ok img)
    (ht : ShowsFloatsTurned (channelCount h) h.orientation h.size v img.buffers) (h8 : OrdinaryFloats h) (peeks : Bool) :
    ∃ px, readerDecode D curve fuel procs ⟨file, true, peeks⟩ = .ok px ∧ PixelsShow D.impl.toFloatImpl curve h v px := by
  obtain ⟨rs, cs, hex, hlen, hb⟩ := ht
  have hsz := shownSize_oriented hex h.size
  have hcc : channelCount h = h.colourCount + h.extra.length := rfl
  have hflt : ∀ (c : Nat) (b : ImageBuffer), img.buffers[c]? = some b → b.FloatPicture (orientedSize h.orientation h.size).height (orientedSize h.orientation h.size).width ∧
      ∀ y x, y < h.size.height → x < h.size.width → sample b.floats (shown rs cs h.size.height h.size.width y x).1 (shown rs cs h.size.height h.size.width y x).2 = some (v c y x) := by
    intro c b hcb
    have hlt : c < channelCount h := by rw [← hlen]; exact (List.getElem?_eq_some_iff.mp hcb).1
    obtain ⟨b', e1, e2, e3⟩ := hb c hlt
    rw [hcb] at e1
    cases e1
    rw [hsz] at e2
    exact ⟨e2, e3⟩
  have hpath : ColourPath curve img h (if h.xyb = true then curve tfSRGB else id) := by
    cases hx : h.xyb with
    | true =>
      rw [if_pos rfl]
      exact .xyb hx fun c b _ hcb => (hflt c b hcb).1.1
    | false =>
      rw [if_neg (by decide)]
      rcases h8.colours with h1 | ⟨h1, h2, h3⟩
      · rw [hx] at h1
        cases h1
      · cases hi : img.icc with
        | none => exact .srgb hi hx h1 h2 h3
        | some p => exact .profile p hi
  obtain ⟨px, img', planes, e1, e2, e3, e4, e5, e6, e7⟩ := C61_to_image_partial D.impl.toFloatImpl curve h enc img.buffers img (orientedSize h.orientation h.size).height
    (orientedSize h.orientation h.size).width _ hn (by rw [hlen, hcc]) (by rw [hS.oriented])
    (fun b hb => by
      obtain ⟨c, hc, eb⟩ := List.mem_iff_getElem.mp hb
      exact .inr (hflt c b (by rw [List.getElem?_eq_getElem hc, eb])).1)
    (fun c b hcb h0 => absurd ((hflt c b hcb).1.1.symm.trans h0) (by decide)) h8.range hpath (by rw [hS.alphas]; exact h8.alpha)
  refine ⟨px, ?_, planes, e2, e3, e4, by rw [e3, e4]; exact e5, e6, fun c m hcm => ⟨rs, cs, hex, fun y x hy hx' => ?_⟩⟩
  · unfold readerDecode pkgDecode
    rw [if_pos rfl]
    rw [Rd.bind_ok e]
    dsimp only
    rw [e1]
    rfl
  · obtain ⟨ht, b, hcb, hsh⟩ := e7 c m hcm
    obtain ⟨hpic, hsam⟩ := hflt c b hcb
    have hsv := hsam y x hy hx'
    obtain ⟨o, ho⟩ : ∃ o, sample m (shown rs cs h.size.height h.size.width y x).1 (shown rs cs h.size.height h.size.width y x).2 = some o := by
      have hin := hpic.2.2.2.sample_lt hsv
      exact ht.sample hin.1 hin.2
    refine ⟨o, ho, ?_⟩
    have := (hsh _ _ o ho).2.2 hpic.1 _ hsv
    rw [this, show outDepth h = 8 by unfold outDepth; rw [h8.bits]; rfl]
    unfold shownCurve
    by_cases h1 : c < h.colourCount <;> by_cases h2 : h.xyb = true <;> simp [h1, h2, tfSRGB]

/-- C94, as seen through the package: the bytes of the Go image of such a file with 8-bit samples are the pictures of the frames, one on top of the other, turned as the header says. -/
theorem C94_pixels_partial (curve : Nat → F32 → F32) {D : DecodeParts} {A : Arith F32} {V : VarParts F32} (hD : ComputesIn D A V) {cos : Nat → Nat → Nat → F32} {B : Nat → Nat → F32} (hV : V.Ok cos B) {file : List UInt8}
    {h : ImageHeader} {frames : List (FrameHeader × CodedFrame)} (hf : VarDCTFile file h frames) (hwt : ∀ x ∈ frames, ∃ weights, allWeights V.quant x.2.params 0 = .ok weights)
    {matrix : Option (Opsin F32)} (hm : imageMatrix D.cbrt h = .ok matrix) {fuel : Nat} (hfu : frames.length ≤ fuel) (procs : Int)
    (h8 : OrdinaryFloats h) (peeks : Bool) :
    ∃ px pics, readerDecode D curve fuel procs ⟨file, true, peeks⟩ = .ok px ∧ AllShow A h cos B V matrix frames pics ∧
      PixelsShow D.impl.toFloatImpl curve h (layeredFloats pics) px := by
  obtain ⟨hS, img, s', pics, enc, e, all, -, hn, t⟩ := varFile_ok hD hV hf hwt hm hfu procs
  obtain ⟨px, e1, e2⟩ := floatPixels_of curve hS e hn t h8 peeks
  exact ⟨px, pics, e1, all, e2⟩

end Jxl
