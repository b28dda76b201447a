import Verif.Spec.VarDCTEnlarged
import Verif.Props.Enlarged
import Verif.Props.VarDCTFileWitness

/-! # C105: files with VarDCT frames that are made larger -/
namespace Jxl
open Spec

theorem varGrown_plain {h : ImageHeader} {f : FrameHeader} {F : CodedFrame} (hL : GrownVarLayer h f F) :
    paddedFrameSize { f with size := ⟨u32 (f.size.width * f.upsampling), u32 (f.size.height * f.upsampling)⟩ } = .ok f.moved.size := by
  obtain ⟨z1, z2⟩ := hL.small
  obtain ⟨w1, w2⟩ := hL.whole
  have hp := hL.plain
  have hk := hL.factor.1
  have k8 : 0 < f.upsampling ∧ f.upsampling ≤ 8 := by
    simp only [List.mem_cons, List.not_mem_nil, or_false] at hk
    omega
  have b1 : f.size.width * f.upsampling < 2 ^ 30 := by nlinarith
  have b2 : f.size.height * f.upsampling < 2 ^ 30 := by nlinarith
  have c1 : 0 < f.size.width * f.upsampling := Nat.mul_pos hp.framed.width.1 k8.1
  have c2 : 0 < f.size.height * f.upsampling := Nat.mul_pos hp.framed.height.1 k8.1
  have d1 : f.size.width * f.upsampling % 8 = 0 := by rw [Nat.mul_mod, w1, Nat.zero_mul]
  have d2 : f.size.height * f.upsampling % 8 = 0 := by rw [Nat.mul_mod, w2, Nat.zero_mul]
  have e1 : u32 (f.size.width * f.upsampling) = f.size.width * f.upsampling := Nat.mod_eq_of_lt (by omega)
  have e2 : u32 (f.size.height * f.upsampling) = f.size.height * f.upsampling := Nat.mod_eq_of_lt (by omega)
  rw [e1, e2]
  unfold paddedFrameSize
  dsimp only
  rw [hp.encoding, hp.jpegX, hp.jpegY, show maxList [0, 0, 0] = 0 from rfl, show ((0 : Nat) == 0) = true from rfl, varSide c2 (by omega), Res.bind_ok, varSide c1 (by omega), Res.bind_ok]
  show Res.ok (Dim.mk _ _) = Res.ok (Dim.mk _ _)
  congr 2 <;> omega

theorem blocksOf_whole {f : FrameHeader} (hw : f.size.width % 8 = 0 ∧ f.size.height % 8 = 0) : blocksOf f = f.size := by
  unfold blocksOf
  obtain ⟨w1, w2⟩ := hw
  show _ = Dim.mk f.size.width f.size.height
  rw [show 8 * ((f.size.width + 7) / 8) = f.size.width by omega, show 8 * ((f.size.height + 7) / 8) = f.size.height by omega]

theorem varGrownRound_ok {D : DecodeParts} {A : Arith F32} {V : VarParts F32} (hD : ComputesIn D A V) {cos : Nat → Nat → Nat → F32} {B : Nat → Nat → F32} (hV : V.Ok cos B) {h : ImageHeader}
    (hv : Viewable h) (hal : h.alphaIndices = alphaChannels h.extra) (hu : WeightsStated h) {matrix : Option (Opsin F32)}
    (hm : imageMatrix D.cbrt h = .ok matrix) {f : FrameHeader} {F : CodedFrame} {w : FloatPic} (hL : GrownVarLayer h f F) (hwt : ∃ weights, allWeights V.quant F.params 0 = .ok weights)
    {options : Option Int} (hO : D.Enlarges h options f)
    {data : List UInt8} {k k' : Nat} (hF : VarFrameCodes h data k k' f F) {st : DecodeState} (hlf : st.lf.length = 5) (hc : FloatCanvas h w st.store) {s : BR} {p0 : Nat}
    (hs : AtBit s p0) (hp0 : nextByte p0 = k) (hdata : s.data = data) :
    ∃ v st' s' q, F.ShowsGrown A h f cos B V.scale V.pow V.quant V.filters.stepMultiplier matrix v ∧ decodeRound D h matrix st s = (.ok (st', f.isLast), s') ∧ st'.lf.length = 5 ∧
      FloatCanvas h (putFloatsOn f.moved v w) st'.store ∧
      (∃ l, st'.store.slices[st'.store.canvas]? = some l ∧ FloatsShow (channelCount h) h.size (putFloatsOn f.moved v w) l) ∧ AtBit s' q ∧ nextByte q = k' ∧ s'.data = data := by
  obtain ⟨weights, hwt⟩ := hwt
  obtain ⟨hr, l, b, lengths, s1, j, e1, hlen, hS, a1, d1⟩ := varFront_ok hv.width hv.height hL.toVarCoded hF hlf hs hp0 hdata
  obtain ⟨P, lfb, hDb⟩ := hD b
  obtain ⟨out, s2, q, e2, hb, a2, hq, d2⟩ := varData_ok A V P D.impl.toFloatImpl lfb hV hL.toVarCoded hwt (l := l) hlen hS a1 d1
  obtain ⟨hlen3, ⟨coded, hcoded, hfil⟩, hbs, hbt, hbx⟩ := hb
  have hfil' := hfil
  obtain ⟨_, _, _, _, hafter⟩ := hfil'
  have hcc : channelCount h = 3 + h.extra.length := by rw [← hL.colours]; rfl
  have hfc : frameColourCount h f.encoding = h.colourCount := by
    unfold frameColourCount
    rw [hL.plain.encoding, hL.colours]
    cases h.xyb <;> rfl
  have hblk := blocksOf_whole hL.whole
  have hbw : 8 * ((f.size.width + 7) / 8) = f.size.width := congrArg Dim.width hblk
  have hbh : 8 * ((f.size.height + 7) / 8) = f.size.height := congrArg Dim.height hblk
  have hin : out.length = channelCount h ∧ ∀ c, c < channelCount h → ∃ b, out[c]? = some b ∧ b.Picture f.size.height f.size.width ∧
      ∀ y x, y < f.size.height → x < f.size.width → px (depth h c) b y x = F.small h ((out.take 3).map ImageBuffer.floats) c y x := by
    refine ⟨by rw [hlen3, hcc], fun c hc => ?_⟩
    by_cases h3 : c < 3
    · have hlen : (out.take 3).length = 3 := by have := hafter.1; rwa [List.length_map] at this
      have hb0 := List.getElem?_eq_getElem (show c < (out.take 3).length by omega)
      generalize (out.take 3)[c]'(by omega) = b0 at hb0
      have hb1 : ((out.take 3).map ImageBuffer.floats)[c]? = some b0.floats := by rw [List.getElem?_map, hb0]; rfl
      obtain ⟨ht, -⟩ := hafter.2 c _ hb1
      have t1 := hbt b0 (List.mem_of_getElem? hb0)
      obtain ⟨t2, t3⟩ := hbs b0 (List.mem_of_mem_take (List.mem_of_getElem? hb0))
      rw [hbw] at t2
      rw [hbh] at t3
      rw [hbw, hbh] at ht
      refine ⟨b0, by rw [List.getElem?_take_of_lt h3] at hb0; exact hb0, Or.inr ⟨t1, t3, t2, ht⟩, fun y x hy hx => ?_⟩
      unfold px value CodedFrame.small
      rw [if_neg (by rw [t1]; decide), if_pos h3, List.getD_eq_getElem?_getD, hb1, Option.getD_some]
    · obtain ⟨b, e, p, q⟩ := hbx (c - 3) (by omega)
      rw [hbw, hbh] at p
      refine ⟨b, by rw [show 3 + (c - 3) = c by omega] at e; exact e, Or.inl p, fun y x hy hx => ?_⟩
      unfold px value CodedFrame.small
      rw [if_pos p.1, if_neg h3, q y x hy hx]
      rfl
  obtain ⟨big, e4, hbig⟩ := growFloats_ok hL.toGrownPlace ⟨hL.plain.framed.height.1, hL.plain.framed.width.1⟩ hfc hv hu hr.ecUpsampling hin options hO
  have hplane : FloatsShow 3 f.moved.size (enlargedFloats h f (F.small h ((out.take 3).map ImageBuffer.floats))) (big.take 3) := by
    refine ⟨by rw [List.length_take, hbig.1]; omega, fun c hc => ?_⟩
    obtain ⟨b, e, p⟩ := hbig.2 c (by omega)
    exact ⟨b, by rw [List.getElem?_take_of_lt hc]; exact e, p⟩
  obtain ⟨bufs, e6, hdrop, hbufs⟩ := coloursAt_ok (matrix := matrix) (h := h) (fun o ho => imageMatrix_shape hL.plain.opsin (by rw [hm, ho])) (varGrown_plain hL) hplane
  have e3 : keepLF f out st.lf = .ok st.lf := by
    unfold keepLF
    rw [if_neg (by rw [hr.lfLevel]; omega)]
  have hall : FloatsShow (channelCount h) f.moved.size (fun c y x => if hc : c < 3 then
      pixelColour matrix (F32.round h.tone.intensityTarget) f.doYCbCr (fun i => enlargedFloats h f (F.small h ((out.take 3).map ImageBuffer.floats)) i y x) ⟨c, hc⟩
      else enlargedFloats h f (F.small h ((out.take 3).map ImageBuffer.floats)) c y x) bufs := by
    have hbl : bufs.length = channelCount h := by
      have t1 := hbufs.1
      have t2 := congrArg List.length hdrop
      rw [List.length_take] at t1
      rw [List.length_drop, List.length_drop, hbig.1] at t2
      omega
    refine ⟨hbl, fun c hc => ?_⟩
    by_cases h3 : c < 3
    · obtain ⟨b, e, p, q⟩ := hbufs.2 c h3
      refine ⟨b, by rw [List.getElem?_take_of_lt h3] at e; exact e, p, fun y x hy hx => ?_⟩
      rw [q y x hy hx]
      dsimp only
      rw [dif_pos h3, dif_pos h3]
    · obtain ⟨b, e, p, q⟩ := hbig.2 c hc
      refine ⟨b, ?_, p, fun y x hy hx => ?_⟩
      · have := congrArg (fun l => l[c - 3]?) hdrop
        rw [List.getElem?_drop, List.getElem?_drop, show 3 + (c - 3) = c by omega, e] at this
        exact this
      · rw [q y x hy hx]
        beta_reduce
        rw [dif_neg h3]
  obtain ⟨s3, l', e5, r3, c3, p3⟩ := composeGrown_ok D.impl hL.toShownPlace hfc hr hv hal hc e6 hall
  refine ⟨_, ⟨s3, st.lf⟩, s2, q, ⟨weights, coded, (out.take 3).map ImageBuffer.floats, hwt, hcoded, hfil, ?_, ?_⟩, ?_, hlf, ⟨r3, Or.inr ⟨l', c3, p3⟩⟩, ⟨l', c3, p3⟩, a2, hq, d2⟩
  · intro c y x _ _
    rw [dif_pos c.2]
  · intro c y x hc _ _ _
    rw [dif_neg (by omega)]
  · unfold decodeRound
    rw [Rd.bind_ok e1]
    dsimp only
    rw [hDb, Rd.bind_ok e2, e3, Rd.bind_ok (lift_ok rfl _), if_neg (by have := hL.toVarCoded.regular; omega), e4, Rd.bind_ok (lift_ok rfl _), e5, Rd.bind_ok (lift_ok rfl _)]
    rfl

/-- Every frame shows its picture, made larger. -/
def AllShowGrown (A : Arith F32) (h : ImageHeader) (cos : Nat → Nat → Nat → F32) (B : Nat → Nat → F32) (V : VarParts F32) (matrix : Option (Opsin F32)) (place : FrameHeader → FrameHeader)
    (frames : List (FrameHeader × CodedFrame)) (pics : List (FrameHeader × FloatPic)) : Prop :=
  List.Forall₂ (fun x p => p.1 = place x.1 ∧ x.2.ShowsGrown A h x.1 cos B V.scale V.pow V.quant V.filters.stepMultiplier matrix p.2) frames pics

theorem varGrownRounds_ok {D : DecodeParts} {A : Arith F32} {V : VarParts F32} (hD : ComputesIn D A V) {cos : Nat → Nat → Nat → F32} {B : Nat → Nat → F32} (hV : V.Ok cos B) {h : ImageHeader}
    (hv : Viewable h) (hal : h.alphaIndices = alphaChannels h.extra) (hu : WeightsStated h) {matrix : Option (Opsin F32)}
    (hm : imageMatrix D.cbrt h = .ok matrix) {options : Option Int} {data : List UInt8} :
    ∀ (frames : List (FrameHeader × CodedFrame)) (fuel k : Nat) (w : FloatPic) (st : DecodeState) (s : BR) (p0 : Nat), frames ≠ [] → frames.length ≤ fuel →
      (∀ x ∈ frames, GrownVarLayer h x.1 x.2) → (∀ x ∈ frames, ∃ weights, allWeights V.quant x.2.params 0 = .ok weights) → (∀ x ∈ frames, D.Enlarges h options x.1) →
      VarFramesAt h data k frames → st.lf.length = 5 → FloatCanvas h w st.store → AtBit s p0 → nextByte p0 = k → s.data = data →
      ∃ pics st' s' q, AllShowGrown A h cos B V matrix FrameHeader.moved frames pics ∧ decodeRounds D h matrix fuel st s = (.ok st', s') ∧
        (∃ l, st'.slices[st'.canvas]? = some l ∧ FloatsShow (channelCount h) h.size (pics.foldl (fun w x => putFloatsOn x.1 x.2 w) w) l) ∧ AtBit s' q ∧ s'.data = data := by
  intro frames
  induction frames with
  | nil => intro _ _ _ _ _ _ hne; exact absurd rfl hne
  | cons x xs ih =>
    intro fuel k w st s p0 _ hfu hL hwt hO hF hlf hc hs hp hd
    obtain ⟨n, rfl⟩ : ∃ n, fuel = n + 1 := ⟨fuel - 1, by rw [List.length_cons] at hfu; omega⟩
    obtain ⟨k', hF1, hlast, hF2⟩ := hF
    obtain ⟨v, st1, s1, q, sh, e1, l1, c1, c1', a1, q1, d1⟩ := varGrownRound_ok hD hV hv hal hu hm (hL x List.mem_cons_self) (hwt x List.mem_cons_self) (hO x List.mem_cons_self) hF1 hlf hc
      hs hp hd
    unfold decodeRounds
    rw [Rd.bind_ok e1]
    cases hx : xs with
    | nil =>
      rw [hlast, hx]
      exact ⟨[(x.1.moved, v)], st1.store, s1, q, .cons ⟨rfl, sh⟩ .nil, rfl, c1', a1, d1⟩
    | cons y ys =>
      rw [hlast, hx]
      dsimp only [List.isEmpty_cons]
      rw [if_neg (by simp)]
      obtain ⟨pics, st2, s2, q2, all, e2, c2, a2, d2⟩ := ih n k' _ st1 s1 q (by rw [hx]; simp) (by rw [List.length_cons] at hfu; omega)
        (fun z hz => hL z (List.mem_cons_of_mem _ hz)) (fun z hz => hwt z (List.mem_cons_of_mem _ hz)) (fun z hz => hO z (List.mem_cons_of_mem _ hz)) hF2 l1 c1 a1 q1 d1
      rw [hx] at all
      exact ⟨(x.1.moved, v) :: pics, st2, s2, q2, .cons ⟨rfl, sh⟩ all, e2, c2, a2, d2⟩

/-- The decoder on such a file: the image, and how it was made. -/
theorem grownFile_ok {D : DecodeParts} {A : Arith F32} {V : VarParts F32} (hD : ComputesIn D A V) {cos : Nat → Nat → Nat → F32} {B : Nat → Nat → F32} (hV : V.Ok cos B) {file : List UInt8}
    {h : ImageHeader} {frames : List (FrameHeader × CodedFrame)} (hf : GrownVarFile file h frames) (hwt : ∀ x ∈ frames, ∃ weights, allWeights V.quant x.2.params 0 = .ok weights)
    {matrix : Option (Opsin F32)} (hm : imageMatrix D.cbrt h = .ok matrix) {options : Option Int} (hO : ∀ x ∈ frames, D.Enlarges h options x.1) {fuel : Nat} (hfu : frames.length ≤ fuel) (procs : Int) :
    StatedHeader h ∧ ∃ img s' pics enc, coreDecode D fuel procs none (BR.new file) = (.ok (some img), s') ∧ AllShowGrown A h cos B V matrix FrameHeader.moved frames pics ∧ Made img img.buffers h ∧ newJXLImage img.buffers h enc = .ok img ∧
      ShowsFloatsTurned (channelCount h) h.orientation h.size (layeredFloats pics) img.buffers := by
  obtain ⟨k, k', level, profile, hcs, hh, hF, hpr⟩ := hf.stored
  have hv := hf.viewable
  obtain ⟨s0, box, e0, hbox, d0, i0, hlev⟩ := boxes_ok hcs
  have hS : StatedHeader h := by
    obtain ⟨p, q, hd, -⟩ := hh
    exact yields_imageHeader level _ _ _ hd.2
  have hu : WeightsStated h := by
    obtain ⟨p, q, hd, -⟩ := hh
    exact weights_stated (yields_upWeights level _ _ _ hd.2)
  have hk : k < file.length := by
    obtain ⟨p, q, hd, -⟩ := hh
    exact imageHeader_inside hd.2
  have hk' : k' < file.length := by
    obtain ⟨x, xs, rfl⟩ := List.exists_cons_of_ne_nil hf.some
    obtain ⟨j, ⟨p, q, lengths, -, hd, -⟩, -⟩ := hF
    exact frameHeader_inside hd.2
  obtain ⟨s1, e1, a1, d1⟩ := headerAt_ok hlev hh hk i0 d0
  have hcv : FloatCanvas h (fun _ _ _ => .fin 0) (newState h).store := ⟨rfl, Or.inl ⟨rfl, rfl⟩⟩
  obtain ⟨pics, st, s2, q, all, e2, c2, a2, d2⟩ := varGrownRounds_ok hD hV hv hS.alphas hu hm frames fuel k' _ (newState h) s1 (8 * k') hf.some hfu hf.layers hwt hO hF rfl hcv a1
    (by unfold nextByte; omega) d1
  obtain ⟨l, hl, hlw⟩ := c2
  obtain ⟨img, s3, e3, m3, n3, t3⟩ := finishFloats_ok hv.width hv.height hS (enc := profile.map fun e => e.map UInt8.ofNat) (by
    unfold imageProfile
    cases hx : h.xyb with
    | true => exact ⟨_, rfl⟩
    | false =>
      cases profile with
      | none => exact ⟨_, rfl⟩
      | some e =>
        obtain ⟨icc, hp⟩ := hpr hx e rfl
        refine ⟨(h.colour.tf, some icc), ?_⟩
        show (do let p ← getDecodedICC (e.map UInt8.ofNat); Res.ok (h.colour.tf, some p)) = _
        rw [profile_decodes hp]
        rfl) hl hlw a2
  refine ⟨hS, img, s3, pics, _, ?_, all, m3, n3, t3⟩
  show decodeFile D false fuel (BR.new file) = _
  unfold decodeFile
  rw [Rd.bind_ok e0]
  dsimp only
  rw [show idx [box] 0 = .ok box from rfl, Rd.bind_ok (lift_ok rfl _), hbox, Rd.bind_ok e1]
  dsimp only
  unfold decodeFrames
  rw [hv.noPreview]
  rw [if_neg (by simp)]
  rw [hm, Rd.bind_ok (lift_ok rfl _), Rd.bind_ok (show seekFrames [box] s1 = (.ok (), s1) from rfl)]
  rw [C03_atEnd _ _ a1, show decide (8 * k' = 8 * s1.data.length) = false from decide_eq_false (by rw [d1]; omega)]
  dsimp only
  rw [if_neg (by simp), Rd.bind_ok e2, Rd.bind_ok e3]
  rfl

/-- **C105**, what the code does: the image has the pictures of its VarDCT frames, made larger, one on top of the other, in the colours that the header asks for, turned as the header
says. This holds for any number of goroutines and any order of their steps. The corner of a frame is at a multiple of where the header puts it. -/
theorem C105_layers {D : DecodeParts} {A : Arith F32} {V : VarParts F32} (hD : ComputesIn D A V) {cos : Nat → Nat → Nat → F32} {B : Nat → Nat → F32} (hV : V.Ok cos B) {file : List UInt8}
    {h : ImageHeader} {frames : List (FrameHeader × CodedFrame)} (hf : GrownVarFile file h frames) (hwt : ∀ x ∈ frames, ∃ weights, allWeights V.quant x.2.params 0 = .ok weights)
    {matrix : Option (Opsin F32)} (hm : imageMatrix D.cbrt h = .ok matrix) {options : Option Int} (hO : ∀ x ∈ frames, D.Enlarges h options x.1) {fuel : Nat} (hfu : frames.length ≤ fuel) (procs : Int) :
    ∃ img s' pics, coreDecode D fuel procs none (BR.new file) = (.ok (some img), s') ∧ AllShowGrown A h cos B V matrix FrameHeader.moved frames pics ∧ Made img img.buffers h ∧
      ShowsFloatsTurned (channelCount h) h.orientation h.size (layeredFloats pics) img.buffers := by
  obtain ⟨-, img, s', pics, -, e, all, m, -, t⟩ := grownFile_ok hD hV hf hwt hm hO hfu procs
  exact ⟨img, s', pics, e, all, m, t⟩

/-- C105, as seen through the package: the bytes of the Go image of such a file with 8-bit samples, with the place where the decoder puts the frames. -/
theorem C105_pixels_partial (curve : Nat → F32 → F32) {D : DecodeParts} {A : Arith F32} {V : VarParts F32} (hD : ComputesIn D A V) {cos : Nat → Nat → Nat → F32} {B : Nat → Nat → F32} (hV : V.Ok cos B) {file : List UInt8}
    {h : ImageHeader} {frames : List (FrameHeader × CodedFrame)} (hf : GrownVarFile file h frames) (hwt : ∀ x ∈ frames, ∃ weights, allWeights V.quant x.2.params 0 = .ok weights)
    {matrix : Option (Opsin F32)} (hm : imageMatrix D.cbrt h = .ok matrix) {options : Option Int} (hO : ∀ x ∈ frames, D.Enlarges h options x.1) {fuel : Nat} (hfu : frames.length ≤ fuel) (procs : Int)
    (h8 : OrdinaryFloats h) (peeks : Bool) :
    ∃ px pics, readerDecode D curve fuel procs ⟨file, true, peeks⟩ = .ok px ∧ AllShowGrown A h cos B V matrix FrameHeader.moved frames pics ∧
      PixelsShow D.impl.toFloatImpl curve h (layeredFloats pics) px := by
  obtain ⟨hS, img, s', pics, enc, e, all, -, hn, t⟩ := grownFile_ok hD hV hf hwt hm hO hfu procs
  obtain ⟨px, e1, e2⟩ := floatPixels_of curve hS e hn t h8 peeks
  exact ⟨px, pics, e1, all, e2⟩

/-- **C105**, in part (the frames start at the upper left corner of the image, are of whole blocks, and replace what they cover; all channels have the same factor; the image is not gray; what `C94_image_partial` leaves out): the image has
the pictures of its VarDCT frames, made larger, one on top of the other. -/
theorem C105_image_partial {D : DecodeParts} {A : Arith F32} {V : VarParts F32} (hD : ComputesIn D A V) {cos : Nat → Nat → Nat → F32} {B : Nat → Nat → F32} (hV : V.Ok cos B) {file : List UInt8}
    {h : ImageHeader} {frames : List (FrameHeader × CodedFrame)} (hf : GrownVarFile file h frames) (hwt : ∀ x ∈ frames, ∃ weights, allWeights V.quant x.2.params 0 = .ok weights)
    (h0 : ∀ x ∈ frames, x.1.x0 = 0 ∧ x.1.y0 = 0)
    {matrix : Option (Opsin F32)} (hm : imageMatrix D.cbrt h = .ok matrix) {options : Option Int} (hO : ∀ x ∈ frames, D.Enlarges h options x.1) {fuel : Nat} (hfu : frames.length ≤ fuel) (procs : Int) :
    ∃ img s' pics, coreDecode D fuel procs none (BR.new file) = (.ok (some img), s') ∧ AllShowGrown A h cos B V matrix FrameHeader.grown frames pics ∧ Made img img.buffers h ∧
      ShowsFloatsTurned (channelCount h) h.orientation h.size (layeredFloats pics) img.buffers := by
  obtain ⟨img, s', pics, e, all, m, t⟩ := C105_layers hD hV hf hwt hm hO hfu procs
  refine ⟨img, s', pics, e, ?_, m, t⟩
  have hmv : ∀ x ∈ frames, x.1.moved = x.1.grown := by
    intro x hx
    obtain ⟨e1, e2⟩ := h0 x hx
    obtain ⟨f, v⟩ := x
    cases f
    dsimp only at e1 e2
    subst e1 e2
    simp [FrameHeader.moved, FrameHeader.grown]
  clear hf hwt h0 hO hfu t e
  unfold AllShowGrown at all ⊢
  induction all with
  | nil => exact .nil
  | cons hx _ ih => exact .cons ⟨hx.1.trans (hmv _ List.mem_cons_self), hx.2⟩ (ih fun z hz => hmv z (List.mem_cons_of_mem _ hz))

/-! ## Examples -/

/-- The file of the example of C94 with an image of 528 by 16 pixels, and a frame of 264 by 8 pixels that is made larger by two. -/
def grownWide : List UInt8 := [255, 10, 120, 128, 30, 196, 224, 91, 19, 8, 0, 56, 64, 7, 24, 0, 3, 8, 0] ++ wideData

def grownWideHeader : ImageHeader := { wideHeader with size := ⟨528, 16⟩, orientedSize := ⟨528, 16⟩ }

def grownLast : FrameHeader := { wideLast with upsampling := 2 }

theorem grownLast_layer (tree codes : ES) : GrownVarLayer grownWideHeader grownLast (wideCoded tree codes) where
  plain := { (wideLast_layer tree codes).plain with framed := { (wideLast_layer tree codes).plain.framed with } }
  coded := { (wideLast_layer tree codes).coded with }
  regular := .inl rfl
  size := by decide
  groups := by decide
  streams := by decide
  scale := by decide
  factor := ⟨by decide, by intro u hu; cases hu⟩
  small := by decide
  replace := ⟨rfl, by intro b hb; cases hb⟩
  place := .inl ⟨by decide, by decide⟩
  meets := by decide
  colours := rfl
  whole := by decide

theorem grownWide_coded : ∃ tree codes, VarFrameCodes grownWideHeader grownWide 6 82 grownLast (wideCoded tree codes) := by
  obtain ⟨tree, codes, h⟩ := wide_at
  have hsec : ∀ i : Fin 5, wideSection i = storedSection (grownWide.drop 19) [14, 29, 6, 12, 2] i ++ [0, 0, 0, 0] := by decide
  have h' : VarDCTAt tinyImage (wideCoded tree codes) wideFrame (fun i => storedSection (grownWide.drop 19) [14, 29, 6, 12, 2] i ++ [0, 0, 0, 0]) (fun _ => 0) wideStop := by
    refine ⟨?_, h.channels, h.range, ?_, ?_, ?_⟩
    · have := h.global
      rwa [show wideSection 0 = _ from hsec 0] at this
    · intro i hi
      obtain rfl : i = 0 := by
        have : i < 1 := hi
        omega
      have := h.lf 0 hi
      rwa [show wideSection (1 + 0) = _ from hsec 1] at this
    · have := h.hf
      rwa [show wideSection (1 + varLFGroups wideFrame) = _ from hsec 2] at this
    · intro g hg
      have hg2 : g < 2 := hg
      have := h.groups g hg
      rcases (by omega : g = 0 ∨ g = 1) with rfl | rfl
      · rwa [show wideSection (2 + varLFGroups wideFrame + 0) = _ from hsec 3] at this
      · rwa [show wideSection (2 + varLFGroups wideFrame + 1) = _ from hsec 4] at this
  refine ⟨tree, codes, 86, 148, [14, 29, 6, 12, 2], ⟨by decide, by decide +kernel⟩, ⟨by decide, by decide +kernel⟩, ⟨by decide, by decide +kernel⟩, ⟨by decide, by decide +kernel⟩, ?_⟩
  unfold VarSectionsCode
  rw [if_neg (by decide)]
  exact ⟨wideStop, ⟨h'.global, h'.channels, h'.range, h'.lf, h'.hf, h'.groups⟩, by decide, by decide, by decide⟩

theorem grownWide_file : ∃ tree codes, GrownVarFile grownWide grownWideHeader [(grownLast, wideCoded tree codes)] := by
  obtain ⟨tree, codes, h⟩ := grownWide_coded
  refine ⟨tree, codes, ⟨0, 6, 5, none, .inl ⟨rfl, rfl, by decide, by decide⟩, ⟨48, 48, ⟨by decide, by decide +kernel⟩, rfl, rfl, rfl⟩, ⟨82, h, rfl, trivial⟩, ?_⟩, ⟨rfl, by decide, by decide, by decide⟩,
    by simp, ?_⟩
  · intro hx
    cases hx
  · intro x hx
    rw [List.mem_singleton.mp hx]
    exact grownLast_layer tree codes

theorem grownWideHeader_matrix (cbrt : F32 → F32) : ∃ o, imageMatrix cbrt grownWideHeader = .ok (some o) := by
  have hc : conversionMatrix grownWideHeader.colour.primXY.primaries grownWideHeader.colour.whiteXY.xy priSRGB.primaries wpD65.xy = .ok (some (matrixIdentity 3)) := if_pos (by decide +kernel)
  have h1 : Is3 opsinMatrixDefault := ⟨_, _, _, _, _, _, _, _, _, rfl⟩
  obtain ⟨m, e, -⟩ := mulOpt_shape (l := some (matrixIdentity 3)) (by intro m hm; cases hm; exact identity_shape) h1
  refine ⟨⟨m, opsinBiasDefault, opsinBiasDefault.map cbrt, grownWideHeader.colour.primXY.primaries, grownWideHeader.colour.whiteXY.xy⟩, ?_⟩
  unfold imageMatrix
  rw [if_pos (by rfl : grownWideHeader.xyb = true)]
  show (Opsin.forColours cbrt ⟨opsinMatrixDefault, opsinBiasDefault, opsinBiasDefault.map cbrt, priSRGB.primaries, wpD65.xy⟩ grownWideHeader.colour.primXY.primaries grownWideHeader.colour.whiteXY.xy >>=
    fun m => Res.ok (some m)) = _
  unfold Opsin.forColours
  dsimp only
  rw [hc, Res.bind_ok, matrixMultiply, e, Res.bind_ok]
  rfl

/-- The hypotheses of `C105_image_partial` are met, for any number of goroutines that run one after the other. -/
example (D : DecodeParts) (P : FrameParts) (options : Option Int) (hD : D.orders = fun f _ => (upWorkers f.size.height f.size.width f.upsampling options).flatten) :
    ∃ img s', decodeFile { D with frames := fun _ => P.withVarDCT inferInstance zeroParts D.impl.toFloatImpl [] } false 1 (BR.new grownWide) = (.ok (some img), s') ∧
      img.buffers.length = 3 ∧ ∀ b ∈ img.buffers, b.FloatPicture 16 528 := by
  obtain ⟨tree, codes, h⟩ := grownWide_file
  obtain ⟨weights, hw⟩ := flat_weights
  obtain ⟨o, ho⟩ := grownWideHeader_matrix D.cbrt
  obtain ⟨img, s', pics, h1, -, -, rs, cs, h2, h3, h4⟩ := C105_image_partial (D := { D with frames := fun _ => P.withVarDCT inferInstance zeroParts D.impl.toFloatImpl [] })
    (A := inferInstance) (V := zeroParts) (fun b => ⟨P, [], rfl⟩) zeroParts_ok h (by
      intro x hx
      rw [List.mem_singleton.mp hx]
      exact ⟨weights, hw⟩) (fun x hx => by rw [List.mem_singleton.mp hx]; exact ⟨rfl, rfl⟩) ho (options := options)
    (fun x hx c _ => by
      show Interleaving _ (D.orders x.1 c)
      rw [hD]
      exact Interleaving.sequential _ _ rfl) (fuel := 1) (Nat.le_refl 1) 1
  refine ⟨img, s', h1, h3, fun b hb => ?_⟩
  obtain ⟨c, hc, rfl⟩ := List.getElem_of_mem hb
  obtain ⟨b', h5, h6, -⟩ := h4 c (by rw [← h3]; exact hc)
  rw [List.getElem?_eq_getElem hc] at h5
  cases h2
  exact Option.some.inj h5 ▸ h6

/-- The hypotheses of `C105_pixels_partial` are met. -/
example (D : DecodeParts) (P : FrameParts) (curve : Nat → F32 → F32) (options : Option Int) (hD : D.orders = fun f _ => (upWorkers f.size.height f.size.width f.upsampling options).flatten) (procs : Int) :
    ∃ px, readerDecode { D with frames := fun _ => P.withVarDCT inferInstance zeroParts D.impl.toFloatImpl [] } curve 1 procs ⟨grownWide, true, false⟩ = .ok px ∧
      px.gray = false ∧ px.width = 528 ∧ px.height = 16 := by
  obtain ⟨tree, codes, h⟩ := grownWide_file
  obtain ⟨weights, hw⟩ := flat_weights
  obtain ⟨o, ho⟩ := grownWideHeader_matrix D.cbrt
  obtain ⟨px, pics, h1, -, planes, h2, h3, h4, -⟩ := C105_pixels_partial (D := { D with frames := fun _ => P.withVarDCT inferInstance zeroParts D.impl.toFloatImpl [] }) curve
    (A := inferInstance) (V := zeroParts) (fun b => ⟨P, [], rfl⟩) zeroParts_ok h (by
      intro x hx
      rw [List.mem_singleton.mp hx]
      exact ⟨weights, hw⟩) ho (options := options)
    (fun x hx c _ => by
      show Interleaving _ (D.orders x.1 c)
      rw [hD]
      exact Interleaving.sequential _ _ rfl) (fuel := 1) (Nat.le_refl 1) procs ⟨rfl, by unfold Ordinary; decide, .inl rfl, .inl rfl⟩ false
  exact ⟨px, h1, h2, h3, h4⟩

end Jxl
