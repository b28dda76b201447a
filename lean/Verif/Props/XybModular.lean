import Verif.Spec.XybModular
import Verif.Props.VarDCTEnlarged
import Verif.Props.CollageWitness

/-! # C106: files with modular frames in XYB -/
namespace Jxl
open Spec

theorem xyb_count {h : ImageHeader} {f : FrameHeader} {v : Pic} (hL : XybLayer h f v) : channelCount h = 3 ∧ frameColourCount h f.encoding = 3 ∧ h.colourCount = 3 := by
  refine ⟨?_, ?_, ?_⟩
  · unfold channelCount
    rw [if_neg hL.colours, hL.extra]
    rfl
  · unfold frameColourCount
    rw [hL.xyb]
    rfl
  · exact if_neg hL.colours

theorem xyb_padded {h : ImageHeader} {f : FrameHeader} {v : Pic} (hL : XybLayer h f v) {d : Dim} (hw : 0 < d.width ∧ d.width ≤ 2 ^ 30) (hh : 0 < d.height ∧ d.height ≤ 2 ^ 30) :
    paddedFrameSize { f with size := d } = .ok d := by
  unfold paddedFrameSize
  dsimp only
  rw [hL.modular, hL.jpegX, hL.jpegY]
  rw [show maxList [0, 0, 0] = 0 from rfl, show ((1 : Nat) == 0) = false from rfl, plain_side hh.1 hh.2, Res.bind_ok, plain_side hw.1 hw.2, Res.bind_ok]

theorem xyb_sizes {h : ImageHeader} {f : FrameHeader} {v : Pic} (hL : XybLayer h f v) : (0 < f.size.width ∧ f.size.width ≤ 2 ^ 30) ∧ 0 < f.size.height ∧ f.size.height ≤ 2 ^ 30 := by
  have h1 := hL.framed.width.1
  have h2 := hL.framed.height.1
  have h3 := hL.small
  omega

/-- An empty float plane. -/
def emptyFloats (size : Dim) : ImageBuffer := ⟨size.width, size.height, 1, List.replicate size.height (List.replicate size.width (.fin 0)), []⟩

theorem xyb_planes {h : ImageHeader} {f : FrameHeader} {v : Pic} (hL : XybLayer h f v) : framePlanes h f = .ok (List.replicate 3 (emptyFloats f.size)) := by
  obtain ⟨hw, hh⟩ := xyb_sizes hL
  have hc := (xyb_count hL).2.1
  have hpl : ∀ c, c < 3 → newPlane h f f.size c = .ok (emptyFloats f.size) := by
    intro c h3
    have ht : planeIsFloat h f c = .ok true := by
      unfold planeIsFloat
      rw [hc, if_pos h3, hL.xyb]
      rfl
    have hd : planeDim h f f.size c = .ok f.size := by
      unfold planeDim
      rw [hc, if_pos ⟨h3, h3⟩, hL.jpegX, hL.jpegY]
      have e : ([0, 0, 0] : List Nat)[c]? = some 0 := by
        rcases (by omega : c = 0 ∨ c = 1 ∨ c = 2) with rfl | rfl | rfl <;> rfl
      rw [idx_nat e, Res.bind_ok, Res.bind_ok]
      rfl
    unfold newPlane
    rw [hd, Res.bind_ok, ht, Res.bind_ok, if_pos rfl, i32_ofNat (by omega), i32_ofNat (by omega)]
    unfold newImageBuffer
    rw [if_neg (by omega), if_neg (by omega), if_neg (by decide), makeMatrix_table, Res.bind_ok]
    rfl
  unfold framePlanes
  rw [show paddedFrameSize f = .ok f.size from xyb_padded hL hw hh, Res.bind_ok, hc, hL.extra]
  show newPlanes h f f.size 3 0 = _
  rw [newPlanes, hpl 0 (by decide), Res.bind_ok, newPlanes, hpl 1 (by decide), Res.bind_ok, newPlanes, hpl 2 (by decide), Res.bind_ok]
  rfl

/-- The samples become the planes. -/
theorem xyb_finish (P : FrameParts) (I : FloatImpl) {h : ImageHeader} {f : FrameHeader} {v : Pic} (hL : XybLayer h f v) {deq : List ℚ} (hq : ∃ a b c, deq = [a, b, c]) {res : List MChan}
    (hr : res.map MChan.toChan = (imageChannels (channelCount h) f.size v).map MChan.toChan) :
    ∃ mid out, storeModular I h f (deq.map F32.fin) (res.map fun c => c.buffer) (List.replicate 3 (emptyFloats f.size)) = .ok mid ∧ finishPlanes P h f mid = .ok out ∧
      FloatsShow 3 f.size (xybPlanes deq v) out := by
  obtain ⟨a, b, c, rfl⟩ := hq
  obtain ⟨hcc, hfc, -⟩ := xyb_count hL
  obtain ⟨m1, m2⟩ := imageChannels_holds (channelCount h) f.size v ⟨hL.framed.height.1, hL.framed.width.1⟩ hr
  rw [hcc] at m1
  have hmc : modularColours h f = 3 := by
    unfold modularColours
    rw [hL.modular, hL.xyb]
    simp
  obtain ⟨out, e1, e2, -, e4⟩ := C80_planes_partial I (h := h) (f := f) (Or.inr hL.modular) (mods := res.map fun c => c.buffer) (bufs := List.replicate 3 (emptyFloats f.size)) (v := v)
    (fun k => .fin ([a, b, c].getD k 0)) (by rw [hfc, hL.extra]; rfl) (by rw [m1]; unfold globalChannels; rw [hmc, hL.extra]; rfl) (fun _ => by rw [hmc, hfc]) m2
    (by
      intro b hb
      rw [(List.mem_replicate.mp hb).2]
      exact Or.inr ⟨rfl, f.size.height, f.size.width, table_replicate _ _ _, le_refl _, le_refl _⟩)
    (by
      intro _ _ c b _ hb
      rw [(List.mem_replicate.mp (List.mem_of_getElem? hb)).2]
      rfl)
  refine ⟨out, out, e1, ?_, by rw [e2]; rfl, fun i hi => ?_⟩
  · unfold finishPlanes
    rw [hL.jpegX, hL.jpegY, notSubsampled]
    dsimp only
    unfold applyFilters
    rw [hL.filters.1, hL.filters.2]
    rfl
  · have key : ∀ k, k < 3 → planeFor 3 true true k = i → ∃ p, out[i]? = some p ∧ p.FloatPicture f.size.height f.size.width ∧
        ∀ y x, y < f.size.height → x < f.size.width → sample p.floats y x = some (F32.mul (.fin ([a, b, c].getD i 0)) (F32.ofInt (if k = 2 then v 0 y x + v 2 y x else v k y x))) := by
      intro k hk hki
      obtain ⟨p, p', g1, g2, g3, -, g5⟩ := e4 k (by rw [m1]; exact hk)
      rw [hfc, hL.xyb, hL.modular, show ((1 : Nat) == 1) = true from rfl, hki] at g1 g2
      have ep := (List.mem_replicate.mp (List.mem_of_getElem? g1)).2
      obtain ⟨t1, t2, t3, -, t5⟩ := g3
      refine ⟨p', g2, ⟨by rw [t1, ep]; rfl, by rw [t2, ep]; rfl, by rw [t3, ep]; rfl, t5 _ _ (by rw [ep]; exact table_replicate _ _ _)⟩, fun y x hy hx => ?_⟩
      have := g5 ⟨hL.xyb, hL.modular, hk⟩ hL.samples y x
      rw [this, if_pos ⟨hy, hx⟩, hki]
    rcases (by omega : i = 0 ∨ i = 1 ∨ i = 2) with rfl | rfl | rfl
    · exact key 1 (by decide) rfl
    · exact key 0 (by decide) rfl
    · exact key 2 (by decide) rfl

/-- A modular frame in XYB decodes to its planes. -/
theorem xybData_ok (P : FrameParts) (I : FloatImpl) {h : ImageHeader} {f : FrameHeader} {v : Pic} {deq : List ℚ} (hL : XybLayer h f v) (hr : RegularHeader h.extra.length f) {l : Layout}
    (hl : frameLayout f = .ok l) {lengths : List Nat} (hlen : lengths.length = sectionCount f) {data : List UInt8} {k k' : Nat} (hS : SectionsCodeWith h f lengths data k k' v deq)
    {s : BR} (hs : AtBit s (8 * k)) (hdata : s.data = data) :
    ∃ out s' q, decodeFrame P I h f l ⟨none, lengths⟩ s = (.ok out, s') ∧ FloatsShow 3 f.size (xybPlanes deq v) out ∧ AtBit s' q ∧ nextByte q = k' ∧ s'.data = data := by
  obtain ⟨hw, hh⟩ := xyb_sizes hL
  have hfl : refusedFlags f.flags = false := by
    unfold refusedFlags
    rw [hL.flags.1, hL.flags.2.1, hL.flags.2.2.1]
    rfl
  have hbl : (imageChannels (channelCount h) f.size v).map MChan.blank = globalBlanks h f := by
    refine blank_core ?_ (fun e he => by rw [hL.extra] at he; cases he) v
    unfold modularColours
    rw [hL.modular, hL.xyb, if_neg hL.colours]
    simp
  obtain ⟨tree, hd, m, enc, hS⟩ := hS
  by_cases h1 : sectionCount f = 1
  · rw [if_pos h1] at hS
    obtain ⟨q, hG, hall, rfl⟩ := hS
    obtain ⟨out, s', e, e2, e3, e4⟩ := single_core P I hL.framed hL.modular hfl (xyb_padded hL hw hh) hbl (xyb_planes hL)
      (fun res er => xyb_finish P I hL (by obtain ⟨_, _, g, -⟩ := hG; exact dequant_length g) er) hL.groups hl (Or.inr ⟨hr.passes, hL.passes⟩) (toc := ⟨none, lengths⟩)
      (by rw [← h1]; exact hlen) hG hall hs hdata
    exact ⟨out, s', q, e, e2, e3, rfl, e4⟩
  · rw [if_neg h1] at hS
    obtain ⟨hA, rfl, hk, hb⟩ := hS
    obtain ⟨out, s', e, e2, e3, e4⟩ := frame_core P I hL.framed hL.modular hfl (xyb_padded hL hw hh) hbl (xyb_planes hL)
      (fun res er => xyb_finish P I hL (by obtain ⟨q, _, _, g, -⟩ := hA.global; exact dequant_length g) er) hL.groups hl hL.streams ⟨hr.passes, hL.passes⟩ (toc := ⟨none, lengths⟩) rfl (by
      show lengths.length = _
      rw [hlen]
      unfold sectionCount at h1 ⊢
      rw [if_neg (by intro hx; rw [if_pos hx] at h1; exact h1 rfl)]
      rfl) (k := k) hk hb hA hs hdata
    exact ⟨out, s', _, e, e2, e3, by unfold nextByte; dsimp only; omega, e4⟩

/-- The goroutines that make a frame larger, if it is, do all their steps. -/
def DecodeParts.Enlarges1 (D : DecodeParts) (h : ImageHeader) (options : Option Int) (f : FrameHeader) : Prop := f.upsampling ≠ 1 → D.Enlarges h options f

theorem xybRound_ok {D : DecodeParts} {h : ImageHeader} (hv : Viewable h) (hS : StatedHeader h) (hu : WeightsStated h) {matrix : Option (Opsin F32)}
    (hm : imageMatrix D.cbrt h = .ok matrix) (hop : ∀ l, h.opsin = some l → l.length = 16) {f : FrameHeader} {deq : List ℚ} {v : Pic} {w : FloatPic} (hL : XybLayer h f v)
    {options : Option Int} (hO : D.Enlarges1 h options f)
    {data : List UInt8} {k k' : Nat} (hF : XybFrameCodes h data k k' f deq v) {st : DecodeState} (hlf : st.lf.length = 5) (hc : FloatCanvas h w st.store) {s : BR} {p0 : Nat}
    (hs : AtBit s p0) (hp0 : nextByte p0 = k) (hdata : s.data = data) :
    ∃ st' s' q, decodeRound D h matrix st s = (.ok (st', f.isLast), s') ∧ st'.lf.length = 5 ∧ FloatCanvas h (putFloatsOn f.moved (xybPicture h matrix f deq v) w) st'.store ∧
      (∃ l, st'.store.slices[st'.store.canvas]? = some l ∧ FloatsShow (channelCount h) h.size (putFloatsOn f.moved (xybPicture h matrix f deq v) w) l) ∧ AtBit s' q ∧ nextByte q = k' ∧
      s'.data = data := by
  obtain ⟨p, q0, lengths, h1, h2, h3, h4⟩ := hF
  obtain ⟨hr, l, b, s1, e1, el, hlen, a1, d1⟩ := front_core hv.width hv.height hL.framed hL.modular hL.regular hL.flags.2.2.2 hL.groups hL.streams h1 h2 h3 hlf hs hp0 hdata
  obtain ⟨out, s2, q, e2, hb, a2, hq, d2⟩ := xybData_ok (D.frames b) D.impl.toFloatImpl hL hr el hlen h4 a1 d1
  obtain ⟨hcc, hfc3, hc3⟩ := xyb_count hL
  obtain ⟨hw, hh⟩ := xyb_sizes hL
  have hfc : frameColourCount h f.encoding = h.colourCount := by rw [hfc3, hc3]
  have e3 : keepLF f out st.lf = .ok st.lf := by
    unfold keepLF
    rw [if_neg (by rw [hr.lfLevel]; omega)]
  have hec : f.ecUpsampling = [] := by
    have := hr.ecUpsampling
    rw [hL.extra] at this
    exact List.eq_nil_of_length_eq_zero this
  obtain ⟨big, e4, hbig⟩ : ∃ big, upsampleFrame h f (imageWeights h) (D.orders f) out = .ok big ∧ FloatsShow 3 f.moved.size (shownFloats h f (xybPlanes deq v)) big := by
    unfold shownFloats
    by_cases hx : f.upsampling = 1
    · rw [if_pos hx]
      refine ⟨out, upsample_unscaled ⟨hx, by intro u hu; rw [hec] at hu; cases hu⟩ (by rw [hb.1, hfc3, hec]; exact Nat.le_refl _) _ _, ?_⟩
      rw [show f.moved.size = f.size by show Dim.mk (f.size.width * f.upsampling) (f.size.height * f.upsampling) = _; rw [hx, Nat.mul_one, Nat.mul_one]]
      exact hb
    · rw [if_neg hx]
      have hG : GrownPlace h f := ⟨hL.toShownPlace, by
        refine ⟨?_, by intro u hu; rw [hec] at hu; cases hu⟩
        have := hL.scale
        simp only [List.mem_cons, List.not_mem_nil, or_false] at this ⊢
        omega⟩
      have := growFloats_ok hG ⟨hh.1, hw.1⟩ hfc hv hu hr.ecUpsampling (g := xybPlanes deq v) (bufs := out) ⟨by rw [hb.1, hcc], fun c hc => by
        obtain ⟨b, e, p, q⟩ := hb.2 c (by rw [← hcc]; exact hc)
        refine ⟨b, e, Or.inr p, fun y x hy hx => ?_⟩
        unfold px value
        rw [if_neg (by rw [p.1]; decide), q y x hy hx]
        rfl⟩ options (hO hx)
      rw [hcc] at this
      exact this
  have hsz : paddedFrameSize { f with size := ⟨u32 (f.size.width * f.upsampling), u32 (f.size.height * f.upsampling)⟩ } = .ok f.moved.size := by
    obtain ⟨z1, z2⟩ := hL.small
    have hk := hL.scale
    have k8 : 0 < f.upsampling ∧ f.upsampling ≤ 8 := by
      simp only [List.mem_cons, List.not_mem_nil, or_false] at hk
      omega
    have b1 : f.size.width * f.upsampling < 2 ^ 30 := by nlinarith
    have b2 : f.size.height * f.upsampling < 2 ^ 30 := by nlinarith
    have c1 : 0 < f.size.width * f.upsampling := Nat.mul_pos hw.1 k8.1
    have c2 : 0 < f.size.height * f.upsampling := Nat.mul_pos hh.1 k8.1
    rw [show u32 (f.size.width * f.upsampling) = f.size.width * f.upsampling from Nat.mod_eq_of_lt (by omega),
      show u32 (f.size.height * f.upsampling) = f.size.height * f.upsampling from Nat.mod_eq_of_lt (by omega)]
    exact xyb_padded hL ⟨c1, Nat.le_of_lt b1⟩ ⟨c2, Nat.le_of_lt b2⟩
  have htake : ∀ l : List ImageBuffer, l.length = 3 → l.take 3 = l := fun l hl => List.take_of_length_le (by omega)
  obtain ⟨bufs, e6, hdrop, hbufs⟩ := coloursAt_ok (matrix := matrix) (h := h) (fun o ho => imageMatrix_shape hop (by rw [hm, ho])) hsz (out := big) (by rw [htake _ hbig.1]; exact hbig)
  have hb3 : bufs.length = 3 := by
    have t1 := hbufs.1
    have t2 := congrArg List.length hdrop
    rw [List.length_take] at t1
    rw [List.length_drop, List.length_drop, hbig.1] at t2
    omega
  rw [htake _ hb3] at hbufs
  obtain ⟨s3, l', e5, r3, c3, p3⟩ := composeGrown_ok D.impl hL.toShownPlace hfc ⟨hr.lfLevel, hr.save, hr.blending, hr.ecBlending, hr.ecUpsampling⟩ hv hS.alphas hc e6
    (u := xybPicture h matrix f deq v) (by rw [hcc]; exact hbufs)
  refine ⟨⟨s3, st.lf⟩, s2, q, ?_, hlf, ⟨r3, Or.inr ⟨l', c3, p3⟩⟩, ⟨l', c3, p3⟩, a2, hq, d2⟩
  unfold decodeRound
  rw [Rd.bind_ok e1]
  dsimp only
  rw [Rd.bind_ok e2, e3, Rd.bind_ok (lift_ok rfl _), if_neg (by have := hL.regular; omega), e4, Rd.bind_ok (lift_ok rfl _), e5, Rd.bind_ok (lift_ok rfl _)]
  rfl

theorem xybRounds_ok {D : DecodeParts} {h : ImageHeader} (hv : Viewable h) (hS : StatedHeader h) (hu : WeightsStated h) {matrix : Option (Opsin F32)}
    (hm : imageMatrix D.cbrt h = .ok matrix) (hop : ∀ l, h.opsin = some l → l.length = 16) {options : Option Int} {data : List UInt8} :
    ∀ (frames : List (FrameHeader × List ℚ × Pic)) (fuel k : Nat) (w : FloatPic) (st : DecodeState) (s : BR) (p0 : Nat), frames ≠ [] → frames.length ≤ fuel →
      (∀ x ∈ frames, XybLayer h x.1 x.2.2) → (∀ x ∈ frames, D.Enlarges1 h options x.1) → XybFramesAt h data k frames → st.lf.length = 5 → FloatCanvas h w st.store → AtBit s p0 →
      nextByte p0 = k → s.data = data →
      ∃ st' s' q, decodeRounds D h matrix fuel st s = (.ok st', s') ∧
        (∃ l, st'.slices[st'.canvas]? = some l ∧
          FloatsShow (channelCount h) h.size (frames.foldl (fun w x => putFloatsOn x.1.moved (xybPicture h matrix x.1 x.2.1 x.2.2) w) w) l) ∧
        AtBit s' q ∧ s'.data = data := by
  intro frames
  induction frames with
  | nil => intro _ _ _ _ _ _ hne; exact absurd rfl hne
  | cons x xs ih =>
    intro fuel k w st s p0 _ hfu hL hD hF hlf hc hs hp hd
    obtain ⟨n, rfl⟩ : ∃ n, fuel = n + 1 := ⟨fuel - 1, by rw [List.length_cons] at hfu; omega⟩
    obtain ⟨k', hF1, hlast, hF2⟩ := hF
    obtain ⟨st1, s1, q, e1, l1, c1, c1', a1, q1, d1⟩ := xybRound_ok hv hS hu hm hop (hL x List.mem_cons_self) (hD x List.mem_cons_self) hF1 hlf hc hs hp hd
    unfold decodeRounds
    rw [Rd.bind_ok e1]
    cases hx : xs with
    | nil =>
      rw [hlast, hx]
      exact ⟨st1.store, s1, q, rfl, c1', a1, d1⟩
    | cons y ys =>
      rw [hlast, hx]
      dsimp only [List.isEmpty_cons]
      rw [if_neg (by simp)]
      obtain ⟨st2, s2, q2, e2, c2, a2, d2⟩ := ih n k' _ st1 s1 q (by rw [hx]; simp) (by rw [List.length_cons] at hfu; omega)
        (fun z hz => hL z (List.mem_cons_of_mem _ hz)) (fun z hz => hD z (List.mem_cons_of_mem _ hz)) hF2 l1 c1 a1 q1 d1
      rw [hx] at c2
      exact ⟨st2, s2, q2, e2, c2, a2, d2⟩

theorem yields_opsin (level : Int) : Yields (decImageHeader level) (fun h => ∀ l, h.opsin = some l → l.length = 16) := by
  unfold decImageHeader
  refine Yields.skip (fun magic => Yields.skip (fun _ => Yields.skip (fun size => Yields.skip (fun allDefault => Yields.skip (fun extraFields => ?_)))))
  refine Yields.skip (fun x => ?_)
  refine Yields.skip (fun f => Yields.skip (fun tone => Yields.skip (fun ext => Yields.skip (fun dt => ?_))))
  refine Yields.bind (P := fun o => ∀ l, o = some l → l.length = 16) ?_ (fun o ho => Yields.skip (fun mask => Yields.skip (fun up2 => Yields.skip (fun up4 => Yields.skip (fun up8 => Yields.pure ho)))))
  refine Yields.if (fun _ => ?_) (fun _ l hl => by cases hl)
  unfold decOpsin
  refine Yields.skip (fun d => Yields.if (fun _ => ?_) (fun _ l hl => by cases hl))
  refine Yields.bind (P := fun l => l.length = 16) (fun _ _ _ e => decList_length e) (fun l hl => Yields.pure ?_)
  rintro _ ⟨⟩
  exact hl

/-- The decoder on such a file: the image, and how it was made. -/
theorem xybFile_ok {D : DecodeParts} {file : List UInt8} {h : ImageHeader} {frames : List (FrameHeader × List ℚ × Pic)} (hf : XybFile file h frames)
    {matrix : Option (Opsin F32)} (hm : imageMatrix D.cbrt h = .ok matrix) {options : Option Int} (hO : ∀ x ∈ frames, x.1.upsampling ≠ 1 → D.Enlarges h options x.1) {fuel : Nat}
    (hfu : frames.length ≤ fuel) (procs : Int) :
    StatedHeader h ∧ ∃ img s' enc, coreDecode D fuel procs none (BR.new file) = (.ok (some img), s') ∧ Made img img.buffers h ∧ newJXLImage img.buffers h enc = .ok img ∧
      ShowsFloatsTurned (channelCount h) h.orientation h.size (layeredFloats (frames.map fun x => (x.1.moved, xybPicture h matrix x.1 x.2.1 x.2.2))) img.buffers := by
  obtain ⟨k, k', level, profile, hcs, hh, hF⟩ := hf.stored
  have hv := hf.viewable
  obtain ⟨s0, box, e0, hbox, d0, i0, hlev⟩ := boxes_ok hcs
  have hx : h.xyb = true := by
    obtain ⟨x, xs, hxs⟩ := List.exists_cons_of_ne_nil hf.some
    exact (hf.layers x (by rw [hxs]; exact List.mem_cons_self)).xyb
  have hS : StatedHeader h := by
    obtain ⟨p, q, hd, -⟩ := hh
    exact yields_imageHeader level _ _ _ hd.2
  have hu : WeightsStated h := by
    obtain ⟨p, q, hd, -⟩ := hh
    exact weights_stated (yields_upWeights level _ _ _ hd.2)
  have hop : ∀ l, h.opsin = some l → l.length = 16 := by
    obtain ⟨p, q, hd, -⟩ := hh
    exact yields_opsin level _ _ _ hd.2
  have hk : k < file.length := by
    obtain ⟨p, q, hd, -⟩ := hh
    exact imageHeader_inside hd.2
  have hk' : k' < file.length := by
    obtain ⟨x, xs, rfl⟩ := List.exists_cons_of_ne_nil hf.some
    obtain ⟨j, ⟨p, q, lengths, hd, -⟩, -⟩ := hF
    exact frameHeader_inside hd.2
  obtain ⟨s1, e1, a1, d1⟩ := headerAt_ok hlev hh hk i0 d0
  have hcv : FloatCanvas h (fun _ _ _ => .fin 0) (newState h).store := ⟨rfl, Or.inl ⟨rfl, rfl⟩⟩
  obtain ⟨st, s2, q, e2, c2, a2, d2⟩ := xybRounds_ok hv hS hu hm hop frames fuel k' _ (newState h) s1 (8 * k') hf.some hfu hf.layers hO hF rfl hcv a1 (by unfold nextByte; omega) d1
  obtain ⟨l, hl, hlw⟩ := c2
  obtain ⟨img, s3, e3, m3, n3, t3⟩ := finishFloats_ok hv.width hv.height hS (enc := profile.map fun e => e.map UInt8.ofNat) (by
    unfold imageProfile
    rw [hx]
    exact ⟨_, rfl⟩) hl hlw a2
  refine ⟨hS, img, s3, _, ?_, m3, n3, ?_⟩
  · show decodeFile D false fuel (BR.new file) = _
    unfold decodeFile
    rw [Rd.bind_ok e0]
    dsimp only
    rw [show idx [box] 0 = .ok box from rfl, Rd.bind_ok (lift_ok rfl _), hbox, Rd.bind_ok e1]
    dsimp only
    unfold decodeFrames
    rw [hv.noPreview]
    rw [if_neg (by simp)]
    rw [hm, Rd.bind_ok (lift_ok rfl _), Rd.bind_ok (show seekFrames [box] s1 = (.ok (), s1) from rfl)]
    rw [C03_atEnd _ _ a1, show decide (8 * k' = 8 * s1.data.length) = false from decide_eq_false (by rw [d1]; omega)]
    dsimp only
    rw [if_neg (by simp), Rd.bind_ok e2, Rd.bind_ok e3]
    rfl
  · unfold layeredFloats
    rw [List.foldl_map]
    exact t3

/-- **C106**, with the place where the decoder puts the frames (`FrameHeader.moved`, see `C104_corner_fails`). -/
theorem C106_layers {D : DecodeParts} {file : List UInt8} {h : ImageHeader} {frames : List (FrameHeader × List ℚ × Pic)} (hf : XybFile file h frames)
    {matrix : Option (Opsin F32)} (hm : imageMatrix D.cbrt h = .ok matrix) {options : Option Int} (hO : ∀ x ∈ frames, x.1.upsampling ≠ 1 → D.Enlarges h options x.1) {fuel : Nat}
    (hfu : frames.length ≤ fuel) (procs : Int) :
    ∃ img s', coreDecode D fuel procs none (BR.new file) = (.ok (some img), s') ∧ Made img img.buffers h ∧
      ShowsFloatsTurned (channelCount h) h.orientation h.size (layeredFloats (frames.map fun x => (x.1.moved, xybPicture h matrix x.1 x.2.1 x.2.2))) img.buffers := by
  obtain ⟨-, img, s', -, e, m, -, t⟩ := xybFile_ok hf hm hO hfu procs
  exact ⟨img, s', e, m, t⟩

/-- **C106**, in part (no extra channels, not gray, no filters, the frames replace what they cover; frames that are made larger start at the upper left corner of the image): the image has the
colours of its modular frames in XYB, one on top of the other. -/
theorem C106_image_partial {D : DecodeParts} {file : List UInt8} {h : ImageHeader} {frames : List (FrameHeader × List ℚ × Pic)} (hf : XybFile file h frames)
    (h0 : ∀ x ∈ frames, x.1.upsampling = 1 ∨ x.1.x0 = 0 ∧ x.1.y0 = 0)
    {matrix : Option (Opsin F32)} (hm : imageMatrix D.cbrt h = .ok matrix) {options : Option Int} (hO : ∀ x ∈ frames, x.1.upsampling ≠ 1 → D.Enlarges h options x.1) {fuel : Nat}
    (hfu : frames.length ≤ fuel) (procs : Int) :
    ∃ img s', coreDecode D fuel procs none (BR.new file) = (.ok (some img), s') ∧ Made img img.buffers h ∧
      ShowsFloatsTurned (channelCount h) h.orientation h.size (layeredFloats (frames.map fun x => (x.1.grown, xybPicture h matrix x.1 x.2.1 x.2.2))) img.buffers := by
  obtain ⟨img, s', e, m, t⟩ := C106_layers hf hm hO hfu procs
  refine ⟨img, s', e, m, ?_⟩
  rw [show (frames.map fun x => (x.1.grown, xybPicture h matrix x.1 x.2.1 x.2.2)) = frames.map fun x => (x.1.moved, xybPicture h matrix x.1 x.2.1 x.2.2) from List.map_congr_left (by
    intro x hx
    rw [show x.1.moved = x.1.grown by
      rcases h0 x hx with e1 | ⟨e1, e2⟩
      · simp [FrameHeader.moved, FrameHeader.grown, e1]
      · simp [FrameHeader.moved, FrameHeader.grown, e1, e2]])]
  exact t

/-- C106, as seen through the package: the bytes of the Go image of such a file with 8-bit samples are the colours of the frames, with the place where the decoder puts them, through the curve of sRGB. -/
theorem C106_pixels_partial {D : DecodeParts} (curve : Nat → F32 → F32) {file : List UInt8} {h : ImageHeader} {frames : List (FrameHeader × List ℚ × Pic)} (hf : XybFile file h frames)
    {matrix : Option (Opsin F32)} (hm : imageMatrix D.cbrt h = .ok matrix) {options : Option Int} (hO : ∀ x ∈ frames, x.1.upsampling ≠ 1 → D.Enlarges h options x.1) {fuel : Nat}
    (hfu : frames.length ≤ fuel) (procs : Int) (h8 : OrdinaryFloats h) (peeks : Bool) :
    ∃ px, readerDecode D curve fuel procs ⟨file, true, peeks⟩ = .ok px ∧
      PixelsShow D.impl.toFloatImpl curve h (layeredFloats (frames.map fun x => (x.1.moved, xybPicture h matrix x.1 x.2.1 x.2.2))) px := by
  obtain ⟨hS, img, s', enc, e, -, hn, t⟩ := xybFile_ok hf hm hO hfu procs
  exact floatPixels_of curve hS e hn t h8 peeks

/-! ## Example -/

/-- An image of four by four pixels in XYB with default metadata, and a modular frame of two by two pixels that is made larger by two. -/
def xybFile : List UInt8 :=
  [255, 10, 24, 144, 1, 72, 128, 0, 0, 64, 0, 75, 10, 9, 18, 8, 88, 10, 72, 82, 72, 144, 64, 192, 137, 170, 20, 0, 0, 0]

def xybHeader : ImageHeader := { wideHeader with size := ⟨4, 4⟩, orientedSize := ⟨4, 4⟩ }

def xybLast : FrameHeader := { modularFrame 2 2 onePass with ecUpsampling := [], haveCrop := false, width := 0, height := 0, x0 := 0, y0 := 0, isLast := true, upsampling := 2 }

/-- The three channels that are coded. -/
def xybCoded : Pic := fun c y x => if c = 1 ∨ (c = 0 ∧ y = x) ∨ (c = 2 ∧ y ≠ x) then 3 else 0

theorem xybLast_layer : XybLayer xybHeader xybLast xybCoded where
  regular := .inl rfl
  scale := by decide
  small := by decide
  replace := ⟨rfl, by intro b hb; cases hb⟩
  place := .inl ⟨by decide, by decide⟩
  meets := by decide
  framed := ⟨⟨0, by decide, rfl⟩, rfl, (by show ∀ v ∈ [0, 0, 0], v ≤ 1; decide), (by show ∀ v ∈ [0, 0, 0], v ≤ 1; decide), by show 0 < 2 ∧ 2 ≤ _; decide, by show 0 < 2 ∧ 2 ≤ _; decide⟩
  modular := rfl
  xyb := rfl
  colours := by decide
  extra := rfl
  jpegX := rfl
  jpegY := rfl
  filters := ⟨rfl, rfl⟩
  flags := by show Nat.testBit 0 0 = false ∧ Nat.testBit 0 1 = false ∧ Nat.testBit 0 4 = false ∧ Nat.testBit 0 5 = false; decide
  samples := by
    intro y x _ _
    unfold xybCoded
    split <;> split <;> decide
  groups := by show numGroupsOf (modularFrame 2 2 onePass) < 2 ^ 31; decide
  streams := by
    show 18 + 3 * numLFGroupsOf (modularFrame 2 2 onePass) + numGroupsOf (modularFrame 2 2 onePass) * onePass.numPasses < 2 ^ 32
    decide
  passes := by show onePass.Valid (onePass.numPasses - 1); decide

/-- The symbols of the example, with their contexts. -/
def xybSymbols : List (Int × Nat) := [(1, 2), (1, 0), (1, 0), (1, 2), (1, 2), (1, 2), (1, 2), (1, 2), (1, 0), (1, 2), (1, 2), (1, 0)]

theorem xyb_inside : ∃ es, GlobalAt 8 128 xybFile 88 215 [1 / 4096, 1 / 512, 1 / 256] (some (codedTree, es)) ⟨true, defaultWP, []⟩ (imageChannels 3 ⟨2, 2⟩ xybCoded) 0
    (imageChannels 3 ⟨2, 2⟩ xybCoded) := by
  have l6 : (treeCodes 6).bits.length = 42 := by decide +kernel
  have l2 : (treeCodes 2).bits.length = 42 := by decide +kernel
  have lt : (codedTreeOut.flatMap fun o => treeWord o.2).length = 17 := by decide +kernel
  have ln : (xybSymbols.flatMap fun o => treeWord o.2).length = 20 := by decide +kernel
  obtain ⟨ds, g1, g2⟩ := codesAt_of xybFile 90 6 (treeCodes 6) treeCodes_valid6 (by decide +kernel) (by rw [l6]; decide)
  have g3 := treeNumbers xybFile 132 6 ds g2 0 codedTreeOut (by decide) (by decide) (by decide) (by decide +kernel) (by rw [lt]; decide)
  obtain ⟨ds', g4, g5⟩ := codesAt_of xybFile 149 2 (treeCodes 2) treeCodes_valid2 (by decide +kernel) (by rw [l2]; decide)
  have g6 := treeNumbers xybFile 195 2 ds' g5 2 xybSymbols (by decide) (by decide) (by decide) (by decide +kernel) (by rw [ln]; decide)
  rw [l6] at g1
  rw [lt] at g3
  rw [l2] at g4
  rw [ln] at g6
  refine ⟨_, 89, 191, ⟨by decide, by decide +kernel⟩, ⟨⟨by decide, by decide +kernel⟩, ⟨_, 132, 149, codedTreeOut, g1, codedTree_serial, g3, g4⟩, by decide⟩,
    195, 195, codedTree, _, xybSymbols, ⟨by decide, by decide +kernel⟩, ⟨rfl, rfl⟩, .nil _ _, ?_, by decide +kernel, g6⟩
  have := imageChannels_shaped 3 ⟨2, 2⟩ xybCoded (by intro c y x _ _; unfold xybCoded; split <;> decide)
  exact fun c hc => this c (List.mem_of_mem_take hc)

theorem xybFile_file : XybFile xybFile xybHeader [(xybLast, [1 / 4096, 1 / 512, 1 / 256], xybCoded)] where
  stored := by
    obtain ⟨es, h⟩ := xyb_inside
    refine ⟨0, 5, 5, none, .inl ⟨rfl, rfl, by decide, by decide⟩, ⟨33, 33, ⟨by decide, by decide +kernel⟩, rfl, rfl, rfl⟩,
      27, ⟨66, 84, [16], ⟨by decide, by decide +kernel⟩, ⟨by decide, by decide +kernel⟩, ⟨by decide, by decide +kernel⟩, some (codedTree, es), ⟨true, defaultWP, []⟩, 0,
        imageChannels 3 ⟨2, 2⟩ xybCoded, ?_⟩, rfl, trivial⟩
    rw [if_pos (by decide)]
    exact ⟨_, h, by decide +kernel, rfl⟩
  viewable := ⟨rfl, by decide, by decide, by decide⟩
  some := by simp
  layers := by
    intro x hx
    rw [List.mem_singleton.mp hx]
    exact xybLast_layer

theorem xybHeader_ordinary : OrdinaryFloats xybHeader := ⟨rfl, by unfold Ordinary; decide, .inl rfl, .inl rfl⟩

theorem xybHeader_matrix (cbrt : F32 → F32) : ∃ o, imageMatrix cbrt xybHeader = .ok (some o) := wideHeader_matrix cbrt

/-- The samples in the upper left corner before the frame is made larger. -/
example : (List.range 3).map (fun c => xybPlanes [1 / 4096, 1 / 512, 1 / 256] xybCoded c 0 0) = [.fin (3 / 4096), .fin (3 / 512), .fin (3 / 256)] := by decide +kernel

/-- The hypotheses of `C106_image_partial` are met, for any number of goroutines that run one after the other. -/
example (D : DecodeParts) (procs : Int) (options : Option Int) (hD : D.orders = fun f _ => (upWorkers f.size.height f.size.width f.upsampling options).flatten) :
    ∃ img s', coreDecode D 1 procs none (BR.new xybFile) = (.ok (some img), s') ∧ img.buffers.length = 3 ∧ ∀ b ∈ img.buffers, b.FloatPicture 4 4 := by
  obtain ⟨o, ho⟩ := xybHeader_matrix D.cbrt
  obtain ⟨img, s', h1, -, rs, cs, h2, h3, h4⟩ := C106_image_partial (D := D) xybFile_file (fun x hx => by rw [List.mem_singleton.mp hx]; exact Or.inr ⟨rfl, rfl⟩) ho (options := options)
    (fun x hx _ c _ => by
      show Interleaving _ (D.orders x.1 c)
      rw [hD]
      exact Interleaving.sequential _ _ rfl) (fuel := 1) (Nat.le_refl 1) procs
  refine ⟨img, s', h1, h3, fun b hb => ?_⟩
  obtain ⟨c, hc, rfl⟩ := List.getElem_of_mem hb
  obtain ⟨b', h5, h6, -⟩ := h4 c (by rw [← h3]; exact hc)
  rw [List.getElem?_eq_getElem hc] at h5
  cases h2
  exact Option.some.inj h5 ▸ h6

/-- The hypotheses of `C106_pixels_partial` are met. -/
example (D : DecodeParts) (curve : Nat → F32 → F32) (procs : Int) (options : Option Int) (hD : D.orders = fun f _ => (upWorkers f.size.height f.size.width f.upsampling options).flatten) :
    ∃ px, readerDecode D curve 1 procs ⟨xybFile, true, false⟩ = .ok px ∧ px.gray = false ∧ px.width = 4 ∧ px.height = 4 := by
  obtain ⟨o, ho⟩ := xybHeader_matrix D.cbrt
  obtain ⟨px, h1, planes, h2, h3, h4, -⟩ := C106_pixels_partial (D := D) curve xybFile_file ho (options := options)
    (fun x hx _ c _ => by
      show Interleaving _ (D.orders x.1 c)
      rw [hD]
      exact Interleaving.sequential _ _ rfl) (fuel := 1) (Nat.le_refl 1) procs xybHeader_ordinary false
  exact ⟨px, h1, h2, h3, h4⟩

end Jxl
