import Verif.Proofs.DecodeFile
import Verif.Props.VarDCTFrame
import Verif.Props.Colour
import Verif.Spec.VarDCTFile

/-! # Decoding of files with VarDCT frames -/
namespace Jxl
open Spec

/-! ## Headers -/

/-- What the header of a regular frame satisfies. -/
structure RegularBasics (nec : Nat) (f : FrameHeader) : Prop where
  lfLevel : f.lfLevel = 0
  save : f.saveAsReference < 4
  blending : StatedBlending f.blending
  ecBlending : f.ecBlending.length = nec ∧ ∀ b ∈ f.ecBlending, StatedBlending b
  ecUpsampling : f.ecUpsampling.length = nec

theorem yields_regular (most : Nat) (mulBare xyb : Bool) (nec : Nat) (image : Dim) :
    Yields (decFrameHeader most mulBare xyb nec image) (fun f => f.frameType = 0 ∨ f.frameType = 3 → RegularBasics nec f) := by
  unfold decFrameHeader
  refine Yields.skip (fun allDefault => ?_)
  dsimp only
  refine Yields.skip (fun frameType => Yields.skip (fun encoding => ?_))
  refine Yields.skip (fun flags => Yields.skip (fun ycbcr => ?_))
  refine Yields.skip (fun modes => Yields.skip (fun upsampling => ?_))
  refine Yields.bind (P := fun l => l.length = nec) (Yields.if (fun _ => fun _ _ _ e => decList_length e) (fun _ => List.length_replicate)) (fun ecUps hu => ?_)
  refine Yields.skip (fun gss => ?_)
  refine Yields.skip (fun xqm => Yields.skip (fun bqm => Yields.skip (fun passes => ?_)))
  refine Yields.bind (P := fun v => frameType ≠ 1 → v = 0) (Yields.if (fun hc l a r _ h => ?_) (fun _ _ => rfl)) (fun lfLevel hl => ?_)
  · simp [h] at hc
  refine Yields.skip (fun crop => Yields.skip (fun x0 => Yields.skip (fun y0 => Yields.skip (fun size => ?_))))
  refine Yields.bind (P := StatedBlending) (Yields.if (fun _ => Yields.bind (yields_blending _ _) (fun b hb => Yields.check (fun _ => hb))) (fun _ => ⟨by decide, fun _ => rfl, by decide⟩)) (fun blending hb => ?_)
  refine Yields.bind (P := fun l => l.length = nec ∧ ∀ b ∈ l, StatedBlending b) (Yields.if (fun _ => Yields.list (yields_blending _ _) nec) (fun _ => ⟨List.length_replicate, fun b hb => ?_⟩)) (fun ecBlending heb => ?_)
  · rw [List.eq_of_mem_replicate hb]
    exact ⟨by decide, fun _ => rfl, by decide⟩
  refine Yields.skip (fun isLast => ?_)
  refine Yields.bind (P := fun v => v < 4) (Yields.if (fun _ => Yields.bits 2) (fun _ => by decide)) (fun save hs => ?_)
  refine Yields.skip (fun before => Yields.skip (fun name => Yields.skip (fun filters => Yields.skip (fun ext => Yields.pure ?_))))
  intro h2
  dsimp only at h2 ⊢
  exact ⟨hl (by omega), hs, hb, heb, hu⟩

theorem onOk_stated (xyb : Bool) (nec : Nat) (image : Dim) {s s0 s' : BR} {f : FrameHeader} (e0 : readBool s = (.ok false, s0)) (e : readFrameHeader xyb nec image s = (.ok f, s')) :
    f.frameType ≠ 2 → f.passes ≠ Passes.dflt := by
  unfold readFrameHeader at e
  rw [Rd.bind_ok e0] at e
  refine (?_ : OnOk _ (fun f => f.frameType ≠ 2 → f.passes ≠ Passes.dflt)) _ _ _ e
  refine OnOk.skip (fun k => ?_)
  dsimp only
  refine OnOk.skip (fun ycbcr => OnOk.skip (fun modes => OnOk.skip (fun ups => OnOk.skip (fun gss => OnOk.skip (fun qm => ?_)))))
  refine OnOk.bind (P := fun p => k.1 ≠ 2 → p ≠ Passes.dflt) (OnOk.if (fun _ => fun s a s' e _ => onOk_passes s a s' e) ?_) (fun passes hp => ?_)
  · intro hc h2
    exfalso
    simp [h2] at hc
  refine OnOk.skip (fun lfLevel => OnOk.skip (fun crop => OnOk.skip (fun origin => OnOk.skip (fun size => OnOk.skip (fun h1 => OnOk.skip (fun w1 => ?_))))))
  refine OnOk.skip (fun bl => OnOk.skip (fun isLast => OnOk.skip (fun save => OnOk.skip (fun before => OnOk.skip (fun name => ?_)))))
  refine OnOk.skip (fun rf => OnOk.skip (fun ext => OnOk.skip (fun h2 => OnOk.skip (fun w2 => OnOk.pure ?_))))
  exact hp

/-- The header of a VarDCT frame is read, unless it says that everything is as by default. -/
theorem varHeader_ok {h : ImageHeader} {f : FrameHeader} {data : List UInt8} {p q : Nat} (hw : 0 < h.size.width ∧ h.size.width < 2 ^ 30)
    (hh : 0 < h.size.height ∧ h.size.height < 2 ^ 30) (hd : DecAt (decFrameHeader 0 false h.xyb h.extra.length h.size) data p q f) (he : DecAt decBool data p (p + 1) false)
    (ht : f.frameType ≠ 2) {s : BR} (hs : AtBit s p) (hdata : s.data = data) :
    ∃ s', readFrameHeader h.xyb h.extra.length h.size s = (.ok f, s') ∧ AtBit s' q ∧ s'.data = data := by
  obtain ⟨s', e, a, d⟩ := (C59_header_partial h.xyb h.extra.length h.size hw.1 (Nat.le_of_lt hw.2) hh.1 (Nat.le_of_lt hh.2)).at hd hs hdata
  obtain ⟨s0, e0, -, -⟩ := implements_bool.follows.at he hs hdata
  refine ⟨s', ?_, a, d⟩
  obtain ⟨g, s1, e1, e2⟩ := Rd.of_bind e
  rw [Rd.pure_eq] at e2
  injection e2 with e2 e3
  injection e2 with e2
  subst e3
  have hg : g.frameType ≠ 2 := by
    rw [← e2] at ht
    unfold FrameHeader.completed at ht
    split at ht
    · exact ht
    · exact ht
  have hn := onOk_stated _ _ _ e0 e1 hg
  unfold FrameHeader.completed at e2
  rw [if_neg (show ¬ g.passes = ⟨1, 0, [], [], []⟩ from hn)] at e2
  rw [e1, e2]

theorem varGroups_eq {h : ImageHeader} {f : FrameHeader} (hp : PlainVarDCT h f) : numGroupsOf f = varGroups f ∧ numLFGroupsOf f = varLFGroups f ∧
    sectionCount f = if varGroups f = 1 then 1 else 2 + varLFGroups f + varGroups f := by
  have h1 : numGroupsOf f = varGroups f := by unfold numGroupsOf; rw [hp.groups]; rfl
  have h2 : numLFGroupsOf f = varLFGroups f := by unfold numLFGroupsOf; rw [hp.groups]; rfl
  refine ⟨h1, h2, ?_⟩
  unfold sectionCount
  rw [h1, h2, hp.passes, show onePass.numPasses = 1 from rfl]
  by_cases hx : varGroups f = 1
  · rw [if_pos ⟨hx, rfl⟩, if_pos hx]
  · rw [if_neg (fun hy => hx hy.1), if_neg hx, Nat.one_mul]

/-- The header and the table of contents of a VarDCT frame are read. -/
theorem varFront_ok {h : ImageHeader} (hw : 0 < h.size.width ∧ h.size.width < 2 ^ 30) (hh : 0 < h.size.height ∧ h.size.height < 2 ^ 30) {f : FrameHeader} {F : CodedFrame}
    (hL : VarCoded h f F) {data : List UInt8} {k k' : Nat} (hF : VarFrameCodes h data k k' f F) {lf : List (Option (List ImageBuffer))} (hlf : lf.length = 5) {s : BR} {p0 : Nat}
    (hs : AtBit s p0) (hp0 : nextByte p0 = k) (hdata : s.data = data) :
    RegularBasics h.extra.length f ∧ ∃ l b lengths s' j, readFrameFront h lf s = (.ok (f, l, b, ⟨none, lengths⟩), s') ∧
      lengths.length = sectionCount f ∧ VarSectionsCode h f lengths data j k' F ∧ AtBit s' (8 * j) ∧ s'.data = data := by
  obtain ⟨p, q, lengths, h0, h1, h2, h3, h4⟩ := hF
  have hr : RegularBasics h.extra.length f := yields_regular 0 false h.xyb h.extra.length h.size _ _ _ h1.2 hL.regular
  obtain ⟨n1, n2, -⟩ := varGroups_eq hL.plain
  obtain ⟨s1, e1, a1, d1⟩ := zeroPad_spec s p0 hs
  rw [show 8 * ((p0 + 7) / 8) = 8 * k by rw [← hp0]; rfl] at a1
  obtain ⟨s2, e2, a2, d2⟩ := varHeader_ok hw hh h1 h0 (by have := hL.regular; omega) a1 (d1.trans hdata)
  have hl := varLayout_ok hL.plain hL.groups
  obtain ⟨s3, e3, a3, d3⟩ := toc_ok (by rw [n1, n2, hL.plain.passes]; show _ + _ * 1 < _; have := hL.streams; omega) h2 h3 a2 d2
  have hlen : lengths.length = sectionCount f := yields_lengths _ _ _ _ h3.2
  obtain ⟨b, hb⟩ : ∃ b, lf[0]? = some b := ⟨_, List.getElem?_eq_getElem (by omega)⟩
  refine ⟨hr, varLayout f, b, lengths, s3, nextByte q, ?_, hlen, h4, a3, d3⟩
  have es : readFrameStart h s = (.ok (f, varLayout f), s2) := by
    unfold readFrameStart
    rw [Rd.bind_ok e1, Rd.bind_ok e2, Rd.bind_ok (lift_ok hl s2)]
    rfl
  unfold readFrameFront
  rw [Rd.bind_ok es, Rd.bind_ok (lift_ok (show idx lf ((f.lfLevel : Nat) : Int) = .ok b by rw [hr.lfLevel]; exact idx_of_getElem? _ _ _ hb) s2)]
  dsimp only
  rw [hL.plain.flags.2.2.2, Bool.and_false, if_neg (by decide)]
  rw [n1, n2] at e3
  rw [show (varLayout f).numGroups = varGroups f from rfl, show (varLayout f).numLFGroups = varLFGroups f from rfl, Rd.bind_ok e3]
  rfl

/-- A VarDCT frame is decoded to its planes. -/
theorem varData_ok (A : Arith F32) (V : VarParts F32) (P : FrameParts) (I : FloatImpl) (lfBuffer : List (List (List F32))) {cos : Nat → Nat → Nat → F32} {B : Nat → Nat → F32} (hV : V.Ok cos B)
    {h : ImageHeader} {f : FrameHeader} {F : CodedFrame} (hL : VarCoded h f F) {weights : List (List (List (List F32)))} (hw : allWeights V.quant F.params 0 = .ok weights) {l : Layout}
    {lengths : List Nat} (hlen : lengths.length = sectionCount f) {data : List UInt8} {k k' : Nat} (hS : VarSectionsCode h f lengths data k k' F)
    {s : BR} (hs : AtBit s (8 * k)) (hdata : s.data = data) :
    ∃ out s' q, decodeFrame (P.withVarDCT A V I lfBuffer) I h f l ⟨none, lengths⟩ s = (.ok out, s') ∧ ShowsVarDCT F h f cos B V weights out ∧ AtBit s' q ∧ nextByte q = k' ∧ s'.data = data := by
  unfold VarSectionsCode at hS
  obtain ⟨-, -, n3⟩ := varGroups_eq hL.plain
  by_cases h1 : sectionCount f = 1
  · rw [if_pos h1] at hS
    obtain ⟨start, h2, h3, rfl⟩ := hS
    obtain ⟨out, s', e, e2, e3, e4⟩ := C90_single_partial A V P I lfBuffer hL.plain hL.groups hV hL.coded hw (l := l) (toc := ⟨none, lengths⟩) (by rw [← h1]; exact hlen) h2 (by rw [h3]; exact hs) hdata
    exact ⟨out, s', _, e, e2, e3, rfl, e4⟩
  · rw [if_neg h1] at hS
    obtain ⟨stop, hA, rfl, hk, hb⟩ := hS
    obtain ⟨out, s', e, e2, e3, e4⟩ := C90_frame_partial A V P I lfBuffer hL.plain hL.groups hV hL.coded hw (l := l) (toc := ⟨none, lengths⟩) rfl (by
      show lengths.length = _
      rw [hlen, n3, if_neg (by intro hx; rw [n3, if_pos hx] at h1; exact h1 rfl)]) (k := k) hk hb hA hs hdata
    exact ⟨out, s', _, e, e2, e3, by unfold nextByte; dsimp only; omega, e4⟩

/-! ## Colours -/

/-- The matrix of an image has three rows of three. -/
theorem imageMatrix_shape {cbrt : F32 → F32} {h : ImageHeader} (hl : ∀ l, h.opsin = some l → l.length = 16) {o : Opsin F32} (e : imageMatrix cbrt h = .ok (some o)) :
    Is3 o.matrix ∧ o.bias.length = 3 ∧ o.cbrtBias.length = 3 := by
  unfold imageMatrix at e
  split at e
  · obtain ⟨o1, e1, e2⟩ := Res.of_bind e
    obtain ⟨o2, e3, e4⟩ := Res.of_bind e2
    obtain rfl : o2 = o := Option.some.inj (Res.ok.inj e4)
    have h1 : Is3 o1.matrix ∧ o1.bias.length = 3 := by
      unfold headerOpsin at e1
      split at e1
      · cases e1
        exact ⟨⟨_, _, _, _, _, _, _, _, _, rfl⟩, rfl⟩
      · rename_i l hx
        have := hl l hx
        match l, this with
        | [a0, a1, a2, a3, a4, a5, a6, a7, a8, a9, a10, a11, a12, a13, a14, a15], _ =>
          cases e1
          exact ⟨⟨_, _, _, _, _, _, _, _, _, rfl⟩, rfl⟩
    unfold Opsin.forColours at e3
    obtain ⟨c, e5, e6⟩ := Res.of_bind e3
    obtain ⟨m, e7, e8⟩ := Res.of_bind e6
    have hc : ∀ m, c = some m → Is3 m := by
      intro m hm
      rcases conversion_shape h.colour.primXY.primaries h.colour.whiteXY.xy o1.prim o1.white with ⟨m', e', h'⟩ | e'
      · rw [e5] at e'
        rw [hm] at e'
        cases e'
        exact h'
      · rw [e5] at e'
        cases e'
    obtain ⟨m', e9, h9⟩ := mulOpt_shape hc h1.1
    have e10 : matrixMultiply c [some o1.matrix] = .ok (some m') := by
      rw [matrixMultiply, e9, Res.bind_ok]
      rfl
    rw [e7] at e10
    cases e10
    obtain ⟨b0, f0, g0⟩ := Res.of_bind e8
    obtain ⟨b1, f1, g1⟩ := Res.of_bind g0
    obtain ⟨b2, f2, g2⟩ := Res.of_bind g1
    cases g2
    exact ⟨h9, h1.2, rfl⟩
  · cases e

/-- The conversion of the colours of three planes. -/
theorem transform_ok {matrix : Option (Opsin F32)} (hm : ∀ o, matrix = some o → Is3 o.matrix ∧ o.bias.length = 3 ∧ o.cbrtBias.length = 3) (target : F32) (ycbcr : Bool) {H W : Nat}
    {g : Nat → Nat → Fin 3 → F32} {s : RGBPlanes F32} (hs : ShowsImage H W g s) :
    ∃ s', transformPlanes matrix target ycbcr (.ok ⟨W, H⟩) s = .ok s' ∧ ShowsImage H W (fun y x => pixelColour matrix target ycbcr (g y x)) s' := by
  have step1 : ∃ s', invertIf matrix target s = .ok s' ∧ ShowsImage H W (fun y x => pixelColour matrix target false (g y x)) s' := by
    cases matrix with
    | none => exact ⟨_, rfl, hs⟩
    | some o =>
      obtain ⟨⟨a, b, c, d, e, f, g, h, i, em⟩, lb, lc⟩ := hm o rfl
      obtain ⟨x0, x1, x2, eb⟩ := List.length_eq_three.1 lb
      obtain ⟨y0, y1, y2, ec⟩ := List.length_eq_three.1 lc
      obtain ⟨s', e', r⟩ := rows_loop (xyb_pixel_step ⟨(Arith.lit 255 : F32) / target, (x0, x1, x2), (y0, y1, y2), (a, b, c), (d, e, f), (g, h, i)⟩ H W) hs
      refine ⟨s', ?_, r.congr fun y x _ _ => ?_⟩
      · unfold invertIf invertXYB
        dsimp only
        rw [xyb_of em eb ec, Res.bind_ok]
        exact e'
      · show _ = xybColour o target _
        unfold xybColour
        rw [em, eb, ec]
        funext i
        fin_cases i <;> rfl
  obtain ⟨s1, e1, r1⟩ := step1
  unfold transformPlanes
  rw [e1, Res.bind_ok]
  cases ycbcr with
  | false => exact ⟨s1, rfl, r1⟩
  | true =>
    obtain ⟨s', e, r⟩ := rect_loop (ycbcr_pixel_step H W) r1 (Nat.le_refl H) (Nat.le_refl W)
    refine ⟨s', e, r.congr fun y x hy hx => ?_⟩
    rw [if_pos ⟨hy, hx⟩]
    rfl

/-- The picture that three planes show is in three buffers of floats. -/
def FloatsShow (n : Nat) (size : Dim) (v : FloatPic) (bufs : List ImageBuffer) : Prop :=
  bufs.length = n ∧ ∀ c, c < n → ∃ b, bufs[c]? = some b ∧ b.FloatPicture size.height size.width ∧ ∀ y x, y < size.height → x < size.width → sample b.floats y x = some (v c y x)

/-- The size of the planes of a frame: whole blocks. -/
def blocksOf (f : FrameHeader) : Dim := ⟨8 * ((f.size.width + 7) / 8), 8 * ((f.size.height + 7) / 8)⟩

/-- The colours of the planes of a frame. -/
theorem coloursAt_ok {matrix : Option (Opsin F32)} (hm : ∀ o, matrix = some o → Is3 o.matrix ∧ o.bias.length = 3 ∧ o.cbrtBias.length = 3) {h : ImageHeader} {f : FrameHeader} {size : Dim}
    (hsz : paddedFrameSize { f with size := ⟨u32 (f.size.width * f.upsampling), u32 (f.size.height * f.upsampling)⟩ } = .ok size) {g : FloatPic} {out : List ImageBuffer} (ho : FloatsShow 3 size g (out.take 3)) :
    ∃ bufs, frameColours matrix h f out = .ok bufs ∧ bufs.drop 3 = out.drop 3 ∧
      FloatsShow 3 size (fun c y x => if hc : c < 3 then pixelColour matrix (F32.round h.tone.intensityTarget) f.doYCbCr (fun i => g i y x) ⟨c, hc⟩ else .fin 0) (bufs.take 3) := by
  obtain ⟨hl, hb⟩ := ho
  obtain ⟨b0, b1, b2, ex, rfl⟩ : ∃ b0 b1 b2 ex, out = b0 :: b1 :: b2 :: ex := by
    match out, hl with
    | b0 :: b1 :: b2 :: ex, _ => exact ⟨b0, b1, b2, ex, rfl⟩
  obtain ⟨c0, e0, p0, q0⟩ := hb 0 (by decide)
  obtain ⟨c1, e1, p1, q1⟩ := hb 1 (by decide)
  obtain ⟨c2, e2, p2, q2⟩ := hb 2 (by decide)
  obtain rfl : b0 = c0 := Option.some.inj e0
  obtain rfl : b1 = c1 := Option.some.inj e1
  obtain rfl : b2 = c2 := Option.some.inj e2
  have hs : ShowsImage size.height size.width (fun y x i => g i y x) ⟨b0.floats, b1.floats, b2.floats⟩ :=
    ⟨⟨p0.2.2.2, p1.2.2.2, p2.2.2.2⟩, fun y x hy hx => ⟨q0 y x hy hx, q1 y x hy hx, q2 y x hy hx⟩⟩
  obtain ⟨s, es, r⟩ := transform_ok hm (F32.round h.tone.intensityTarget) f.doYCbCr hs
  have hfin : ∀ m0 m1 m2, ShowsImage size.height size.width (fun y x => pixelColour matrix (F32.round h.tone.intensityTarget) f.doYCbCr (fun i => g i y x)) ⟨m0, m1, m2⟩ →
      FloatsShow 3 size (fun c y x => if hc : c < 3 then pixelColour matrix (F32.round h.tone.intensityTarget) f.doYCbCr (fun i => g i y x) ⟨c, hc⟩ else .fin 0)
        (({ b0 with floats := m0 } :: { b1 with floats := m1 } :: { b2 with floats := m2 } :: ex).take 3) := by
    intro m0 m1 m2 hr
    refine ⟨rfl, fun c hc => ?_⟩
    rcases (by omega : c = 0 ∨ c = 1 ∨ c = 2) with rfl | rfl | rfl
    · exact ⟨_, rfl, ⟨p0.1, p0.2.1, p0.2.2.1, hr.1.1⟩, fun y x hy hx => (hr.2 y x hy hx).1⟩
    · exact ⟨_, rfl, ⟨p1.1, p1.2.1, p1.2.2.1, hr.1.2.1⟩, fun y x hy hx => (hr.2 y x hy hx).2.1⟩
    · exact ⟨_, rfl, ⟨p2.1, p2.2.1, p2.2.2.1, hr.1.2.2⟩, fun y x hy hx => (hr.2 y x hy hx).2.2⟩
  unfold frameColours performColourTransforms
  rw [hsz]
  by_cases hc : (matrix.isNone && !f.doYCbCr) = true
  · rw [if_pos hc]
    rw [Bool.and_eq_true, Option.isNone_iff_eq_none] at hc
    obtain ⟨rfl, hy⟩ := hc
    have hy : f.doYCbCr = false := by simpa using hy
    refine ⟨_, rfl, rfl, hfin b0.floats b1.floats b2.floats ?_⟩
    rw [hy]
    exact hs
  · rw [if_neg hc]
    have cast : ∀ (i : Nat) (b : ImageBuffer), b.bufferType = 1 → (b0 :: b1 :: b2 :: ex)[i]? = some b → (do
          let b ← idx (b0 :: b1 :: b2 :: ex) (i : Int)
          if b.isInt then do
            let b ← castToFloatIfMax b (mask32 h.bitDepth.bits)
            setAt (b0 :: b1 :: b2 :: ex) (i : Int) b
          else .ok (b0 :: b1 :: b2 :: ex) : Res (List ImageBuffer)) = .ok (b0 :: b1 :: b2 :: ex) := by
      intro i b ht hi
      rw [idx_nat hi, Res.bind_ok, if_neg (by unfold ImageBuffer.isInt; rw [ht]; decide)]
    have ec : castColours h.bitDepth.bits (b0 :: b1 :: b2 :: ex) = .ok (b0 :: b1 :: b2 :: ex) := by
      unfold castColours
      rw [forFrom, cast 0 b0 p0.1 rfl, Res.bind_ok, forFrom, cast (0 + 1) b1 p1.1 rfl, Res.bind_ok, forFrom, cast (0 + 1 + 1) b2 p2.1 rfl, Res.bind_ok, forFrom]
    rw [ec, Res.bind_ok]
    show ∃ bufs, (do
      let s ← transformPlanes matrix (F32.round h.tone.intensityTarget) f.doYCbCr (.ok size) ⟨b0.floats, b1.floats, b2.floats⟩
      let l ← setAt (b0 :: b1 :: b2 :: ex) 0 { b0 with floats := s.p0 }
      let l ← setAt l 1 { b1 with floats := s.p1 }
      setAt l 2 { b2 with floats := s.p2 } : Res (List ImageBuffer)) = .ok bufs ∧ _
    rw [show transformPlanes matrix (F32.round h.tone.intensityTarget) f.doYCbCr (.ok size) ⟨b0.floats, b1.floats, b2.floats⟩ = .ok s from es, Res.bind_ok]
    refine ⟨{ b0 with floats := s.p0 } :: { b1 with floats := s.p1 } :: { b2 with floats := s.p2 } :: ex, ?_, rfl, hfin s.p0 s.p1 s.p2 r⟩
    show (do
      let l ← setAt (b0 :: b1 :: b2 :: ex) ((0 : Nat) : Int) { b0 with floats := s.p0 }
      let l ← setAt l ((1 : Nat) : Int) { b1 with floats := s.p1 }
      setAt l ((2 : Nat) : Int) { b2 with floats := s.p2 }) = _
    rw [setAt_nat' _ _ _ (by simp), Res.bind_ok]
    rw [setAt_nat' _ _ _ (by simp), Res.bind_ok, setAt_nat' _ _ _ (by simp)]
    rfl

/-- The colours of the planes of a VarDCT frame. -/
theorem varColours_ok {matrix : Option (Opsin F32)} (hm : ∀ o, matrix = some o → Is3 o.matrix ∧ o.bias.length = 3 ∧ o.cbrtBias.length = 3) {h : ImageHeader} {f : FrameHeader} {F : CodedFrame}
    (hL : VarLayer h f F) {g : FloatPic} {out : List ImageBuffer} (ho : FloatsShow 3 (blocksOf f) g (out.take 3)) :
    ∃ bufs, frameColours matrix h f out = .ok bufs ∧ bufs.drop 3 = out.drop 3 ∧
      FloatsShow 3 (blocksOf f) (fun c y x => if hc : c < 3 then pixelColour matrix (F32.round h.tone.intensityTarget) f.doYCbCr (fun i => g i y x) ⟨c, hc⟩ else .fin 0) (bufs.take 3) := by
  have hsz : paddedFrameSize { f with size := ⟨u32 (f.size.width * f.upsampling), u32 (f.size.height * f.upsampling)⟩ } = .ok (blocksOf f) := by
    have h1 := hL.size
    rw [hL.unscaled.1, Nat.mul_one, Nat.mul_one]
    unfold u32
    rw [Nat.mod_eq_of_lt (by omega), Nat.mod_eq_of_lt (by omega)]
    have := varPadded hL.plain
    unfold paddedFrameSize at this ⊢
    exact this
  exact coloursAt_ok hm hsz ho

/-! ## The canvas -/

/-- The store of the decoder while regular frames are decoded: the canvas shows the picture, or is not used yet. -/
structure FloatCanvas (h : ImageHeader) (w : FloatPic) (s : Store) : Prop where
  refs : s.refs.length = 4
  canvas : (s.slices[s.canvas]? = some (List.replicate (channelCount h) ⟨0, 0, 0, [], []⟩) ∧ w = fun _ _ _ => .fin 0) ∨
    ∃ l, s.slices[s.canvas]? = some l ∧ FloatsShow (channelCount h) h.size w l

theorem initAny_ok {h : ImageHeader} {w : FloatPic} {s : Store} {bufs : List ImageBuffer} (hc : FloatCanvas h w s)
    (hb : s.slices[s.frame]? = some bufs) {b0 : ImageBuffer} (hb0 : bufs[0]? = some b0) (p0 : b0.bufferType = 1) (hne : s.frame ≠ s.canvas)
    (hw : 0 < h.size.width ∧ h.size.width < 2 ^ 30) (hh : 0 < h.size.height ∧ h.size.height < 2 ^ 30) :
    ∃ s' l, initCanvas h s = .ok s' ∧ s'.refs.length = 4 ∧ s'.frame = s.frame ∧ s'.canvas = s.canvas ∧ s'.slices[s.frame]? = some bufs ∧ s'.slices[s.canvas]? = some l ∧
      FloatsShow (channelCount h) h.size w l := by
  have hcp := channelCount_pos h
  rcases hc.canvas with ⟨e, rfl⟩ | ⟨l, e, hl⟩
  · obtain ⟨k, hk⟩ : ∃ k, channelCount h = k + 1 := ⟨channelCount h - 1, by omega⟩
    have hi1 : i32 (h.size.height : Int) = h.size.height := i32_ofNat (by omega)
    have hi2 : i32 (h.size.width : Int) = h.size.width := i32_ofNat (by omega)
    have en : newImageBuffer b0.bufferType (i32 h.size.height) (i32 h.size.width) =
        .ok ⟨h.size.width, h.size.height, 1, List.replicate h.size.height (List.replicate h.size.width (.fin 0)), []⟩ := by
      unfold newImageBuffer
      rw [hi1, hi2, p0, if_neg (by omega), if_neg (by omega), if_neg (by decide), makeMatrix_table]
      rfl
    have hlt : s.canvas < s.slices.length := (List.getElem?_eq_some_iff.mp e).1
    refine ⟨{ s with slices := s.slices.set s.canvas (List.replicate (channelCount h) ⟨h.size.width, h.size.height, 1, List.replicate h.size.height (List.replicate h.size.width (.fin 0)), []⟩) },
      _, ?_, hc.refs, rfl, rfl, ?_, List.getElem?_set_self hlt, ?_⟩
    · unfold initCanvas
      rw [idx_of_getElem? _ _ _ e, Res.bind_ok]
      rw [show idx (List.replicate (channelCount h) (⟨0, 0, 0, [], []⟩ : ImageBuffer)) 0 = .ok ⟨0, 0, 0, [], []⟩ by rw [hk, List.replicate_succ]; rfl, Res.bind_ok, if_pos ⟨rfl, rfl⟩]
      rw [show s.get s.frame 0 = .ok b0 from Store.get_some (s := s) (a := s.frame) (i := 0) (by unfold buffer; rw [hb]; exact hb0), Res.bind_ok, en, Res.bind_ok, setAt_nat' _ _ _ hlt, List.length_replicate]
      rfl
    · show (s.slices.set _ _)[s.frame]? = _
      rw [List.getElem?_set_ne (Ne.symm hne), hb]
    · refine ⟨List.length_replicate, fun c hcl => ⟨_, List.getElem?_replicate_of_lt hcl, ⟨rfl, rfl, rfl, table_replicate _ _ _⟩, fun y x hy hx => ?_⟩⟩
      simp [sample, hy, hx]
  · obtain ⟨b, hlb, pb, -⟩ := hl.2 0 hcp
    refine ⟨s, l, ?_, hc.refs, rfl, rfl, hb, e, hl⟩
    unfold initCanvas
    rw [idx_of_getElem? _ _ _ e, Res.bind_ok, show idx l 0 = .ok b from idx_of_getElem? l 0 b hlb, Res.bind_ok, if_neg (by rw [pb.2.1]; omega)]

theorem initFloats_ok {h : ImageHeader} {w : FloatPic} {s : Store} {v : FloatPic} {size : Dim} {bufs : List ImageBuffer} (hc : FloatCanvas h w s)
    (hb : s.slices[s.frame]? = some bufs) (hbv : FloatsShow 3 size v (bufs.take 3)) (hne : s.frame ≠ s.canvas)
    (hw : 0 < h.size.width ∧ h.size.width < 2 ^ 30) (hh : 0 < h.size.height ∧ h.size.height < 2 ^ 30) :
    ∃ s' l, initCanvas h s = .ok s' ∧ s'.refs.length = 4 ∧ s'.frame = s.frame ∧ s'.canvas = s.canvas ∧ s'.slices[s.frame]? = some bufs ∧ s'.slices[s.canvas]? = some l ∧
      FloatsShow (channelCount h) h.size w l := by
  obtain ⟨b0, hb0, p0, -⟩ := hbv.2 0 (by decide)
  rw [List.getElem?_take_of_lt (by decide)] at hb0
  exact initAny_ok hc hb hb0 p0.1 hne hw hh

theorem varRect {h : ImageHeader} {f : FrameHeader} {F : CodedFrame} (hL : VarLayer h f F) (hw : h.size.width < 2 ^ 30) (hh : h.size.height < 2 ^ 30) :
    f.rect = ⟨f.x0, f.y0, f.size.width, f.size.height⟩ := by
  obtain ⟨m1, m2, m3, m4⟩ := hL.meets
  obtain ⟨z1, z2⟩ := hL.size
  unfold FrameHeader.rect
  rw [hL.unscaled.1, Nat.mul_one, Nat.mul_one, Nat.cast_one, Int.mul_one, Int.mul_one, i32_in (by omega) (by omega), i32_in (by omega) (by omega)]
  unfold u32
  rw [Nat.mod_eq_of_lt (by omega), Nat.mod_eq_of_lt (by omega)]

/-- The channel of a frame that is painted on channel `c` of the image. -/
def colourFor (h : ImageHeader) (c : Nat) : Nat := if h.colourCount = 3 then c else 1

/-- What takes part in painting channel `c` with a VarDCT frame that replaces. -/
def replacedFloats (h : ImageHeader) (f : FrameHeader) (s : Store) (l bufs : List ImageBuffer) (c : Nat) : Channel :=
  let info := if c < h.colourCount then f.blending else f.ecBlending.getD (c - h.colourCount) ⟨0, 0, false, 0⟩
  ⟨info, if c < h.colourCount then false else decide ((h.extra[c - h.colourCount]?).map (·.ecType) = some 0), l.getD c ⟨0, 0, 0, [], []⟩, bufs.getD (colourFor h c) ⟨0, 0, 0, [], []⟩,
    s.refs.getD info.source none, none, none⟩

/-- The integer buffers of extra channels. -/
def ExtraShow (h : ImageHeader) (f : FrameHeader) (u : Nat → Nat → Nat → Int) (bufs : List ImageBuffer) : Prop :=
  bufs.length = h.extra.length ∧ ∀ c, c < h.extra.length → ∃ b, bufs[c]? = some b ∧ b.IntPicture (blocksOf f).height (blocksOf f).width ∧
    ∀ y x, y < f.size.height → x < f.size.width → sample b.ints y x = some (u c y x)

/-- The picture that a frame paints: its colours, and its extra channels as floats. -/
def paintedPic (h : ImageHeader) (v : FloatPic) (u : Nat → Nat → Nat → Int) : FloatPic := fun c y x =>
  if c < h.colourCount then v (colourFor h c) y x else unit (depth h c) (u (c - h.colourCount) y x)

theorem colourCount_cases (h : ImageHeader) : h.colourCount = 1 ∨ h.colourCount = 3 := by
  unfold ImageHeader.colourCount
  split
  · exact Or.inl rfl
  · exact Or.inr rfl

theorem colourFor_lt {h : ImageHeader} {c : Nat} (hc : c < h.colourCount) : colourFor h c < 3 := by
  unfold colourFor
  have := colourCount_cases h
  split <;> omega

theorem paintFloats_ok (I : BlendImpl) {h : ImageHeader} {f : FrameHeader} {F : CodedFrame} {v w : FloatPic} {u : Nat → Nat → Nat → Int} (hL : VarLayer h f F)
    (hr : RegularBasics h.extra.length f) (hw : 0 < h.size.width ∧ h.size.width < 2 ^ 30) (hh : 0 < h.size.height ∧ h.size.height < 2 ^ 30)
    (hal : h.alphaIndices = alphaChannels h.extra) {s : Store} {l bufs : List ImageBuffer} (hrefs : s.refs.length = 4) (hl : s.slices[s.canvas]? = some l)
    (hlw : FloatsShow (channelCount h) h.size w l) (hb : s.slices[s.frame]? = some bufs) (hbv : FloatsShow 3 (blocksOf f) v (bufs.take 3)) (hbx : ExtraShow h f u (bufs.drop 3))
    (hne : s.frame ≠ s.canvas) :
    ∃ s' l', paintFrame I h f s = .ok s' ∧ s'.refs.length = 4 ∧ s'.slices[s'.canvas]? = some l' ∧
      FloatsShow (channelCount h) h.size (putFloatsOn f (paintedPic h v u) w) l' := by
  obtain ⟨s1, e1, r1, l1, b1, n1⟩ := detach_ok f hl hb hne
  have hrect := varRect hL hw.2 hh.2
  have hfc : frameColourCount h f.encoding = 3 := by
    unfold frameColourCount
    rw [hL.plain.encoding]
    cases h.xyb <;> rfl
  have hcc : channelCount h = h.colourCount + h.extra.length := rfl
  have hgl : ∀ c, c < channelCount h → l[c]? = some (l.getD c ⟨0, 0, 0, [], []⟩) ∧ (l.getD c ⟨0, 0, 0, [], []⟩).FloatPicture h.size.height h.size.width ∧
      ∀ y x, y < h.size.height → x < h.size.width → sample (l.getD c ⟨0, 0, 0, [], []⟩).floats y x = some (w c y x) := by
    intro c hc
    obtain ⟨b, e, p⟩ := hlw.2 c hc
    rw [List.getD_eq_getElem?_getD, e]
    exact ⟨rfl, p⟩
  have hgb : ∀ c, c < 3 → bufs[c]? = some (bufs.getD c ⟨0, 0, 0, [], []⟩) ∧ (bufs.getD c ⟨0, 0, 0, [], []⟩).FloatPicture (blocksOf f).height (blocksOf f).width ∧
      ∀ y x, y < (blocksOf f).height → x < (blocksOf f).width → sample (bufs.getD c ⟨0, 0, 0, [], []⟩).floats y x = some (v c y x) := by
    intro c hc
    obtain ⟨b, e, p⟩ := hbv.2 c hc
    rw [List.getElem?_take_of_lt hc] at e
    rw [List.getD_eq_getElem?_getD, e]
    exact ⟨rfl, p⟩
  have hgx : ∀ c, c < h.extra.length → bufs[3 + c]? = some (bufs.getD (3 + c) ⟨0, 0, 0, [], []⟩) ∧ (bufs.getD (3 + c) ⟨0, 0, 0, [], []⟩).IntPicture (blocksOf f).height (blocksOf f).width ∧
      ∀ y x, y < f.size.height → x < f.size.width → sample (bufs.getD (3 + c) ⟨0, 0, 0, [], []⟩).ints y x = some (u c y x) := by
    intro c hc
    obtain ⟨b, e, p⟩ := hbx.2 c hc
    rw [List.getElem?_drop] at e
    rw [List.getD_eq_getElem?_getD, e]
    exact ⟨rfl, p⟩
  have hlen : bufs.length = 3 + h.extra.length := by
    have h1 := hbx.1
    have h2 := hbv.1
    rw [List.length_drop] at h1
    rw [List.length_take] at h2
    omega
  -- channels after the colours
  have hthree : ∀ c, c < channelCount h → ¬ c < h.colourCount → h.colourCount = 3 ∧ colourFor h c = 3 + (c - h.colourCount) ∧ c - h.colourCount < h.extra.length := by
    intro c hc hx
    have h3 : h.colourCount = 3 := by
      rcases hL.colours with h3 | h0
      · exact h3
      · rw [h0, List.length_nil] at hcc
        omega
    refine ⟨h3, ?_, by omega⟩
    unfold colourFor
    rw [if_pos h3]
    omega
  have hdep : ∀ c, c < channelCount h → ¬ c < h.colourCount → 1 ≤ depth h c ∧ depth h c ≤ 31 := by
    intro c hc hx
    unfold depth
    rw [if_neg hx, List.getElem?_eq_getElem (hthree c hc hx).2.2]
    exact hL.depths _ (List.getElem_mem _)
  have hinfo : ∀ c, c < channelCount h → (replacedFloats h f s1 l bufs c).info.mode = 0 ∧ (replacedFloats h f s1 l bufs c).info.alpha = 0 ∧ (replacedFloats h f s1 l bufs c).info.source < 4 ∧
      (¬ c < h.colourCount → f.ecBlending[c - h.colourCount]? = some (replacedFloats h f s1 l bufs c).info) := by
    intro c hc
    unfold replacedFloats
    dsimp only
    by_cases hx : c < h.colourCount
    · rw [if_pos hx]
      exact ⟨hL.replace.1, hr.blending.2.1 (by have := hL.replace.1; omega), hr.blending.2.2, fun hy => absurd hx hy⟩
    · rw [if_neg hx]
      have hi : c - h.colourCount < f.ecBlending.length := by rw [hr.ecBlending.1]; omega
      rw [List.getD_eq_getElem?_getD, List.getElem?_eq_getElem hi, Option.getD_some]
      have hm := hL.replace.2 _ (List.getElem_mem hi)
      have := hr.ecBlending.2 _ (List.getElem_mem hi)
      exact ⟨hm, this.2.1 (by omega), this.2.2, fun _ => rfl⟩
  obtain ⟨z1, z2⟩ := hL.size
  have hbo : (blocksOf f).height = 8 * ((f.size.height + 7) / 8) ∧ (blocksOf f).width = 8 * ((f.size.width + 7) / 8) := ⟨rfl, rfl⟩
  have sc : Scene h f s1 h.size.height h.size.width f.rect (channelCount h) (replacedFloats h f s1 l bufs) := by
    refine ⟨fun c hc => ?_, fun c hc => ?_, n1, fun i hi => ?_, ?_, ⟨hh.1, by omega⟩, by omega⟩
    · obtain ⟨i1, i2, i3, i4⟩ := hinfo c hc
      refine ⟨?_, ?_, ?_, ?_, ?_, fun hx => absurd i1 hx, fun hx => by omega⟩
      · unfold buffer
        rw [l1]
        exact (hgl c hc).1
      · by_cases hx : c < h.colourCount
        · rw [hfc, show frameIndex h 3 c = colourFor h c by
            unfold frameIndex colourFor
            rw [if_pos hx]
            by_cases h3 : h.colourCount = 3
            · rw [if_pos h3.symm, if_pos h3]
            · rw [if_neg (Ne.symm h3), if_neg h3]]
          unfold buffer
          rw [b1]
          exact (hgb _ (colourFor_lt hx)).1
        · obtain ⟨h3, hcf, hi⟩ := hthree c hc hx
          rw [hfc, show frameIndex h 3 c = colourFor h c by
            unfold frameIndex
            rw [if_neg hx, hcf]]
          unfold buffer
          rw [b1]
          show bufs[colourFor h c]? = some (bufs.getD (colourFor h c) _)
          rw [hcf]
          exact (hgx _ hi).1
      · by_cases hx : c < h.colourCount
        · rw [if_pos hx]
          unfold replacedFloats
          rw [if_pos hx]
        · rw [if_neg hx]
          exact i4 hx
      · by_cases hx : c < h.colourCount
        · rw [if_pos hx]
          unfold replacedFloats
          dsimp only
          rw [if_pos hx]
        · rw [if_neg hx]
          have hi : c - h.colourCount < h.extra.length := by omega
          refine ⟨_, List.getElem?_eq_getElem hi, ?_⟩
          unfold replacedFloats
          dsimp only
          rw [if_neg hx, List.getElem?_eq_getElem hi]
          simp
      · have hs4 : (replacedFloats h f s1 l bufs c).info.source < s1.refs.length := by rw [r1, hrefs]; exact i3
        show s1.refs[(replacedFloats h f s1 l bufs c).info.source]? = some (s1.refs.getD (replacedFloats h f s1 l bufs c).info.source none)
        rw [List.getD_eq_getElem?_getD, List.getElem?_eq_getElem hs4]
        rfl
    · obtain ⟨i1, i2, i3, i4⟩ := hinfo c hc
      refine ⟨by omega, fun hx => ?_, Or.inl (hgl c hc).2.1, ?_, fun hx => by omega, fun hx => absurd i1 hx, fun hx => by omega, fun hx => absurd i1 hx, fun _ hx => by omega⟩
      · rw [i2]
        rcases he : h.extra with _ | ⟨x, xs⟩
        · unfold ImageHeader.hasAlpha at hx
          rw [hal, he] at hx
          simp [alphaChannels] at hx
        · simp
      · rw [hrect]
        refine ⟨(blocksOf f).height, (blocksOf f).width, ?_, by show f.size.height ≤ _; omega, by show f.size.width ≤ _; omega, by omega, by omega⟩
        by_cases hx : c < h.colourCount
        · exact Or.inl (hgb _ (colourFor_lt hx)).2.1
        · obtain ⟨h3, hcf, hi⟩ := hthree c hc hx
          refine Or.inr ⟨?_, hdep c hc hx⟩
          show (bufs.getD (colourFor h c) _).IntPicture _ _
          rw [hcf]
          exact (hgx _ hi).2.1
    · rw [hfc] at hi
      unfold buffer
      rw [b1]
      exact ⟨_, List.getElem?_eq_getElem (show i < bufs.length by rw [hlen]; exact hi)⟩
    · rcases hL.colours with h3 | h0
      · exact Or.inl (hfc.trans h3.symm)
      · refine Or.inr fun i b hib => ?_
        unfold buffer at hib
        rw [b1, Option.bind_some] at hib
        have hlt := (List.getElem?_eq_some_iff.mp hib).1
        rw [hlen, h0, List.length_nil] at hlt
        have h2 := hgb i hlt
        rw [hib] at h2
        rw [Option.some.inj h2.1]
        exact h2.2.1.1
  obtain ⟨m1, m2, m3, m4⟩ := hL.meets
  obtain ⟨s2, e2, hp⟩ := blendFrame_ok I True (h := h) (f := f) (H := h.size.height) (W := h.size.width) (k := replacedFloats h f s1 l bufs) (s := s1) (nc := channelCount h) rfl
    (by rw [l1, Option.map_some, hlw.1]) sc hw.2 hh.2 (by rw [hrect]; exact z1) (by rw [hrect]; exact z2) (by rw [hrect]; exact hL.place) (by rw [hrect]; exact m1)
    (by rw [hrect]; exact m2) (by rw [hrect]; exact m3) (by rw [hrect]; exact m4) (fun hx => absurd trivial hx)
  have hcan : ∀ c, c < channelCount h → ∃ b, buffer s2 s1.canvas c = some b ∧ b.FloatPicture h.size.height h.size.width ∧
      ∀ y x, y < h.size.height → x < h.size.width → sample b.floats y x = some (putFloatsOn f (paintedPic h v u) w c y x) := by
    intro c hc
    obtain ⟨b, h1, h2, h3⟩ := hp.done c hc
    refine ⟨b, h1, ?_⟩
    rcases h2 with ⟨h2, -⟩ | ⟨h2, h4⟩
    · have := (hgl c hc).2.1.1
      rw [show l.getD c ⟨0, 0, 0, [], []⟩ = (replacedFloats h f s1 l bufs c).canvas from rfl, h2.1] at this
      cases this
    · refine ⟨h2, fun y x hy hx => ?_⟩
      rw [h4 y x hy hx, hrect]
      unfold putFloatsOn
      by_cases hcov : Covered ⟨f.x0, f.y0, f.size.width, f.size.height⟩ y x
      · obtain ⟨c1, c2, c3, c4⟩ := hcov
        dsimp only at c1 c2 c3 c4
        rw [if_pos ⟨c1, c2, c3, c4⟩, if_pos ⟨c1, c2, c3, c4⟩, (hinfo c hc).1]
        show some (px (depth h c) (bufs.getD (colourFor h c) ⟨0, 0, 0, [], []⟩) ((y : Int) - f.y0).toNat ((x : Int) - f.x0).toNat) = _
        unfold paintedPic
        by_cases hcl : c < h.colourCount
        · rw [if_pos hcl]
          obtain ⟨-, g1, g2⟩ := hgb _ (colourFor_lt hcl)
          unfold px value
          rw [if_neg (by rw [g1.1]; decide), g2 _ _ (by omega) (by omega)]
          rfl
        · rw [if_neg hcl]
          obtain ⟨h3, hcf, hi⟩ := hthree c hc hcl
          rw [hcf]
          obtain ⟨-, g1, g2⟩ := hgx _ hi
          unfold px value
          rw [if_pos g1.1, g2 _ _ (by omega) (by omega)]
          rfl
      · rw [if_neg hcov, if_neg (show ¬ (f.y0 ≤ (y : Int) ∧ (y : Int) < f.y0 + f.size.height ∧ f.x0 ≤ (x : Int) ∧ (x : Int) < f.x0 + f.size.width) from hcov)]
        show value (depth h c) (l.getD c ⟨0, 0, 0, [], []⟩) y x = _
        unfold value
        rw [if_neg (by rw [(hgl c hc).2.1.1]; decide)]
        exact (hgl c hc).2.2 y x hy hx
  obtain ⟨l', hl'⟩ : ∃ l', s2.slices[s1.canvas]? = some l' := by
    obtain ⟨b, hb, -⟩ := hcan 0 (channelCount_pos h)
    unfold buffer at hb
    cases hx : s2.slices[s1.canvas]? with
    | none => rw [hx] at hb; cases hb
    | some l' => exact ⟨l', rfl⟩
  refine ⟨s2, l', ?_, by rw [hp.refs, r1, hrefs], by rw [hp.canvas, hl'], ?_, ?_⟩
  · unfold paintFrame
    rw [if_pos (by have := hL.regular; simpa using this), e1, Res.bind_ok, e2]
  · have h1 : channelCount h ≤ l'.length := by
      by_contra hx
      obtain ⟨b, hb, -⟩ := hcan l'.length (by omega)
      unfold buffer at hb
      rw [hl', Option.bind_some, List.getElem?_eq_none (Nat.le_refl _)] at hb
      cases hb
    have h2 := hp.none s1.canvas (channelCount h) (by
      unfold buffer
      rw [l1, Option.bind_some, List.getElem?_eq_none (by rw [hlw.1])])
    unfold buffer at h2
    rw [hl', Option.bind_some] at h2
    have := List.getElem?_eq_none_iff.mp h2
    omega
  · intro c hc
    obtain ⟨b, hb, p⟩ := hcan c hc
    unfold buffer at hb
    rw [hl', Option.bind_some] at hb
    exact ⟨b, hb, p⟩

/-- A VarDCT frame that replaces is put on the canvas. -/
theorem composeFloats_ok (I : BlendImpl) {matrix : Option (Opsin F32)} {h : ImageHeader} {f : FrameHeader} {F : CodedFrame} {v w : FloatPic} {u : Nat → Nat → Nat → Int} (hL : VarLayer h f F)
    (hr : RegularBasics h.extra.length f) (hw : 0 < h.size.width ∧ h.size.width < 2 ^ 30) (hh : 0 < h.size.height ∧ h.size.height < 2 ^ 30)
    (hal : h.alphaIndices = alphaChannels h.extra) {s : Store} (hc : FloatCanvas h w s) {out bufs : List ImageBuffer} (hct : frameColours matrix h f out = .ok bufs)
    (hbv : FloatsShow 3 (blocksOf f) v (bufs.take 3)) (hbx : ExtraShow h f u (bufs.drop 3)) :
    ∃ s' l', composeFrame I h (frameColours matrix h) ⟨f, out⟩ s = .ok s' ∧ s'.refs.length = 4 ∧ s'.slices[s'.canvas]? = some l' ∧
      FloatsShow (channelCount h) h.size (putFloatsOn f (paintedPic h v u) w) l' := by
  have hlt : s.canvas < s.slices.length := by
    rcases hc.canvas with ⟨e, -⟩ | ⟨l, e, -⟩ <;> exact (List.getElem?_eq_some_iff.mp e).1
  have hfr : ∀ l : List ImageBuffer, (s.slices ++ [l])[s.slices.length]? = some l := by
    intro l
    rw [List.getElem?_append_right (Nat.le_refl _), Nat.sub_self]
    rfl
  have hcv : ∀ (l : List ImageBuffer) (r : List (Option Nat)), r.length = 4 → FloatCanvas h w ⟨s.slices ++ [l], s.canvas, s.slices.length, r⟩ := by
    intro l r hr4
    refine ⟨hr4, ?_⟩
    show ((s.slices ++ [l])[s.canvas]? = _ ∧ _) ∨ ∃ l', (s.slices ++ [l])[s.canvas]? = _ ∧ _
    rw [List.getElem?_append_left hlt]
    exact hc.canvas
  obtain ⟨r, e1, hr4⟩ : ∃ r : List (Option Nat), saveEarly f { s with slices := s.slices ++ [out], frame := s.slices.length } = .ok ⟨s.slices ++ [out], s.canvas, s.slices.length, r⟩ ∧ r.length = 4 := by
    unfold saveEarly
    split
    · rw [setAt_nat' _ _ _ (show f.saveAsReference < s.refs.length by rw [hc.refs]; exact hr.save), Res.bind_ok]
      exact ⟨_, rfl, by rw [List.length_set, hc.refs]⟩
    · exact ⟨_, rfl, hc.refs⟩
  have e2 : colourStep (frameColours matrix h) f ⟨s.slices ++ [out], s.canvas, s.slices.length, r⟩ = .ok ⟨s.slices ++ [bufs], s.canvas, s.slices.length, r⟩ := by
    unfold colourStep
    dsimp only
    rw [idx_of_getElem? _ _ _ (hfr out), Res.bind_ok, hct, Res.bind_ok, setAt_nat' _ _ _ (by simp), Res.bind_ok]
    rw [show (s.slices ++ [out]).set s.slices.length bufs = s.slices ++ [bufs] by simp]
  obtain ⟨s2, l, e3, r2, f2, c2, b2, l2, p2⟩ := initFloats_ok (hcv bufs r hr4) (hfr bufs) hbv (Nat.ne_of_gt hlt) hw hh
  obtain ⟨s3, l', e4, r3, l3, p3⟩ := paintFloats_ok I hL hr hw hh hal r2 (by rw [c2]; exact l2) p2 (by rw [f2]; exact b2) hbv hbx (by rw [f2, c2]; exact Nat.ne_of_gt hlt)
  have e5 : ∃ s4, saveLate f s3 = .ok s4 ∧ s4.refs.length = 4 ∧ s4.slices[s4.canvas]? = some l' := by
    unfold saveLate
    split
    · rw [setAt_nat' _ _ _ (show f.saveAsReference < s3.refs.length by rw [r3]; exact hr.save), Res.bind_ok]
      exact ⟨_, rfl, by rw [List.length_set, r3], l3⟩
    · exact ⟨_, rfl, r3, l3⟩
  obtain ⟨s4, e5, r4, l4⟩ := e5
  refine ⟨s4, l', ?_, r4, l4, p3⟩
  unfold composeFrame
  dsimp only
  rw [if_neg (by have := hL.regular; omega), e1, Res.bind_ok, e2, Res.bind_ok, e3, Res.bind_ok, e4, Res.bind_ok, e5]

end Jxl
