import Verif.Proofs.DecodeFrame
import Verif.Props.Blend
import Verif.Model.Compose

/-! # Decoding of files: putting frames on the canvas -/
namespace Jxl
open Spec

theorem set_self {α : Type} {l : List α} {i : Nat} {a : α} (h : l[i]? = some a) : l.set i a = l := by
  apply List.ext_getElem?
  intro j
  by_cases hj : i = j
  · subst hj
    rw [List.getElem?_set_self (List.getElem?_eq_some_iff.mp h).1, h]
  · rw [List.getElem?_set_ne hj]

theorem upsample_unscaled {h : ImageHeader} {f : FrameHeader} (hu : f.upsampling = 1 ∧ ∀ u ∈ f.ecUpsampling, u = 1) {l : List ImageBuffer}
    (hl : l.length ≤ frameColourCount h f.encoding + f.ecUpsampling.length) (up : Res (List (List (List (List (List F32)))))) (orders : Nat → List UpStep) :
    upsampleFrame h f up orders l = .ok l := by
  unfold upsampleFrame
  obtain ⟨l', e, rfl⟩ := forFrom_inv (f := fun c l => onBuffer (performUpsampling h f up (orders c) c) c l) (fun _ l' => l' = l) l.length 0 l rfl (by
    rintro c l' _ hc rfl
    have hb := List.getElem?_eq_getElem (show c < l'.length by omega)
    generalize l'[c]'(by omega) = b at hb
    refine ⟨l', ?_, rfl⟩
    have hk : upFactor h f c = .ok 1 := by
      unfold upFactor
      split
      · rw [hu.1]
      · have hi : c - frameColourCount h f.encoding < f.ecUpsampling.length := by omega
        have := List.getElem?_eq_getElem hi
        rw [hu.2 _ (List.getElem_mem hi)] at this
        rw [show ((c : Int) - (frameColourCount h f.encoding : Int)) = ((c - frameColourCount h f.encoding : Nat) : Int) by omega]
        exact idx_of_getElem? _ _ _ this
    have hp : performUpsampling h f up (orders c) c b = .ok b := by
      unfold performUpsampling
      rw [hk, Res.bind_ok, if_pos rfl]
    unfold onBuffer
    rw [idx_of_getElem? _ _ _ hb, Res.bind_ok, hp, Res.bind_ok, setAt_nat' _ _ _ (by omega)]
    congr 1
    exact set_self hb)
  exact e

theorem colours_plain {h : ImageHeader} {f : FrameHeader} (hy : f.doYCbCr = false) (l : List ImageBuffer) : frameColours none h f l = .ok l := by
  unfold frameColours performColourTransforms
  rw [hy]
  rfl

/-- The store of the decoder while regular frames are decoded: the canvas shows the picture, or is not used yet. -/
structure Canvas (h : ImageHeader) (w : Pic) (s : Store) : Prop where
  refs : s.refs.length = 4
  canvas : (s.slices[s.canvas]? = some (List.replicate (channelCount h) ⟨0, 0, 0, [], []⟩) ∧ w = fun _ _ _ => 0) ∨
    ∃ l, s.slices[s.canvas]? = some l ∧ ShowsPicture (channelCount h) h.size w l

theorem channelCount_pos (h : ImageHeader) : 0 < channelCount h := by unfold channelCount; split <;> omega

theorem initCanvas_ok {h : ImageHeader} {w : Pic} {s : Store} {v : Pic} {size : Dim} {bufs : List ImageBuffer} (hc : Canvas h w s)
    (hb : s.slices[s.frame]? = some bufs) (hbv : ShowsPicture (channelCount h) size v bufs) (hne : s.frame ≠ s.canvas)
    (hw : 0 < h.size.width ∧ h.size.width < 2 ^ 30) (hh : 0 < h.size.height ∧ h.size.height < 2 ^ 30) :
    ∃ s' l, initCanvas h s = .ok s' ∧ s'.refs.length = 4 ∧ s'.frame = s.frame ∧ s'.canvas = s.canvas ∧ s'.slices[s.frame]? = some bufs ∧ s'.slices[s.canvas]? = some l ∧
      ShowsPicture (channelCount h) h.size w l := by
  obtain ⟨b0, hb0, p0, -⟩ := hbv.2 0 (channelCount_pos h)
  have hcp := channelCount_pos h
  rcases hc.canvas with ⟨e, rfl⟩ | ⟨l, e, hl⟩
  · obtain ⟨k, hk⟩ : ∃ k, channelCount h = k + 1 := ⟨channelCount h - 1, by omega⟩
    have hi1 : i32 (h.size.height : Int) = h.size.height := i32_ofNat (by omega)
    have hi2 : i32 (h.size.width : Int) = h.size.width := i32_ofNat (by omega)
    have en : newImageBuffer b0.bufferType (i32 h.size.height) (i32 h.size.width) =
        .ok ⟨h.size.width, h.size.height, 0, [], List.replicate h.size.height (List.replicate h.size.width 0)⟩ := by
      unfold newImageBuffer
      rw [hi1, hi2, p0.1, if_neg (by omega), if_neg (by omega), if_pos rfl, makeMatrix_table]
      rfl
    have hlt : s.canvas < s.slices.length := (List.getElem?_eq_some_iff.mp e).1
    refine ⟨{ s with slices := s.slices.set s.canvas (List.replicate (channelCount h) ⟨h.size.width, h.size.height, 0, [], List.replicate h.size.height (List.replicate h.size.width 0)⟩) },
      _, ?_, hc.refs, rfl, rfl, ?_, List.getElem?_set_self hlt, ?_⟩
    · unfold initCanvas
      rw [idx_of_getElem? _ _ _ e, Res.bind_ok]
      rw [show idx (List.replicate (channelCount h) (⟨0, 0, 0, [], []⟩ : ImageBuffer)) 0 = .ok ⟨0, 0, 0, [], []⟩ by rw [hk, List.replicate_succ]; rfl, Res.bind_ok, if_pos ⟨rfl, rfl⟩]
      rw [show s.get s.frame 0 = .ok b0 from Store.get_some (s := s) (a := s.frame) (i := 0) (by unfold buffer; rw [hb]; exact hb0), Res.bind_ok, en, Res.bind_ok, setAt_nat' _ _ _ hlt, List.length_replicate]
      rfl
    · show (s.slices.set _ _)[s.frame]? = _
      rw [List.getElem?_set_ne (Ne.symm hne), hb]
    · refine ⟨List.length_replicate, fun c hcl => ⟨_, List.getElem?_replicate_of_lt hcl, ⟨rfl, rfl, rfl, table_replicate _ _ _⟩, table_replicate _ _ _, fun y x hy hx => ?_⟩⟩
      simp [sample, hy, hx]
  · obtain ⟨b, hlb, pb, -⟩ := hl.2 0 hcp
    refine ⟨s, l, ?_, hc.refs, rfl, rfl, hb, e, hl⟩
    unfold initCanvas
    rw [idx_of_getElem? _ _ _ e, Res.bind_ok, show idx l 0 = .ok b from idx_of_getElem? l 0 b hlb, Res.bind_ok, if_neg (by rw [pb.2.1]; omega)]

theorem detach_ok (f : FrameHeader) {s : Store} {l bufs : List ImageBuffer} (hl : s.slices[s.canvas]? = some l) (hb : s.slices[s.frame]? = some bufs)
    (hne : s.frame ≠ s.canvas) :
    ∃ s', detachCanvas f s = .ok s' ∧ s'.refs = s.refs ∧ s'.slices[s'.canvas]? = some l ∧ s'.slices[s'.frame]? = some bufs ∧ s'.frame ≠ s'.canvas := by
  unfold detachCanvas
  rw [idx_of_getElem? _ _ _ hl, Res.bind_ok]
  have hlt : s.frame < s.slices.length := (List.getElem?_eq_some_iff.mp hb).1
  split
  · refine ⟨_, rfl, rfl, ?_, ?_, Nat.ne_of_lt hlt⟩
    · show (s.slices ++ [l])[s.slices.length]? = _
      rw [List.getElem?_append_right (Nat.le_refl _), Nat.sub_self]
      rfl
    · show (s.slices ++ [l])[s.frame]? = _
      rw [List.getElem?_append_left hlt, hb]
  · exact ⟨s, rfl, rfl, hl, hb, hne⟩

/-- What takes part in painting channel `c` with a frame that replaces. -/
def replaced (h : ImageHeader) (f : FrameHeader) (s : Store) (l bufs : List ImageBuffer) (c : Nat) : Channel :=
  let info := if c < h.colourCount then f.blending else f.ecBlending.getD (c - h.colourCount) ⟨0, 0, false, 0⟩
  ⟨info, if c < h.colourCount then false else decide ((h.extra[c - h.colourCount]?).map (·.ecType) = some 0), l.getD c ⟨0, 0, 0, [], []⟩, bufs.getD c ⟨0, 0, 0, [], []⟩,
    s.refs.getD info.source none, none, none⟩

theorem rect_unscaled {h : ImageHeader} {f : FrameHeader} {v : Pic} (hL : Sheet h f v) (hw : h.size.width < 2 ^ 30) (hh : h.size.height < 2 ^ 30) :
    f.rect = ⟨f.x0, f.y0, f.size.width, f.size.height⟩ := by
  obtain ⟨m1, m2, m3, m4⟩ := hL.meets
  obtain ⟨z1, z2⟩ := hL.size
  unfold FrameHeader.rect
  rw [hL.unscaled.1, Nat.mul_one, Nat.mul_one, Nat.cast_one, Int.mul_one, Int.mul_one, i32_in (by omega) (by omega), i32_in (by omega) (by omega)]
  unfold u32
  rw [Nat.mod_eq_of_lt (by omega), Nat.mod_eq_of_lt (by omega)]

theorem paint_ok (I : BlendImpl) {h : ImageHeader} {f : FrameHeader} {v w : Pic} (hL : Layer h f v) (hr : RegularHeader h.extra.length f) (hV : Viewable h)
    (hal : h.alphaIndices = alphaChannels h.extra) {s : Store} {l bufs : List ImageBuffer} (hrefs : s.refs.length = 4) (hl : s.slices[s.canvas]? = some l)
    (hlw : ShowsPicture (channelCount h) h.size w l) (hb : s.slices[s.frame]? = some bufs) (hbv : ShowsPicture (channelCount h) f.size v bufs) (hne : s.frame ≠ s.canvas) :
    ∃ s' l', paintFrame I h f s = .ok s' ∧ s'.refs.length = 4 ∧ s'.slices[s'.canvas]? = some l' ∧ ShowsPicture (channelCount h) h.size (putOn f v w) l' := by
  obtain ⟨s1, e1, r1, l1, b1, n1⟩ := detach_ok f hl hb hne
  have hrect := rect_unscaled hL.toSheet hV.width.2 hV.height.2
  have hfc : frameColourCount h f.encoding = h.colourCount := by
    unfold frameColourCount
    rw [hL.plain.xyb, hL.plain.modular]
    rfl
  have hcc : channelCount h = h.colourCount + h.extra.length := rfl
  have hgl : ∀ c, c < channelCount h → l[c]? = some (l.getD c ⟨0, 0, 0, [], []⟩) := by
    intro c hc
    obtain ⟨b, e, -⟩ := hlw.2 c hc
    rw [List.getD_eq_getElem?_getD, e]
    rfl
  have hgb : ∀ c, c < channelCount h → bufs[c]? = some (bufs.getD c ⟨0, 0, 0, [], []⟩) := by
    intro c hc
    obtain ⟨b, e, -⟩ := hbv.2 c hc
    rw [List.getD_eq_getElem?_getD, e]
    rfl
  have hpl : ∀ c, c < channelCount h → (l.getD c ⟨0, 0, 0, [], []⟩).IntPicture h.size.height h.size.width ∧ HoldsPlane h.size.height h.size.width (w c) (l.getD c ⟨0, 0, 0, [], []⟩).ints := by
    intro c hc
    obtain ⟨b, e, p⟩ := hlw.2 c hc
    rw [List.getD_eq_getElem?_getD, e]
    exact p
  have hpb : ∀ c, c < channelCount h → (bufs.getD c ⟨0, 0, 0, [], []⟩).IntPicture f.size.height f.size.width ∧ HoldsPlane f.size.height f.size.width (v c) (bufs.getD c ⟨0, 0, 0, [], []⟩).ints := by
    intro c hc
    obtain ⟨b, e, p⟩ := hbv.2 c hc
    rw [List.getD_eq_getElem?_getD, e]
    exact p
  have hinfo : ∀ c, c < channelCount h → (replaced h f s1 l bufs c).info.mode = 0 ∧ (replaced h f s1 l bufs c).info.alpha = 0 ∧ (replaced h f s1 l bufs c).info.source < 4 ∧
      (¬ c < h.colourCount → f.ecBlending[c - h.colourCount]? = some (replaced h f s1 l bufs c).info) := by
    intro c hc
    unfold replaced
    dsimp only
    by_cases hx : c < h.colourCount
    · rw [if_pos hx]
      exact ⟨hL.replace.1, hr.blending.2.1 (by have := hL.replace.1; omega), hr.blending.2.2, fun hy => absurd hx hy⟩
    · rw [if_neg hx]
      have hi : c - h.colourCount < f.ecBlending.length := by rw [hr.ecBlending.1]; omega
      rw [List.getD_eq_getElem?_getD, List.getElem?_eq_getElem hi, Option.getD_some]
      have hm := hL.replace.2 _ (List.getElem_mem hi)
      have := hr.ecBlending.2 _ (List.getElem_mem hi)
      exact ⟨hm, this.2.1 (by omega), this.2.2, fun _ => rfl⟩
  have sc : Scene h f s1 h.size.height h.size.width f.rect (channelCount h) (replaced h f s1 l bufs) := by
    refine ⟨fun c hc => ?_, fun c hc => ?_, n1, fun i hi => ?_, Or.inl hfc, ⟨hV.height.1, by have := hV.height.2; omega⟩, by have := hV.width.2; omega⟩
    · obtain ⟨i1, i2, i3, i4⟩ := hinfo c hc
      refine ⟨?_, ?_, ?_, ?_, ?_, fun hx => absurd i1 hx, fun hx => ?_⟩
      · unfold buffer
        rw [l1]
        exact hgl c hc
      · rw [hfc, show frameIndex h h.colourCount c = c by unfold frameIndex; split <;> [rw [if_pos rfl]; omega]]
        unfold buffer
        rw [b1]
        exact hgb c hc
      · by_cases hx : c < h.colourCount
        · rw [if_pos hx]
          unfold replaced
          rw [if_pos hx]
        · rw [if_neg hx]
          exact i4 hx
      · by_cases hx : c < h.colourCount
        · rw [if_pos hx]
          unfold replaced
          dsimp only
          rw [if_pos hx]
        · rw [if_neg hx]
          have hi : c - h.colourCount < h.extra.length := by omega
          refine ⟨_, List.getElem?_eq_getElem hi, ?_⟩
          unfold replaced
          dsimp only
          rw [if_neg hx, List.getElem?_eq_getElem hi]
          simp
      · have hs4 : (replaced h f s1 l bufs c).info.source < s1.refs.length := by rw [r1, hrefs]; exact i3
        show s1.refs[(replaced h f s1 l bufs c).info.source]? = some (s1.refs.getD (replaced h f s1 l bufs c).info.source none)
        rw [List.getD_eq_getElem?_getD, List.getElem?_eq_getElem hs4]
        rfl
      · omega
    · obtain ⟨i1, i2, i3, i4⟩ := hinfo c hc
      refine ⟨by omega, fun hx => ?_, Or.inr ⟨(hpl c hc).1, hV.depths c hc⟩, ?_, fun hx => by omega, fun hx => absurd i1 hx, fun hx => by omega, fun hx => absurd i1 hx, fun _ hx => by omega⟩
      · rw [i2]
        rcases he : h.extra with _ | ⟨x, xs⟩
        · unfold ImageHeader.hasAlpha at hx
          rw [hal, he] at hx
          simp [alphaChannels] at hx
        · simp
      · rw [hrect]
        have := hL.size
        exact ⟨f.size.height, f.size.width, Or.inr ⟨(hpb c hc).1, hV.depths c hc⟩, Nat.le_refl _, Nat.le_refl _, by omega, by omega⟩
    · rw [hfc] at hi
      unfold buffer
      rw [b1]
      exact ⟨_, hgb i hi⟩
  obtain ⟨m1, m2, m3, m4⟩ := hL.meets
  obtain ⟨z1, z2⟩ := hL.size
  obtain ⟨s2, e2, hp⟩ := blendFrame_ok I False (h := h) (f := f) (H := h.size.height) (W := h.size.width) (k := replaced h f s1 l bufs) (s := s1) (nc := channelCount h) rfl
    (by rw [l1, Option.map_some, hlw.1]) sc hV.width.2 hV.height.2 (by rw [hrect]; exact z1) (by rw [hrect]; exact z2) (by rw [hrect]; exact hL.place) (by rw [hrect]; exact m1)
    (by rw [hrect]; exact m2) (by rw [hrect]; exact m3) (by rw [hrect]; exact m4)
    (fun _ c hc => ⟨by rw [(hinfo c hc).1]; omega, (hpl c hc).1.1, (hpb c hc).1.1, fun hx => by rw [(hinfo c hc).1] at hx; cases hx⟩)
  have hcan : ∀ c, c < channelCount h → ∃ b, buffer s2 s1.canvas c = some b ∧ b.IntPicture h.size.height h.size.width ∧
      HoldsPlane h.size.height h.size.width (putOn f v w c) b.ints := by
    intro c hc
    obtain ⟨b, h1, h2, h3⟩ := hp.done c hc
    refine ⟨b, h1, ?_⟩
    rcases h2 with ⟨-, h2, h4⟩ | ⟨h2, -⟩
    · refine ⟨h2, h2.2.2.2, fun y x hy hx => ?_⟩
      rw [h4 y x hy hx, hrect, (hinfo c hc).1]
      unfold putOn
      by_cases hcov : Covered ⟨f.x0, f.y0, f.size.width, f.size.height⟩ y x
      · obtain ⟨c1, c2, c3, c4⟩ := hcov
        dsimp only at c1 c2 c3 c4
        rw [if_pos ⟨c1, c2, c3, c4⟩, if_pos ⟨c1, c2, c3, c4⟩]
        show (if (bufs.getD c ⟨0, 0, 0, [], []⟩).bufferType = 0 then sample (bufs.getD c ⟨0, 0, 0, [], []⟩).ints ((y : Int) - f.y0).toNat ((x : Int) - f.x0).toNat else none) = _
        rw [if_pos (hpb c hc).1.1]
        exact (hpb c hc).2.2 _ _ (by omega) (by omega)
      · rw [if_neg hcov, if_neg (show ¬ (f.y0 ≤ (y : Int) ∧ (y : Int) < f.y0 + f.size.height ∧ f.x0 ≤ (x : Int) ∧ (x : Int) < f.x0 + f.size.width) from hcov)]
        exact (hpl c hc).2.2 y x hy hx
    · have := h3 not_false
      rw [h2.1] at this
      cases this
  obtain ⟨l', hl'⟩ : ∃ l', s2.slices[s1.canvas]? = some l' := by
    obtain ⟨b, hb, -⟩ := hcan 0 (channelCount_pos h)
    unfold buffer at hb
    cases hx : s2.slices[s1.canvas]? with
    | none => rw [hx] at hb; cases hb
    | some l' => exact ⟨l', rfl⟩
  refine ⟨s2, l', ?_, by rw [hp.refs, r1, hrefs], by rw [hp.canvas, hl'], ?_, ?_⟩
  · unfold paintFrame
    rw [if_pos (by have := hL.regular; simpa using this), e1, Res.bind_ok, e2]
  · have h1 : channelCount h ≤ l'.length := by
      by_contra hx
      obtain ⟨b, hb, -⟩ := hcan l'.length (by omega)
      unfold buffer at hb
      rw [hl', Option.bind_some, List.getElem?_eq_none (Nat.le_refl _)] at hb
      cases hb
    have h2 := hp.none s1.canvas (channelCount h) (by
      unfold buffer
      rw [l1, Option.bind_some, List.getElem?_eq_none (by rw [hlw.1])])
    unfold buffer at h2
    rw [hl', Option.bind_some] at h2
    have := List.getElem?_eq_none_iff.mp h2
    omega
  · intro c hc
    obtain ⟨b, hb, p⟩ := hcan c hc
    unfold buffer at hb
    rw [hl', Option.bind_some] at hb
    exact ⟨b, hb, p⟩

/-- A frame that replaces is put on the canvas. -/
theorem compose_ok (I : BlendImpl) {h : ImageHeader} {f : FrameHeader} {v w : Pic} (hL : Layer h f v) (hr : RegularHeader h.extra.length f) (hV : Viewable h)
    (hal : h.alphaIndices = alphaChannels h.extra) {s : Store} (hc : Canvas h w s) {bufs : List ImageBuffer} (hbv : ShowsPicture (channelCount h) f.size v bufs) :
    ∃ s' l', composeFrame I h (frameColours none h) ⟨f, bufs⟩ s = .ok s' ∧ s'.refs.length = 4 ∧ s'.slices[s'.canvas]? = some l' ∧
      ShowsPicture (channelCount h) h.size (putOn f v w) l' := by
  have hlt : s.canvas < s.slices.length := by
    rcases hc.canvas with ⟨e, -⟩ | ⟨l, e, -⟩ <;> exact (List.getElem?_eq_some_iff.mp e).1
  have hfr : (s.slices ++ [bufs])[s.slices.length]? = some bufs := by
    rw [List.getElem?_append_right (Nat.le_refl _), Nat.sub_self]
    rfl
  obtain ⟨s1, e1, c1, b1, n1⟩ : ∃ s1, saveEarly f { s with slices := s.slices ++ [bufs], frame := s.slices.length } = .ok s1 ∧ Canvas h w s1 ∧ s1.slices[s1.frame]? = some bufs ∧
      s1.frame ≠ s1.canvas := by
    have hcv : ∀ r : List (Option Nat), r.length = 4 → Canvas h w ⟨s.slices ++ [bufs], s.canvas, s.slices.length, r⟩ := by
      intro r hr4
      refine ⟨hr4, ?_⟩
      show ((s.slices ++ [bufs])[s.canvas]? = _ ∧ _) ∨ ∃ l, (s.slices ++ [bufs])[s.canvas]? = _ ∧ _
      rw [List.getElem?_append_left hlt]
      exact hc.canvas
    unfold saveEarly
    split
    · rw [setAt_nat' _ _ _ (show f.saveAsReference < s.refs.length by rw [hc.refs]; exact hr.save), Res.bind_ok]
      exact ⟨_, rfl, hcv _ (by rw [List.length_set, hc.refs]), hfr, Nat.ne_of_gt hlt⟩
    · exact ⟨_, rfl, hcv _ hc.refs, hfr, Nat.ne_of_gt hlt⟩
  have e2 : colourStep (frameColours none h) f s1 = .ok s1 := by
    unfold colourStep
    rw [idx_of_getElem? _ _ _ b1, Res.bind_ok, colours_plain hL.rgb, Res.bind_ok, setAt_nat' _ _ _ (List.getElem?_eq_some_iff.mp b1).1, Res.bind_ok, set_self b1]
  obtain ⟨s2, l, e3, r2, f2, c2, b2, l2, p2⟩ := initCanvas_ok c1 b1 hbv n1 hV.width hV.height
  obtain ⟨s3, l', e4, r3, l3, p3⟩ := paint_ok I hL hr hV hal r2 (by rw [c2]; exact l2) p2 (by rw [f2]; exact b2) hbv (by rw [f2, c2]; exact n1)
  have e5 : ∃ s4, saveLate f s3 = .ok s4 ∧ s4.refs.length = 4 ∧ s4.slices[s4.canvas]? = some l' := by
    unfold saveLate
    split
    · rw [setAt_nat' _ _ _ (show f.saveAsReference < s3.refs.length by rw [r3]; exact hr.save), Res.bind_ok]
      exact ⟨_, rfl, by rw [List.length_set, r3], l3⟩
    · exact ⟨_, rfl, r3, l3⟩
  obtain ⟨s4, e5, r4, l4⟩ := e5
  refine ⟨s4, l', ?_, r4, l4, p3⟩
  unfold composeFrame
  dsimp only
  rw [if_neg (by have := hL.regular; omega), e1, Res.bind_ok, e2, Res.bind_ok, e3, Res.bind_ok, e4, Res.bind_ok, e5]

end Jxl
