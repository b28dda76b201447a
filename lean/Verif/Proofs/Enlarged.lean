import Verif.Spec.Enlarged
import Verif.Proofs.VarDCTFile
import Verif.Props.VarDCTFile
import Verif.Props.Upsampling

/-! # Frames that are made larger -/
namespace Jxl
open Spec

/-! ## The weights of the header -/

theorem yields_weights (c : Bool) (n : Nat) : Yields (decWeights c n) (fun o => ∀ l, o = some l → l.length = n) := by
  unfold decWeights
  refine Yields.if (fun _ => ?_) (fun _ l hl => by cases hl)
  refine Yields.bind (P := fun l => l.length = n) (fun _ _ _ e => decList_length e) (fun l hl => Yields.pure ?_)
  rintro _ ⟨⟩
  exact hl

theorem yields_upWeights (level : Int) : Yields (decImageHeader level) (fun h => (∀ l, h.up2 = some l → l.length = 15) ∧ (∀ l, h.up4 = some l → l.length = 55) ∧ ∀ l, h.up8 = some l → l.length = 210) := by
  unfold decImageHeader
  refine Yields.skip (fun magic => Yields.skip (fun _ => Yields.skip (fun size => Yields.skip (fun allDefault => Yields.skip (fun extraFields => ?_)))))
  refine Yields.skip (fun x => ?_)
  refine Yields.skip (fun f => Yields.skip (fun tone => Yields.skip (fun ext => Yields.skip (fun dt => Yields.skip (fun opsin => Yields.skip (fun mask => ?_))))))
  refine Yields.bind (yields_weights _ _) (fun up2 h2 => Yields.bind (yields_weights _ _) (fun up4 h4 => Yields.bind (yields_weights _ _) (fun up8 h8 => Yields.pure ?_)))
  exact ⟨h2, h4, h8⟩

/-- Stated weights are as many as the format says. -/
def WeightsStated (h : ImageHeader) : Prop := ∀ k ∈ [2, 4, 8], (statedWeights h k).length = weightCount k

theorem weights_stated {h : ImageHeader} (hu : (∀ l, h.up2 = some l → l.length = 15) ∧ (∀ l, h.up4 = some l → l.length = 55) ∧ ∀ l, h.up8 = some l → l.length = 210) : WeightsStated h := by
  intro k hk
  simp only [List.mem_cons, List.not_mem_nil, or_false] at hk
  rcases hk with rfl | rfl | rfl
  · unfold statedWeights
    cases e : h.up2 with
    | none =>
      rw [if_pos rfl]
      dsimp only
      rw [List.length_map]
      decide +kernel
    | some l =>
      rw [if_pos rfl]
      dsimp only
      rw [List.length_map, hu.1 l e]
      decide
  · unfold statedWeights
    cases e : h.up4 with
    | none =>
      rw [if_neg (by decide), if_pos rfl]
      dsimp only
      rw [List.length_map]
      decide +kernel
    | some l =>
      rw [if_neg (by decide), if_pos rfl]
      dsimp only
      rw [List.length_map, hu.2.1 l e]
      decide
  · unfold statedWeights
    cases e : h.up8 with
    | none =>
      rw [if_neg (by decide), if_neg (by decide)]
      dsimp only
      rw [List.length_map]
      decide +kernel
    | some l =>
      rw [if_neg (by decide), if_neg (by decide)]
      dsimp only
      rw [List.length_map, hu.2.2 l e]
      decide

theorem imageWeights_eq (h : ImageHeader) : imageWeights h = upWeights (statedWeights h 2) (statedWeights h 4) (statedWeights h 8) := by
  unfold imageWeights headerWeights statedWeights
  cases h.up2 <;> cases h.up4 <;> cases h.up8 <;> rfl

/-! ## Upsampling -/

theorem square_lt : ∀ o ∈ square, o.1 < 5 ∧ o.2 < 5 := by decide

theorem upsampled_congr {h w : Nat} (hh : 0 < h) (hw : 0 < w) {f g : Nat → Nat → F32} (hfg : ∀ y x, y < h → x < w → f y x = g y x) {u t : Nat → Nat → F32}
    (hut : ∀ iy ix, iy < 5 → ix < 5 → u iy ix = t iy ix) (y x : Nat) : upsampled h w f u y x = upsampled h w g t y x := by
  have hs : ∀ o, surrounding h w f y x o = surrounding h w g y x o := by
    intro o
    unfold surrounding mirrored
    obtain ⟨a, ha, -, ea⟩ := mirror_nat ((y : Int) + o.1 - 2) hh
    obtain ⟨b, hb, -, eb⟩ := mirror_nat ((x : Int) + o.2 - 2) hw
    rw [ea, eb]
    exact hfg a b ha hb
  have ht : upSum h w f u y x = upSum h w g t y x := by
    unfold upSum
    refine List.foldl_ext _ _ _ (fun a o ho => ?_)
    rw [hs o, hut _ _ (square_lt o ho).1 (square_lt o ho).2]
  unfold upsampled
  rw [ht]
  simp only [hs]

theorem frameColours_plain {h : ImageHeader} {f : FrameHeader} (hp : Plain h f) : frameColourCount h f.encoding = h.colourCount := by
  unfold frameColourCount
  rw [hp.xyb, hp.modular]
  rfl

/-- The planes of a frame become the enlarged picture. -/
theorem growFloats_ok {h : ImageHeader} {f : FrameHeader} (hL : GrownPlace h f) (hpos : 0 < f.size.height ∧ 0 < f.size.width) (hcol : frameColourCount h f.encoding = h.colourCount)
    (hV : Viewable h) (hu : WeightsStated h) (hec : f.ecUpsampling.length = h.extra.length) {g : FloatPic} {bufs : List ImageBuffer}
    (hb : bufs.length = channelCount h ∧ ∀ c, c < channelCount h → ∃ b, bufs[c]? = some b ∧ b.Picture f.size.height f.size.width ∧
      ∀ y x, y < f.size.height → x < f.size.width → px (depth h c) b y x = g c y x) (options : Option Int) {orders : Nat → List UpStep}
    (ho : ∀ c, c < channelCount h → Interleaving (upWorkers f.size.height f.size.width f.upsampling options) (orders c)) :
    ∃ out, upsampleFrame h f (imageWeights h) orders bufs = .ok out ∧ FloatsShow (channelCount h) f.moved.size (enlargedFloats h f g) out := by
  have hfac : ∀ c k, factorOf f h.colourCount c = some k → k = f.upsampling := by
    intro c k hk
    unfold factorOf at hk
    split at hk
    · injection hk with hk
      exact hk.symm
    · exact hL.factor.2 k (List.mem_of_getElem? hk)
  have hk8 : f.upsampling ≠ 1 ∧ 0 < f.upsampling := by
    have := hL.factor.1
    simp only [List.mem_cons, List.not_mem_nil, or_false] at this
    omega
  have hdep : ∀ c d, c < channelCount h → upDepth h f c = .ok d → d = depth h c := by
    intro c d hc hd
    unfold upDepth at hd
    unfold depth
    rw [hcol] at hd
    by_cases hx : c < h.colourCount
    · rw [if_pos hx] at hd ⊢
      injection hd with hd
      exact hd.symm
    · have hlt : c - h.colourCount < h.extra.length := by
        have : channelCount h = h.colourCount + h.extra.length := rfl
        omega
      have a2 := List.getElem?_eq_getElem (l := h.extra) (i := c - h.colourCount) hlt
      rw [if_neg hx] at hd ⊢
      rw [show (c : Int) - (h.colourCount : Int) = ((c - h.colourCount : Nat) : Int) by omega, idx_nat a2, Res.bind_ok] at hd
      injection hd with hd
      rw [a2, ← hd]
      rfl
  have hsm := hL.small
  obtain ⟨wt, hwt, out, e, hlen, hout⟩ := C81_frame (h := h) (f := f) (l := bufs) (by rw [hb.1, hcol]; rfl) hec
    (fun c k hk => by
      rw [hcol] at hk
      rw [hfac c k hk]
      exact List.mem_cons_of_mem _ hL.factor.1)
    (fun c d hc hd => by
      rw [hb.1] at hc
      rw [hdep c d hc hd]
      exact hV.depths c hc) (w := statedWeights h) hu (H := fun _ => f.size.height) (W := fun _ => f.size.width)
    (fun c b hcb => by
      have hc : c < channelCount h := by rw [← hb.1]; exact (List.getElem?_eq_some_iff.mp hcb).1
      obtain ⟨b', e', p', -⟩ := hb.2 c hc
      rw [hcb] at e'
      cases e'
      exact ⟨p', hpos.1, hpos.2, by omega, by omega⟩) options (orders := orders)
    (fun c k hc hk => by
      rw [hb.1] at hc
      rw [hcol] at hk
      rw [hfac c k hk]
      exact ho c hc)
  refine ⟨out, by rw [imageWeights_eq]; exact e, by rw [hlen, hb.1], fun c hc => ?_⟩
  obtain ⟨k, d, b, b', f1, f2, f3, f4, -, f6⟩ := hout c (by rw [hb.1]; exact hc)
  rw [hcol] at f1
  have := hfac c k f1
  subst this
  have := hdep c d hc f2
  subst this
  obtain ⟨p, s⟩ := f6 hk8.1
  refine ⟨b', f4, p, fun y x hy hx => ?_⟩
  have hy' : y < f.size.height * f.upsampling := hy
  have hx' : x < f.size.width * f.upsampling := hx
  have := s (y / f.upsampling) (x / f.upsampling) (y % f.upsampling) (x % f.upsampling) (Nat.div_lt_of_lt_mul (by rw [Nat.mul_comm]; exact hy'))
    (Nat.div_lt_of_lt_mul (by rw [Nat.mul_comm]; exact hx')) (Nat.mod_lt _ hk8.2) (Nat.mod_lt _ hk8.2)
  rw [Nat.div_add_mod', Nat.div_add_mod'] at this
  rw [this]
  congr 1
  unfold enlargedFloats
  refine upsampled_congr hpos.1 hpos.2 (fun y x hy hx => ?_) (fun iy ix hiy hix => ?_) _ _
  · obtain ⟨b1, e1, p1, q1⟩ := hb.2 c hc
    rw [f3] at e1
    cases e1
    exact q1 y x hy hx
  · rw [hwt f.upsampling hL.factor.1 _ _ iy ix (Nat.mod_lt _ hk8.2) (Nat.mod_lt _ hk8.2) hiy hix]
    rfl

/-- The planes of a frame become the enlarged picture. -/
theorem grow_ok {h : ImageHeader} {f : FrameHeader} {v : Pic} (hL : GrownLayer h f v) (hV : Viewable h) (hu : WeightsStated h) (hec : f.ecUpsampling.length = h.extra.length)
    {bufs : List ImageBuffer} (hb : ShowsPicture (channelCount h) f.size v bufs) (options : Option Int) {orders : Nat → List UpStep}
    (ho : ∀ c, c < channelCount h → Interleaving (upWorkers f.size.height f.size.width f.upsampling options) (orders c)) :
    ∃ out, upsampleFrame h f (imageWeights h) orders bufs = .ok out ∧ FloatsShow (channelCount h) f.moved.size (enlarged h f v) out := by
  refine growFloats_ok hL.toGrownPlace ⟨hL.plain.framed.height.1, hL.plain.framed.width.1⟩ (frameColours_plain hL.plain) hV hu hec ⟨hb.1, fun c hc => ?_⟩ options ho
  obtain ⟨b1, e1, p1, q1⟩ := hb.2 c hc
  refine ⟨b1, e1, Or.inl p1, fun y x hy hx => ?_⟩
  unfold px value
  rw [if_pos p1.1, q1.2 y x hy hx]
  rfl

/-! ## The canvas -/

theorem rect_moved {h : ImageHeader} {f : FrameHeader} (hL : ShownPlace h f) (hw : h.size.width < 2 ^ 30) (hh : h.size.height < 2 ^ 30) :
    f.rect = ⟨f.moved.x0, f.moved.y0, f.moved.size.width, f.moved.size.height⟩ ∧ f.moved.size.width < 2 ^ 30 ∧ f.moved.size.height < 2 ^ 30 := by
  obtain ⟨m1, m2, m3, m4⟩ := hL.meets
  obtain ⟨z1, z2⟩ := hL.small
  have hk := hL.scale
  have k8 : f.upsampling ≤ 8 := by
    simp only [List.mem_cons, List.not_mem_nil, or_false] at hk
    omega
  have b1 : f.moved.size.width < 2 ^ 30 := by show f.size.width * f.upsampling < _; nlinarith
  have b2 : f.moved.size.height < 2 ^ 30 := by show f.size.height * f.upsampling < _; nlinarith
  refine ⟨?_, b1, b2⟩
  show Rectangle.mk (i32 f.moved.x0) (i32 f.moved.y0) (u32 f.moved.size.width) (u32 f.moved.size.height) = _
  rw [i32_in (by omega) (by omega), i32_in (by omega) (by omega)]
  unfold u32
  rw [Nat.mod_eq_of_lt (by omega), Nat.mod_eq_of_lt (by omega)]

theorem paintGrown_ok (I : BlendImpl) {h : ImageHeader} {f : FrameHeader} {w u : FloatPic} (hL : ShownPlace h f)
    (hfc : frameColourCount h f.encoding = h.colourCount) (hr : RegularBasics h.extra.length f) (hV : Viewable h)
    (hal : h.alphaIndices = alphaChannels h.extra) {s : Store} {l bufs : List ImageBuffer} (hrefs : s.refs.length = 4) (hl : s.slices[s.canvas]? = some l)
    (hlw : FloatsShow (channelCount h) h.size w l) (hb : s.slices[s.frame]? = some bufs) (hbv : FloatsShow (channelCount h) f.moved.size u bufs) (hne : s.frame ≠ s.canvas) :
    ∃ s' l', paintFrame I h f s = .ok s' ∧ s'.refs.length = 4 ∧ s'.slices[s'.canvas]? = some l' ∧ FloatsShow (channelCount h) h.size (putFloatsOn f.moved u w) l' := by
  obtain ⟨s1, e1, r1, l1, b1, n1⟩ := detach_ok f hl hb hne
  obtain ⟨hrect, z1, z2⟩ := rect_moved hL hV.width.2 hV.height.2
  have hcc : channelCount h = h.colourCount + h.extra.length := rfl
  have hgl : ∀ c, c < channelCount h → l[c]? = some (l.getD c ⟨0, 0, 0, [], []⟩) ∧ (l.getD c ⟨0, 0, 0, [], []⟩).FloatPicture h.size.height h.size.width ∧
      ∀ y x, y < h.size.height → x < h.size.width → sample (l.getD c ⟨0, 0, 0, [], []⟩).floats y x = some (w c y x) := by
    intro c hc
    obtain ⟨b, e, p⟩ := hlw.2 c hc
    rw [List.getD_eq_getElem?_getD, e]
    exact ⟨rfl, p⟩
  have hgb : ∀ c, c < channelCount h → bufs[c]? = some (bufs.getD c ⟨0, 0, 0, [], []⟩) ∧ (bufs.getD c ⟨0, 0, 0, [], []⟩).FloatPicture f.moved.size.height f.moved.size.width ∧
      ∀ y x, y < f.moved.size.height → x < f.moved.size.width → sample (bufs.getD c ⟨0, 0, 0, [], []⟩).floats y x = some (u c y x) := by
    intro c hc
    obtain ⟨b, e, p⟩ := hbv.2 c hc
    rw [List.getD_eq_getElem?_getD, e]
    exact ⟨rfl, p⟩
  have hinfo : ∀ c, c < channelCount h → (replaced h f s1 l bufs c).info.mode = 0 ∧ (replaced h f s1 l bufs c).info.alpha = 0 ∧ (replaced h f s1 l bufs c).info.source < 4 ∧
      (¬ c < h.colourCount → f.ecBlending[c - h.colourCount]? = some (replaced h f s1 l bufs c).info) := by
    intro c hc
    unfold replaced
    dsimp only
    by_cases hx : c < h.colourCount
    · rw [if_pos hx]
      exact ⟨hL.replace.1, hr.blending.2.1 (by have := hL.replace.1; omega), hr.blending.2.2, fun hy => absurd hx hy⟩
    · rw [if_neg hx]
      have hi : c - h.colourCount < f.ecBlending.length := by rw [hr.ecBlending.1]; omega
      rw [List.getD_eq_getElem?_getD, List.getElem?_eq_getElem hi, Option.getD_some]
      have hm := hL.replace.2 _ (List.getElem_mem hi)
      have := hr.ecBlending.2 _ (List.getElem_mem hi)
      exact ⟨hm, this.2.1 (by omega), this.2.2, fun _ => rfl⟩
  have sc : Scene h f s1 h.size.height h.size.width f.rect (channelCount h) (replaced h f s1 l bufs) := by
    refine ⟨fun c hc => ?_, fun c hc => ?_, n1, fun i hi => ?_, Or.inl hfc, ⟨hV.height.1, by have := hV.height.2; omega⟩, by have := hV.width.2; omega⟩
    · obtain ⟨i1, i2, i3, i4⟩ := hinfo c hc
      refine ⟨?_, ?_, ?_, ?_, ?_, fun hx => absurd i1 hx, fun hx => ?_⟩
      · unfold buffer
        rw [l1]
        exact (hgl c hc).1
      · rw [hfc, show frameIndex h h.colourCount c = c by unfold frameIndex; split <;> [rw [if_pos rfl]; omega]]
        unfold buffer
        rw [b1]
        exact (hgb c hc).1
      · by_cases hx : c < h.colourCount
        · rw [if_pos hx]
          unfold replaced
          rw [if_pos hx]
        · rw [if_neg hx]
          exact i4 hx
      · by_cases hx : c < h.colourCount
        · rw [if_pos hx]
          unfold replaced
          dsimp only
          rw [if_pos hx]
        · rw [if_neg hx]
          have hi : c - h.colourCount < h.extra.length := by omega
          refine ⟨_, List.getElem?_eq_getElem hi, ?_⟩
          unfold replaced
          dsimp only
          rw [if_neg hx, List.getElem?_eq_getElem hi]
          simp
      · have hs4 : (replaced h f s1 l bufs c).info.source < s1.refs.length := by rw [r1, hrefs]; exact i3
        show s1.refs[(replaced h f s1 l bufs c).info.source]? = some (s1.refs.getD (replaced h f s1 l bufs c).info.source none)
        rw [List.getD_eq_getElem?_getD, List.getElem?_eq_getElem hs4]
        rfl
      · omega
    · obtain ⟨i1, i2, i3, i4⟩ := hinfo c hc
      refine ⟨by omega, fun hx => ?_, Or.inl (hgl c hc).2.1, ?_, fun hx => by omega, fun hx => absurd i1 hx, fun hx => by omega, fun hx => absurd i1 hx, fun _ hx => by omega⟩
      · rw [i2]
        rcases he : h.extra with _ | ⟨x, xs⟩
        · unfold ImageHeader.hasAlpha at hx
          rw [hal, he] at hx
          simp [alphaChannels] at hx
        · simp
      · rw [hrect]
        exact ⟨f.moved.size.height, f.moved.size.width, Or.inl (hgb c hc).2.1, Nat.le_refl _, Nat.le_refl _, by omega, by omega⟩
    · rw [hfc] at hi
      unfold buffer
      rw [b1]
      exact ⟨_, (hgb i hi).1⟩
  obtain ⟨m1, m2, m3, m4⟩ := hL.meets
  obtain ⟨s2, e2, hp⟩ := blendFrame_ok I True (h := h) (f := f) (H := h.size.height) (W := h.size.width) (k := replaced h f s1 l bufs) (s := s1) (nc := channelCount h) rfl
    (by rw [l1, Option.map_some, hlw.1]) sc hV.width.2 hV.height.2 (by rw [hrect]; exact z1) (by rw [hrect]; exact z2) (by rw [hrect]; exact hL.place) (by rw [hrect]; exact m1)
    (by rw [hrect]; exact m2) (by rw [hrect]; exact m3) (by rw [hrect]; exact m4) (fun hx => absurd trivial hx)
  have hcan : ∀ c, c < channelCount h → ∃ b, buffer s2 s1.canvas c = some b ∧ b.FloatPicture h.size.height h.size.width ∧
      ∀ y x, y < h.size.height → x < h.size.width → sample b.floats y x = some (putFloatsOn f.moved u w c y x) := by
    intro c hc
    obtain ⟨b, h1, h2, h3⟩ := hp.done c hc
    refine ⟨b, h1, ?_⟩
    rcases h2 with ⟨h2, -⟩ | ⟨h2, h4⟩
    · have := (hgl c hc).2.1.1
      rw [show l.getD c ⟨0, 0, 0, [], []⟩ = (replaced h f s1 l bufs c).canvas from rfl, h2.1] at this
      cases this
    · refine ⟨h2, fun y x hy hx => ?_⟩
      rw [h4 y x hy hx, hrect]
      unfold putFloatsOn
      by_cases hcov : Covered ⟨f.moved.x0, f.moved.y0, f.moved.size.width, f.moved.size.height⟩ y x
      · obtain ⟨c1, c2, c3, c4⟩ := hcov
        dsimp only at c1 c2 c3 c4
        rw [if_pos ⟨c1, c2, c3, c4⟩, if_pos ⟨c1, c2, c3, c4⟩, (hinfo c hc).1]
        show some (px (depth h c) (bufs.getD c ⟨0, 0, 0, [], []⟩) ((y : Int) - f.moved.y0).toNat ((x : Int) - f.moved.x0).toNat) = _
        obtain ⟨-, g1, g2⟩ := hgb c hc
        unfold px value
        rw [if_neg (by rw [g1.1]; decide), g2 _ _ (by omega) (by omega)]
        rfl
      · rw [if_neg hcov, if_neg (show ¬ (f.moved.y0 ≤ (y : Int) ∧ (y : Int) < f.moved.y0 + f.moved.size.height ∧ f.moved.x0 ≤ (x : Int) ∧ (x : Int) < f.moved.x0 + f.moved.size.width) from hcov)]
        show value (depth h c) (l.getD c ⟨0, 0, 0, [], []⟩) y x = _
        unfold value
        rw [if_neg (by rw [(hgl c hc).2.1.1]; decide)]
        exact (hgl c hc).2.2 y x hy hx
  obtain ⟨l', hl'⟩ : ∃ l', s2.slices[s1.canvas]? = some l' := by
    obtain ⟨b, hb, -⟩ := hcan 0 (channelCount_pos h)
    unfold buffer at hb
    cases hx : s2.slices[s1.canvas]? with
    | none => rw [hx] at hb; cases hb
    | some l' => exact ⟨l', rfl⟩
  refine ⟨s2, l', ?_, by rw [hp.refs, r1, hrefs], by rw [hp.canvas, hl'], ?_, ?_⟩
  · unfold paintFrame
    rw [if_pos (by have := hL.regular; simpa using this), e1, Res.bind_ok, e2]
  · have h1 : channelCount h ≤ l'.length := by
      by_contra hx
      obtain ⟨b, hb, -⟩ := hcan l'.length (by omega)
      unfold buffer at hb
      rw [hl', Option.bind_some, List.getElem?_eq_none (Nat.le_refl _)] at hb
      cases hb
    have h2 := hp.none s1.canvas (channelCount h) (by
      unfold buffer
      rw [l1, Option.bind_some, List.getElem?_eq_none (by rw [hlw.1])])
    unfold buffer at h2
    rw [hl', Option.bind_some] at h2
    have := List.getElem?_eq_none_iff.mp h2
    omega
  · intro c hc
    obtain ⟨b, hb, p⟩ := hcan c hc
    unfold buffer at hb
    rw [hl', Option.bind_some] at hb
    exact ⟨b, hb, p⟩

/-- A frame that replaces is put on the canvas. -/
theorem composeGrown_ok (I : BlendImpl) {matrix : Option (Opsin F32)} {h : ImageHeader} {f : FrameHeader} {w u : FloatPic} (hL : ShownPlace h f)
    (hfc : frameColourCount h f.encoding = h.colourCount) (hr : RegularBasics h.extra.length f) (hV : Viewable h)
    (hal : h.alphaIndices = alphaChannels h.extra) {s : Store} (hc : FloatCanvas h w s) {out bufs : List ImageBuffer} (hct : frameColours matrix h f out = .ok bufs)
    (hbv : FloatsShow (channelCount h) f.moved.size u bufs) :
    ∃ s' l', composeFrame I h (frameColours matrix h) ⟨f, out⟩ s = .ok s' ∧ s'.refs.length = 4 ∧ s'.slices[s'.canvas]? = some l' ∧
      FloatsShow (channelCount h) h.size (putFloatsOn f.moved u w) l' := by
  have hlt : s.canvas < s.slices.length := by
    rcases hc.canvas with ⟨e, -⟩ | ⟨l, e, -⟩ <;> exact (List.getElem?_eq_some_iff.mp e).1
  have hfr : ∀ l : List ImageBuffer, (s.slices ++ [l])[s.slices.length]? = some l := by
    intro l
    rw [List.getElem?_append_right (Nat.le_refl _), Nat.sub_self]
    rfl
  have hcv : ∀ (l : List ImageBuffer) (r : List (Option Nat)), r.length = 4 → FloatCanvas h w ⟨s.slices ++ [l], s.canvas, s.slices.length, r⟩ := by
    intro l r hr4
    refine ⟨hr4, ?_⟩
    show ((s.slices ++ [l])[s.canvas]? = _ ∧ _) ∨ ∃ l', (s.slices ++ [l])[s.canvas]? = _ ∧ _
    rw [List.getElem?_append_left hlt]
    exact hc.canvas
  obtain ⟨r, e1, hr4⟩ : ∃ r : List (Option Nat), saveEarly f { s with slices := s.slices ++ [out], frame := s.slices.length } = .ok ⟨s.slices ++ [out], s.canvas, s.slices.length, r⟩ ∧ r.length = 4 := by
    unfold saveEarly
    split
    · rw [setAt_nat' _ _ _ (show f.saveAsReference < s.refs.length by rw [hc.refs]; exact hr.save), Res.bind_ok]
      exact ⟨_, rfl, by rw [List.length_set, hc.refs]⟩
    · exact ⟨_, rfl, hc.refs⟩
  have e2 : colourStep (frameColours matrix h) f ⟨s.slices ++ [out], s.canvas, s.slices.length, r⟩ = .ok ⟨s.slices ++ [bufs], s.canvas, s.slices.length, r⟩ := by
    unfold colourStep
    dsimp only
    rw [idx_of_getElem? _ _ _ (hfr out), Res.bind_ok, hct, Res.bind_ok, setAt_nat' _ _ _ (by simp), Res.bind_ok]
    rw [show (s.slices ++ [out]).set s.slices.length bufs = s.slices ++ [bufs] by simp]
  obtain ⟨b0, hb0, p0, -⟩ := hbv.2 0 (channelCount_pos h)
  obtain ⟨s2, l, e3, r2, f2, c2, b2, l2, p2⟩ := initAny_ok (hcv bufs r hr4) (hfr bufs) hb0 p0.1 (Nat.ne_of_gt hlt) hV.width hV.height
  obtain ⟨s3, l', e4, r3, l3, p3⟩ := paintGrown_ok I hL hfc hr hV hal r2 (by rw [c2]; exact l2) p2 (by rw [f2]; exact b2) hbv (by rw [f2, c2]; exact Nat.ne_of_gt hlt)
  have e5 : ∃ s4, saveLate f s3 = .ok s4 ∧ s4.refs.length = 4 ∧ s4.slices[s4.canvas]? = some l' := by
    unfold saveLate
    split
    · rw [setAt_nat' _ _ _ (show f.saveAsReference < s3.refs.length by rw [r3]; exact hr.save), Res.bind_ok]
      exact ⟨_, rfl, by rw [List.length_set, r3], l3⟩
    · exact ⟨_, rfl, r3, l3⟩
  obtain ⟨s4, e5, r4, l4⟩ := e5
  refine ⟨s4, l', ?_, r4, l4, p3⟩
  unfold composeFrame
  dsimp only
  rw [if_neg (by have := hL.regular; omega), e1, Res.bind_ok, e2, Res.bind_ok, e3, Res.bind_ok, e4, Res.bind_ok, e5]

end Jxl
