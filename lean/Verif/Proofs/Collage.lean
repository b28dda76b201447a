import Verif.Proofs.Drawing
import Verif.Spec.Collage

/-! # Frames that are blended with saved frames -/
namespace Jxl
open Spec

/-- The buffers show the values. -/
def ShowsValues (h : ImageHeader) (w : FloatPic) (l : List ImageBuffer) : Prop :=
  l.length = channelCount h ∧ ∀ c, c < channelCount h → ∃ b, l[c]? = some b ∧ b.Picture h.size.height h.size.width ∧
    ∀ y x, y < h.size.height → x < h.size.width → value (depth h c) b y x = some (w c y x)

/-- The values are numbers. -/
def Numbers (h : ImageHeader) (w : FloatPic) : Prop := ∀ c y x, c < channelCount h → y < h.size.height → x < h.size.width → w c y x ≠ .nan

/-- The store of the decoder shows a collage. -/
structure Album (h : ImageHeader) (d : Collage) (s : Store) : Prop where
  refs : s.refs.length = 4
  canvas : (s.slices[s.canvas]? = some (List.replicate (channelCount h) ⟨0, 0, 0, [], []⟩) ∧ d.canvas = fun _ _ _ => .fin 0) ∨
    ∃ l, s.slices[s.canvas]? = some l ∧ ShowsValues h d.canvas l
  numbers : Numbers h d.canvas
  slots : ∀ i a : Nat, s.refs[i]? = some (some a) → ∃ l w, s.slices[a]? = some l ∧ d.slots i = some w ∧ ShowsValues h w l
  empty : ∀ i : Nat, s.refs[i]? = some none → d.slots i = none

theorem unit_of_zero {d : Nat} (h1 : 1 ≤ d) (h2 : d ≤ 31) : unit d 0 = .fin 0 := by
  interval_cases d <;> decide +kernel

theorem ShowsValues.get {h : ImageHeader} {w : FloatPic} {l : List ImageBuffer} (hw : ShowsValues h w l) {c : Nat} (hc : c < channelCount h) :
    l[c]? = some (l.getD c ⟨0, 0, 0, [], []⟩) ∧ (l.getD c ⟨0, 0, 0, [], []⟩).Picture h.size.height h.size.width ∧
      ∀ y x, y < h.size.height → x < h.size.width → value (depth h c) (l.getD c ⟨0, 0, 0, [], []⟩) y x = some (w c y x) := by
  obtain ⟨b, e, p⟩ := hw.2 c hc
  rw [List.getD_eq_getElem?_getD, e]
  exact ⟨rfl, p⟩

theorem ShowsPicture.values {h : ImageHeader} {w : Pic} {l : List ImageBuffer} (hw : ShowsPicture (channelCount h) h.size w l) :
    ShowsValues h (fun c y x => unit (depth h c) (w c y x)) l := by
  refine ⟨hw.1, fun c hc => ?_⟩
  obtain ⟨b, e, p, q⟩ := hw.2 c hc
  refine ⟨b, e, Or.inl p, fun y x hy hx => ?_⟩
  unfold value
  rw [if_pos p.1, q.2 y x hy hx]
  rfl

theorem picture_holds {h w d : Nat} {b : ImageBuffer} (hp : b.Picture h w) (hd : 1 ≤ d ∧ d ≤ 31) (hh : h < 2 ^ 31) (hw : w < 2 ^ 31) : Spec.Holds h w d b := by
  refine ⟨h, w, ?_, Nat.le_refl _, Nat.le_refl _, hh, hw⟩
  rcases hp with hp | hp
  · exact Or.inr ⟨hp, hd⟩
  · exact Or.inl hp

theorem ShowsValues.proper {h : ImageHeader} {w : FloatPic} {l : List ImageBuffer} (hw : ShowsValues h w l) (hn : Numbers h w) (hh : 0 < h.size.height) : ∀ b ∈ l, Proper b := by
  intro b hb
  obtain ⟨c, hc, e⟩ := List.mem_iff_getElem.mp hb
  have hc' : c < channelCount h := by rw [← hw.1]; exact hc
  obtain ⟨b', e', p, q⟩ := hw.2 c hc'
  rw [List.getElem?_eq_getElem hc, e] at e'
  cases e'
  refine ⟨_, _, p, hh, fun hx y x hs => ?_⟩
  rcases p with p | p
  · rw [p.1] at hx
    cases hx
  · by_cases hyx : y < h.size.height ∧ x < h.size.width
    · have := q y x hyx.1 hyx.2
      unfold value at this
      rw [if_neg (by rw [hx]; decide), hs] at this
      exact hn c y x hc' hyx.1 hyx.2 (Option.some.inj this).symm
    · rw [p.2.2.2.sample_none (by omega)] at hs
      cases hs

theorem ShowsValues.like {h : ImageHeader} (hV : Viewable h) {w : FloatPic} {l l' : List ImageBuffer} (hw : ShowsValues h w l) (hn : l'.length = l.length)
    (hl : ∀ (c : Nat) (b : ImageBuffer), l[c]? = some b → ∃ b', l'[c]? = some b' ∧ Like True (depth h c) b b') : ShowsValues h w l' := by
  refine ⟨hn.trans hw.1, fun c hc => ?_⟩
  obtain ⟨b, e, p, q⟩ := hw.2 c hc
  obtain ⟨b', e', k⟩ := hl c b e
  have := hV.height.2
  have := hV.width.2
  obtain ⟨-, k1, k2⟩ := k.value (picture_holds p (hV.depths c hc) (by omega) (by omega))
  exact ⟨b', e', k2 _ _ p, fun y x hy hx => by rw [k1]; exact q y x hy hx⟩

theorem ruleOf {h : ImageHeader} {f : FrameHeader} (hr : RegularHeader h.extra.length f) {c : Nat} (hc : c < channelCount h) :
    StatedBlending (blendingOf h f c) ∧ (¬ c < h.colourCount → f.ecBlending[c - h.colourCount]? = some (blendingOf h f c)) := by
  have hcc : channelCount h = h.colourCount + h.extra.length := rfl
  unfold blendingOf
  by_cases hx : c < h.colourCount
  · rw [if_pos hx]
    exact ⟨hr.blending, fun hy => absurd hx hy⟩
  · rw [if_neg hx]
    have hi : c - h.colourCount < f.ecBlending.length := by rw [hr.ecBlending.1]; omega
    rw [List.getD_eq_getElem?_getD, List.getElem?_eq_getElem hi, Option.getD_some]
    exact ⟨hr.ecBlending.2 _ (List.getElem_mem hi), fun _ => rfl⟩

/-- The alpha channels that take part in blending channel `c`. -/
def twoAlphas (h : ImageHeader) (f : FrameHeader) (s : Store) (bufs : List ImageBuffer) (c : Nat) : Option (Nat × ImageBuffer × ImageBuffer × Bool) :=
  if h.hasAlpha then
    (s.refs.getD (blendingOf h f c).source none).bind (fun a => (buffer s a (h.colourCount + (blendingOf h f c).alpha)).map (fun ra =>
      (depth h (h.colourCount + (blendingOf h f c).alpha), ra, bufs.getD (h.colourCount + (blendingOf h f c).alpha) ⟨0, 0, 0, [], []⟩,
        ((h.extra[(blendingOf h f c).alpha]?).map (·.alphaAssociated)).getD false)))
  else none

/-- What takes part in painting channel `c`. -/
def mixed (h : ImageHeader) (f : FrameHeader) (s : Store) (l bufs : List ImageBuffer) (c : Nat) : Channel :=
  ⟨blendingOf h f c, isAlphaChannel h c, l.getD c ⟨0, 0, 0, [], []⟩, bufs.getD c ⟨0, 0, 0, [], []⟩,
    s.refs.getD (blendingOf h f c).source none, (s.refs.getD (blendingOf h f c).source none).bind (fun a => buffer s a c), twoAlphas h f s bufs c⟩

/-- A frame that blends is painted. -/
theorem blend_ok (I : BlendImpl) {h : ImageHeader} {f : FrameHeader} {v : Pic} {d : Collage} (hL : Blended h f v) (hr : RegularHeader h.extra.length f) (hV : Viewable h)
    (hal : h.alphaIndices = alphaChannels h.extra) {s : Store} {l bufs : List ImageBuffer} (hrefs : s.refs.length = 4) (hl : s.slices[s.canvas]? = some l)
    (hlw : ShowsValues h d.canvas l) (hb : s.slices[s.frame]? = some bufs) (hbv : ShowsPicture (channelCount h) f.size v bufs) (hne : s.frame ≠ s.canvas)
    (hslots : ∀ i a : Nat, s.refs[i]? = some (some a) → a ≠ s.frame ∧ (i ≠ f.saveAsReference → a ≠ s.canvas) ∧
      ∃ l w, s.slices[a]? = some l ∧ d.slots i = some w ∧ ShowsValues h w l)
    (hempty : ∀ i : Nat, s.refs[i]? = some none → d.slots i = none)
    (huse : ∀ c, c < channelCount h → 2 ≤ (blendingOf h f c).mode → d.slots (blendingOf h f c).source ≠ none) :
    ∃ s' l', blendFrame I h f s = .ok s' ∧ s'.refs = s.refs ∧ s'.canvas = s.canvas ∧ s'.slices[s.canvas]? = some l' ∧
      ShowsValues h (upCanvas I h f v d) l' ∧ ∀ (a : Nat) (m : List ImageBuffer) (w : FloatPic), a ≠ s.canvas → s.slices[a]? = some m → ShowsValues h w m →
        ∃ m', s'.slices[a]? = some m' ∧ ShowsValues h w m' := by
  have hrect := rect_unscaled hL.toSheet hV.width.2 hV.height.2
  have hH := hV.height.2
  have hW := hV.width.2
  have hfc : frameColourCount h f.encoding = h.colourCount := by
    unfold frameColourCount
    rw [hL.plain.xyb, hL.plain.modular]
    rfl
  have hcc : channelCount h = h.colourCount + h.extra.length := rfl
  have hsrc : ∀ c, c < channelCount h → s.refs[(blendingOf h f c).source]? = some (s.refs.getD (blendingOf h f c).source none) := by
    intro c hc
    have hs4 : (blendingOf h f c).source < s.refs.length := by rw [hrefs]; exact (ruleOf hr hc).1.2.2
    rw [List.getD_eq_getElem?_getD, List.getElem?_eq_getElem hs4]
    rfl
  have hold : ∀ c, c < channelCount h → ∀ a, s.refs.getD (blendingOf h f c).source none = some a → ∃ w, d.slots (blendingOf h f c).source = some w ∧
      ∀ i, i < channelCount h → ∃ rb, buffer s a i = some rb ∧ rb.Picture h.size.height h.size.width ∧
        ∀ y x, y < h.size.height → x < h.size.width → value (depth h i) rb y x = some (w i y x) := by
    intro c hc a ha
    have h1 := hsrc c hc
    rw [ha] at h1
    obtain ⟨-, -, m, w, e, ew, p⟩ := hslots _ a h1
    refine ⟨w, ew, fun i hi => ?_⟩
    obtain ⟨rb, e2, p2⟩ := p.2 i hi
    exact ⟨rb, by unfold buffer; rw [e]; exact e2, p2⟩
  have hnone : ∀ c, c < channelCount h → s.refs.getD (blendingOf h f c).source none = none → d.slots (blendingOf h f c).source = none := by
    intro c hc ha
    have h1 := hsrc c hc
    rw [ha] at h1
    exact hempty _ h1
  have hhave : ∀ c, c < channelCount h → 2 ≤ (blendingOf h f c).mode → s.refs.getD (blendingOf h f c).source none ≠ none := fun c hc h2 ha => huse c hc h2 (hnone c hc ha)
  have hframe : ∀ c, c < channelCount h → buffer s s.frame c = some (bufs.getD c ⟨0, 0, 0, [], []⟩) := by
    intro c hc
    unfold buffer
    rw [hb]
    exact (shows_get hbv hc).1
  have hholds : ∀ c, c < channelCount h → Spec.Holds f.size.height f.size.width (depth h c) (bufs.getD c ⟨0, 0, 0, [], []⟩) := by
    intro c hc
    have := hL.size
    exact picture_holds (Or.inl (shows_get hbv hc).2.1) (hV.depths c hc) (by omega) (by omega)
  have halpha : h.hasAlpha = true → ∀ c, c < channelCount h → (blendingOf h f c).alpha < h.extra.length := by
    intro hx c hc
    by_cases hm : (blendingOf h f c).mode = 2 ∨ (blendingOf h f c).mode = 3
    · exact hL.alphas hx c hc hm
    · rw [(ruleOf hr hc).1.2.1 (by omega)]
      rcases he : h.extra with _ | ⟨x, xs⟩
      · unfold ImageHeader.hasAlpha at hx
        rw [hal, he] at hx
        simp [alphaChannels] at hx
      · simp
  have sc : Scene h f s h.size.height h.size.width f.rect (channelCount h) (mixed h f s l bufs) := by
    refine ⟨fun c hc => ?_, fun c hc => ?_, hne, fun i hi => ?_, Or.inl hfc, ⟨hV.height.1, by omega⟩, by omega⟩
    · refine ⟨?_, ?_, ?_, ?_, hsrc c hc, fun _ => ?_, fun hx => ?_⟩
      · unfold buffer
        rw [hl]
        exact (hlw.get hc).1
      · rw [hfc, show frameIndex h h.colourCount c = c by unfold frameIndex; split <;> [rw [if_pos rfl]; omega]]
        exact hframe c hc
      · by_cases hx : c < h.colourCount
        · rw [if_pos hx]
          show blendingOf h f c = _
          unfold blendingOf
          rw [if_pos hx]
        · rw [if_neg hx]
          exact (ruleOf hr hc).2 hx
      · by_cases hx : c < h.colourCount
        · rw [if_pos hx]
          show isAlphaChannel h c = _
          unfold isAlphaChannel
          rw [if_pos hx]
        · rw [if_neg hx]
          have hi : c - h.colourCount < h.extra.length := by omega
          refine ⟨_, List.getElem?_eq_getElem hi, ?_⟩
          show isAlphaChannel h c = _
          unfold isAlphaChannel
          rw [if_neg hx, List.getElem?_eq_getElem hi]
          simp
      · show match s.refs.getD (blendingOf h f c).source none with
          | none => (s.refs.getD (blendingOf h f c).source none).bind (fun a => buffer s a c) = none
          | some a => ∃ rb, buffer s a c = some rb ∧ (s.refs.getD (blendingOf h f c).source none).bind (fun a => buffer s a c) = some rb
        cases ha : s.refs.getD (blendingOf h f c).source none with
        | none => rfl
        | some a =>
          obtain ⟨w, -, hw⟩ := hold c hc a ha
          obtain ⟨rb, e, -⟩ := hw c hc
          exact ⟨rb, e, e⟩
      · have hx : (blendingOf h f c).mode = 2 ∨ (blendingOf h f c).mode = 3 := hx
        show if h.hasAlpha = true then ∃ e ra fa a, h.extra[(blendingOf h f c).alpha]? = some e ∧ s.refs.getD (blendingOf h f c).source none = some a ∧
            buffer s a (h.colourCount + (blendingOf h f c).alpha) = some ra ∧ buffer s s.frame (frameColourCount h f.encoding + (blendingOf h f c).alpha) = some fa ∧
            twoAlphas h f s bufs c = some (e.bitDepth.bits, ra, fa, e.alphaAssociated)
          else twoAlphas h f s bufs c = none
        by_cases hA : h.hasAlpha = true
        · rw [if_pos hA]
          have hai := halpha hA c hc
          cases ha : s.refs.getD (blendingOf h f c).source none with
          | none => exact absurd ha (hhave c hc (by omega))
          | some a =>
            obtain ⟨w, -, hw⟩ := hold c hc a ha
            obtain ⟨ra, e, -⟩ := hw (h.colourCount + (blendingOf h f c).alpha) (by omega)
            refine ⟨_, ra, _, a, List.getElem?_eq_getElem hai, rfl, e, by rw [hfc]; exact hframe _ (by omega), ?_⟩
            unfold twoAlphas
            rw [if_pos hA, ha, Option.bind_some, e]
            unfold depth
            rw [if_neg (by omega), Nat.add_sub_cancel_left, List.getElem?_eq_getElem hai]
            rfl
        · rw [if_neg hA]
          unfold twoAlphas
          rw [if_neg hA]
    · refine ⟨(ruleOf hr hc).1.1, fun hx => halpha hx c hc, ?_, by rw [hrect]; exact hholds c hc, fun h2 => hhave c hc h2, fun _ rb hrb => ?_, fun hx dd ra fa p hk => ?_, fun _ ha => ?_,
        fun ha hm hA => ?_⟩
      · rcases (hlw.get hc).2.1 with hp | hp
        · exact Or.inr ⟨hp, hV.depths c hc⟩
        · exact Or.inl hp
      · have hrb : (s.refs.getD (blendingOf h f c).source none).bind (fun a => buffer s a c) = some rb := hrb
        obtain ⟨a, ha, e⟩ := Option.bind_eq_some_iff.mp hrb
        obtain ⟨w, -, hw⟩ := hold c hc a ha
        obtain ⟨rb', e', p, -⟩ := hw c hc
        rw [e] at e'
        cases e'
        exact picture_holds p (hV.depths c hc) (by omega) (by omega)
      · have hk : twoAlphas h f s bufs c = some (dd, ra, fa, p) := hk
        unfold twoAlphas at hk
        split at hk
        · rename_i hA
          have hai := halpha hA c hc
          obtain ⟨a, ha, hk⟩ := Option.bind_eq_some_iff.mp hk
          obtain ⟨ra', e, hk⟩ := Option.map_eq_some_iff.mp hk
          cases hk
          obtain ⟨w, -, hw⟩ := hold c hc a ha
          obtain ⟨rb', e', p, -⟩ := hw (h.colourCount + (blendingOf h f c).alpha) (by omega)
          rw [e] at e'
          cases e'
          exact ⟨picture_holds p (hV.depths _ (by omega)) (by omega) (by omega), by rw [hrect]; exact hholds _ (by omega)⟩
        · cases hk
      · have ha : s.refs.getD (blendingOf h f c).source none = some s.frame := ha
        have h1 := hsrc c hc
        rw [ha] at h1
        exact (hslots _ _ h1).1 rfl
      · have ha : s.refs.getD (blendingOf h f c).source none = some s.canvas := ha
        have h1 := hsrc c hc
        rw [ha] at h1
        exact hL.order hA c hc hm (by
          by_contra hx
          exact (hslots _ _ h1).2.1 hx rfl)
    · rw [hfc] at hi
      exact ⟨_, hframe i hi⟩
  obtain ⟨m1, m2, m3, m4⟩ := hL.meets
  obtain ⟨z1, z2⟩ := hL.size
  obtain ⟨s2, e2, hp⟩ := blendFrame_ok I True (h := h) (f := f) (H := h.size.height) (W := h.size.width) (k := mixed h f s l bufs) (s := s) (nc := channelCount h) rfl
    (by rw [hl, Option.map_some, hlw.1]) sc hV.width.2 hV.height.2 (by rw [hrect]; exact z1) (by rw [hrect]; exact z2) (by rw [hrect]; exact hL.place) (by rw [hrect]; exact m1)
    (by rw [hrect]; exact m2) (by rw [hrect]; exact m3) (by rw [hrect]; exact m4) (fun hx => absurd trivial hx)
  have hpl : ∀ c y x, c < channelCount h → CoversPixel f y x → px (depth h c) (bufs.getD c ⟨0, 0, 0, [], []⟩) ((y : Int) - f.y0).toNat ((x : Int) - f.x0).toNat = placed h f v c y x := by
    rintro c y x hc ⟨c1, c2, c3, c4⟩
    unfold px value placed
    rw [if_pos (shows_get hbv hc).2.1.1, (shows_get hbv hc).2.2.2 _ _ (by omega) (by omega)]
    rfl
  have hcan : ∀ c, c < channelCount h → ∃ b, buffer s2 s.canvas c = some b ∧ b.Picture h.size.height h.size.width ∧
      ∀ y x, y < h.size.height → x < h.size.width → value (depth h c) b y x = some (upCanvas I h f v d c y x) := by
    intro c hc
    obtain ⟨b, h1, h2, -⟩ := hp.done c hc
    refine ⟨b, h1, ?_⟩
    rcases h2 with ⟨hci, h2, h4⟩ | ⟨h2, h4⟩
    · refine ⟨Or.inl h2, fun y x hy hx => ?_⟩
      have hs := h4 y x hy hx
      unfold value
      rw [if_pos h2.1]
      rw [hs, hrect]
      unfold upCanvas
      by_cases hcov : Covered ⟨f.x0, f.y0, f.size.width, f.size.height⟩ y x
      · have hcov' : CoversPixel f y x := hcov
        rw [hrect, if_pos hcov] at hs
        rw [if_pos hcov, if_pos hcov']
        have hnew : (if (bufs.getD c ⟨0, 0, 0, [], []⟩).bufferType = 0 then sample (bufs.getD c ⟨0, 0, 0, [], []⟩).ints ((y : Int) - f.y0).toNat ((x : Int) - f.x0).toNat else none) =
            some (v c ((y : Int) - f.y0).toNat ((x : Int) - f.x0).toNat) := by
          obtain ⟨c1, c2, c3, c4⟩ := hcov'
          rw [if_pos (shows_get hbv hc).2.1.1]
          exact (shows_get hbv hc).2.2.2 _ _ (by omega) (by omega)
        by_cases hm : (blendingOf h f c).mode = 0
        · have hi : intResult ⟨f.x0, f.y0, f.size.width, f.size.height⟩ (mixed h f s l bufs c).info.mode (mixed h f s l bufs c).ref (mixed h f s l bufs c).frame y x =
              some (v c ((y : Int) - f.y0).toNat ((x : Int) - f.x0).toNat) := by
            show intResult _ (blendingOf h f c).mode _ (bufs.getD c ⟨0, 0, 0, [], []⟩) y x = _
            rw [hm]
            exact hnew
          rw [hi, Option.map_some]
          unfold composed
          rw [hm]
          cases d.slots (blendingOf h f c).source <;> rfl
        · exfalso
          obtain ⟨t, ht⟩ := Table.sample h2.2.2.2 hy hx
          rw [ht] at hs
          have h2m : ∃ n, (blendingOf h f c).mode = n + 2 := ⟨(blendingOf h f c).mode - 2, by have := hL.modes c hc; omega⟩
          obtain ⟨n, hn⟩ := h2m
          have hi : intResult ⟨f.x0, f.y0, f.size.width, f.size.height⟩ (mixed h f s l bufs c).info.mode (mixed h f s l bufs c).ref (mixed h f s l bufs c).frame y x = none := by
            show intResult _ (blendingOf h f c).mode _ (bufs.getD c ⟨0, 0, 0, [], []⟩) y x = _
            rw [hn]
            rfl
          rw [hi] at hs
          cases hs
      · rw [if_neg hcov, if_neg (show ¬ CoversPixel f y x from hcov)]
        have := (hlw.get hc).2.2 y x hy hx
        unfold value at this
        rw [if_pos (show (l.getD c ⟨0, 0, 0, [], []⟩).bufferType = 0 from hci.1)] at this
        exact this
    · refine ⟨Or.inr h2, fun y x hy hx => ?_⟩
      unfold value
      rw [if_neg (by rw [h2.1]; decide), h4 y x hy hx, hrect]
      unfold upCanvas
      by_cases hcov : Covered ⟨f.x0, f.y0, f.size.width, f.size.height⟩ y x
      · have hcov' : CoversPixel f y x := hcov
        rw [if_pos hcov, if_pos hcov']
        congr 1
        show floatResult I (depth h c) _ (blendingOf h f c).mode (blendingOf h f c).clamp (isAlphaChannel h c) ((s.refs.getD (blendingOf h f c).source none).bind (fun a => buffer s a c))
          (twoAlphas h f s bufs c) (bufs.getD c ⟨0, 0, 0, [], []⟩) y x = _
        unfold floatResult frameRow frameCol composed
        dsimp only
        rw [hpl c y x hc hcov']
        cases ha : s.refs.getD (blendingOf h f c).source none with
        | none => rw [hnone c hc ha]; rfl
        | some a =>
          obtain ⟨w, ew, hw⟩ := hold c hc a ha
          obtain ⟨rb, e, -, hv⟩ := hw c hc
          rw [Option.bind_some, e, ew]
          dsimp only
          have hpx : px (depth h c) rb y x = w c y x := by unfold px; rw [hv y x hy hx]; rfl
          rw [hpx]
          congr 1
          unfold twoAlphas alphasOf
          by_cases hA : h.hasAlpha = true
          · have hai := halpha hA c hc
            obtain ⟨ra, e3, -, hv3⟩ := hw (h.colourCount + (blendingOf h f c).alpha) (by omega)
            rw [if_pos hA, if_pos hA, ha, Option.bind_some, e3, Option.map_some, Option.map_some]
            dsimp only
            rw [hpl _ y x (by omega) hcov']
            congr 2
            unfold px
            rw [hv3 y x hy hx]
            rfl
          · rw [if_neg hA, if_neg hA]
            rfl
      · rw [if_neg hcov, if_neg (show ¬ CoversPixel f y x from hcov)]
        exact (hlw.get hc).2.2 y x hy hx
  obtain ⟨l', hl'⟩ : ∃ l', s2.slices[s.canvas]? = some l' := by
    obtain ⟨b, hb, -⟩ := hcan 0 (channelCount_pos h)
    unfold buffer at hb
    cases hx : s2.slices[s.canvas]? with
    | none => rw [hx] at hb; cases hb
    | some l' => exact ⟨l', rfl⟩
  have hlen : ∀ (a : Nat) (m m' : List ImageBuffer), s.slices[a]? = some m → s2.slices[a]? = some m' → m.length = channelCount h → (∀ i, i < channelCount h → ∃ b, m'[i]? = some b) →
      m'.length = channelCount h := by
    intro a m m' em em' hm hall
    have h1 : channelCount h ≤ m'.length := by
      by_contra hx
      obtain ⟨b, hb⟩ := hall m'.length (by omega)
      rw [List.getElem?_eq_none (Nat.le_refl _)] at hb
      cases hb
    have h2 := hp.none a (channelCount h) (by
      unfold buffer
      rw [em, Option.bind_some, List.getElem?_eq_none (by omega)])
    unfold buffer at h2
    rw [em', Option.bind_some] at h2
    have := List.getElem?_eq_none_iff.mp h2
    omega
  refine ⟨s2, l', e2, hp.refs, hp.canvas, hl', ⟨hlen s.canvas l l' hl hl' hlw.1 fun i hi => ?_, ?_⟩, ?_⟩
  · obtain ⟨b, hb, -⟩ := hcan i hi
    unfold buffer at hb
    rw [hl', Option.bind_some] at hb
    exact ⟨b, hb⟩
  · intro c hc
    obtain ⟨b, hb, p⟩ := hcan c hc
    unfold buffer at hb
    rw [hl', Option.bind_some] at hb
    exact ⟨b, hb, p⟩
  · intro a m w ha hm hmw
    have hk : ∀ (c : Nat) (b : ImageBuffer), m[c]? = some b → ∃ b', buffer s2 a c = some b' ∧ Like True (depth h c) b b' := by
      intro c b hb
      exact hp.rest a c b (Or.inl ha) (by unfold buffer; rw [hm]; exact hb)
    cases hx : s2.slices[a]? with
    | none =>
      obtain ⟨b, eb, -⟩ := hmw.2 0 (channelCount_pos h)
      obtain ⟨b', e, -⟩ := hk 0 b eb
      unfold buffer at e
      rw [hx] at e
      cases e
    | some m' =>
      have hk' : ∀ (c : Nat) (b : ImageBuffer), m[c]? = some b → ∃ b', m'[c]? = some b' ∧ Like True (depth h c) b b' := by
        intro c b hb
        obtain ⟨b', e, k⟩ := hk c b hb
        unfold buffer at e
        rw [hx] at e
        exact ⟨b', e, k⟩
      refine ⟨m', rfl, hmw.like hV ?_ hk'⟩
      rw [hmw.1]
      exact hlen a m m' hm hx hmw.1 fun i hi => by
        obtain ⟨b, eb, -⟩ := hmw.2 i hi
        obtain ⟨b', e, -⟩ := hk' i b eb
        exact ⟨b', e⟩

theorem ShowsValues.some {h : ImageHeader} (hV : Viewable h) {w : FloatPic} {l : List ImageBuffer} (hw : ShowsValues h w l) : ∃ b, l[0]? = some b ∧ b.height ≠ 0 := by
  obtain ⟨b, e, p, -⟩ := hw.2 0 (channelCount_pos h)
  refine ⟨b, e, ?_⟩
  have := hV.height.1
  rcases p with p | p
  · have := p.2.1
    have := p.2.2.1
    omega
  · have := p.2.1
    have := p.2.2.1
    omega

/-- The canvas has buffers after the first frame. -/
theorem initValues_ok {h : ImageHeader} (hV : Viewable h) {d : Collage} {s : Store} {v : Pic} {size : Dim} {bufs : List ImageBuffer} (hr : s.refs.length = 4)
    (hc : (s.slices[s.canvas]? = some (List.replicate (channelCount h) ⟨0, 0, 0, [], []⟩) ∧ d.canvas = fun _ _ _ => .fin 0) ∨ ∃ l, s.slices[s.canvas]? = some l ∧ ShowsValues h d.canvas l)
    (hb : s.slices[s.frame]? = some bufs) (hbv : ShowsPicture (channelCount h) size v bufs) (hne : s.frame ≠ s.canvas) :
    ∃ s' l, initCanvas h s = .ok s' ∧ s'.refs.length = 4 ∧ s'.frame = s.frame ∧ s'.canvas = s.canvas ∧ s'.slices[s.frame]? = some bufs ∧ s'.slices[s.canvas]? = some l ∧
      ShowsValues h d.canvas l := by
  rcases hc with ⟨e, hz⟩ | ⟨l, e, hl⟩
  · obtain ⟨s', l, e1, r1, f1, c1, b1, l1, p1⟩ := initCanvas_ok (w := fun _ _ _ => 0) ⟨hr, Or.inl ⟨e, rfl⟩⟩ hb hbv hne hV.width hV.height
    refine ⟨s', l, e1, r1, f1, c1, b1, l1, p1.values.1, fun c hc => ?_⟩
    obtain ⟨b, e2, p2, q2⟩ := p1.values.2 c hc
    refine ⟨b, e2, p2, fun y x hy hx => ?_⟩
    rw [q2 y x hy hx, hz]
    dsimp only
    exact congrArg some (unit_of_zero (hV.depths c hc).1 (hV.depths c hc).2)
  · refine ⟨s, l, ?_, hr, rfl, rfl, hb, e, hl⟩
    obtain ⟨b, e1, hb0⟩ := hl.some hV
    unfold initCanvas
    rw [idx_of_getElem? _ _ _ e, Res.bind_ok, show idx l 0 = .ok b from idx_of_getElem? l 0 b e1, Res.bind_ok, if_neg (fun hx => hb0 hx.1)]

/-- A frame that replaces or blends is put on the canvas, and saved. -/
theorem composeBlend_ok (I : BlendImpl) {h : ImageHeader} {f : FrameHeader} {v : Pic} {d : Collage} (hL : Blended h f v) (hr : RegularHeader h.extra.length f) (hV : Viewable h)
    (hal : h.alphaIndices = alphaChannels h.extra) {s : Store} (hB : Album h d s) {bufs : List ImageBuffer} (hbv : ShowsPicture (channelCount h) f.size v bufs)
    (huse : ∀ c, c < channelCount h → 2 ≤ (blendingOf h f c).mode → d.slots (blendingOf h f c).source ≠ none) :
    ∃ s' l', composeFrame I h (frameColours none h) ⟨f, bufs⟩ s = .ok s' ∧ s'.slices[s'.canvas]? = some l' ∧ ShowsValues h (upCanvas I h f v d) l' ∧
      (f.isLast = false → Numbers h (upCanvas I h f v d) → Album h (keep f (upCanvas I h f v d) d) s') := by
  have hlt : s.canvas < s.slices.length := by
    rcases hB.canvas with ⟨e, -⟩ | ⟨l, e, -⟩ <;> exact (List.getElem?_eq_some_iff.mp e).1
  have hfr : (s.slices ++ [bufs])[s.slices.length]? = some bufs := by
    rw [List.getElem?_append_right (Nat.le_refl _), Nat.sub_self]
    rfl
  have e1 : saveEarly f { s with slices := s.slices ++ [bufs], frame := s.slices.length } = .ok { s with slices := s.slices ++ [bufs], frame := s.slices.length } := by
    unfold saveEarly
    rw [if_neg]
    intro hx
    rw [Bool.and_eq_true] at hx
    have h1 : f.isLast = false := by
      have := hx.1
      unfold FrameHeader.saves at this
      revert this
      cases f.isLast <;> simp
    rw [hL.saved h1] at hx
    cases hx.2
  have e2 : colourStep (frameColours none h) f { s with slices := s.slices ++ [bufs], frame := s.slices.length } = .ok { s with slices := s.slices ++ [bufs], frame := s.slices.length } := by
    unfold colourStep
    rw [idx_of_getElem? _ _ _ hfr, Res.bind_ok, colours_plain hL.rgb, Res.bind_ok, setAt_nat' _ _ _ (List.getElem?_eq_some_iff.mp hfr).1, Res.bind_ok, set_self hfr]
  obtain ⟨s2, l, e3, r2, f2, c2, b2, l2, p2⟩ := initValues_ok hV (d := d) (s := { s with slices := s.slices ++ [bufs], frame := s.slices.length }) hB.refs (by
    show ((s.slices ++ [bufs])[s.canvas]? = _ ∧ _) ∨ ∃ l, (s.slices ++ [bufs])[s.canvas]? = _ ∧ _
    rw [List.getElem?_append_left hlt]
    exact hB.canvas) hfr hbv (Nat.ne_of_gt hlt)
  dsimp only at f2 c2 b2 l2
  obtain ⟨r2', k2⟩ := initCanvas_same e3
  have slots2 : ∀ i a : Nat, s2.refs[i]? = some (some a) → a ≠ s2.frame ∧ ∃ l w, s2.slices[a]? = some l ∧ d.slots i = some w ∧ ShowsValues h w l := by
    intro i a hi
    rw [r2'] at hi
    obtain ⟨m, w, em, ew, pm⟩ := hB.slots i a hi
    have hal := (List.getElem?_eq_some_iff.mp em).1
    refine ⟨by rw [f2]; exact Nat.ne_of_lt hal, m, w, k2 a m ?_ (pm.some hV), ew, pm⟩
    show (s.slices ++ [bufs])[a]? = _
    rw [List.getElem?_append_left hal, em]
  obtain ⟨s3, e4, r3, l3, b3, n3⟩ := detach_ok f (s := s2) (by rw [c2]; exact l2) (by rw [f2]; exact b2) (by rw [f2, c2]; exact Nat.ne_of_gt hlt)
  obtain ⟨-, f3, k3, o3⟩ := detach_same e4 (by rw [c2]; exact l2) (p2.proper hB.numbers hV.height.1)
  have len3 : s3.refs.length = 4 := by rw [r3]; exact r2
  have slots3 : ∀ i a : Nat, s3.refs[i]? = some (some a) → a ≠ s3.frame ∧ (i ≠ f.saveAsReference → a ≠ s3.canvas) ∧
      ∃ l w, s3.slices[a]? = some l ∧ d.slots i = some w ∧ ShowsValues h w l := by
    intro i a hi
    have hi4 : i < 4 := by rw [← len3]; exact (List.getElem?_eq_some_iff.mp hi).1
    rw [r3] at hi
    obtain ⟨h1, m, w, em, ew, pm⟩ := slots2 i a hi
    exact ⟨by rw [f3]; exact h1, fun hx => o3 i a m hi4 hx hi em, m, w, k3 a m em, ew, pm⟩
  have empty3 : ∀ i : Nat, s3.refs[i]? = some none → d.slots i = none := by
    intro i hi
    rw [r3, r2'] at hi
    exact hB.empty i hi
  obtain ⟨s4, l4, e5, r4, c4, hl4, p4, k4⟩ := blend_ok I hL hr hV hal len3 l3 p2 b3 hbv n3 slots3 empty3 huse
  have ep : paintFrame I h f s2 = .ok s4 := by
    unfold paintFrame
    rw [if_pos (by have := hL.regular; simpa using this), e4, Res.bind_ok, e5]
  have len4 : s4.refs.length = 4 := by rw [r4]; exact len3
  have hcomp : composeFrame I h (frameColours none h) ⟨f, bufs⟩ s = saveLate f s4 := by
    unfold composeFrame
    dsimp only
    rw [if_neg (by have := hL.regular; omega), e1, Res.bind_ok, e2, Res.bind_ok, e3, Res.bind_ok, ep, Res.bind_ok]
  cases hlast : f.isLast with
  | true =>
    refine ⟨s4, l4, ?_, by rw [c4]; exact hl4, p4, fun hx => by cases hx⟩
    rw [hcomp]
    unfold saveLate FrameHeader.saves
    rw [hlast]
    rfl
  | false =>
    refine ⟨{ s4 with refs := s4.refs.set f.saveAsReference (some s4.canvas) }, l4, ?_, ?_, p4, fun _ hnum => ⟨?_, Or.inr ⟨l4, ?_, p4⟩, hnum, fun i a hi => ?_, fun i hi => ?_⟩⟩
    · rw [hcomp]
      unfold saveLate
      rw [if_pos (by unfold FrameHeader.saves; rw [hlast, hL.saved hlast]; have := hL.regular; simp; omega),
        setAt_nat' _ _ _ (show f.saveAsReference < s4.refs.length by rw [len4]; exact hr.save), Res.bind_ok]
    · show s4.slices[s4.canvas]? = _
      rw [c4, hl4]
    · show (s4.refs.set _ _).length = 4
      rw [List.length_set, len4]
    · show s4.slices[s4.canvas]? = _
      rw [c4, hl4]
    · have hi : (s4.refs.set f.saveAsReference (some s4.canvas))[i]? = some (some a) := hi
      show ∃ l w, s4.slices[a]? = some l ∧ (if i = f.saveAsReference then some (upCanvas I h f v d) else d.slots i) = some w ∧ ShowsValues h w l
      by_cases hif : i = f.saveAsReference
      · subst hif
        rw [List.getElem?_set_self (by rw [len4]; exact hr.save)] at hi
        cases hi
        rw [if_pos rfl]
        exact ⟨l4, _, by rw [c4, hl4], rfl, p4⟩
      · rw [List.getElem?_set_ne (Ne.symm hif)] at hi
        rw [if_neg hif]
        rw [r4] at hi
        obtain ⟨-, ho, m, w, em, ew, pm⟩ := slots3 i a hi
        obtain ⟨m', em', pm'⟩ := k4 a m w (ho hif) em pm
        exact ⟨m', w, em', ew, pm'⟩
    · have hi : (s4.refs.set f.saveAsReference (some s4.canvas))[i]? = some none := hi
      show (if i = f.saveAsReference then some (upCanvas I h f v d) else d.slots i) = none
      by_cases hif : i = f.saveAsReference
      · subst hif
        rw [List.getElem?_set_self (by rw [len4]; exact hr.save)] at hi
        cases hi
      · rw [List.getElem?_set_ne (Ne.symm hif), r4] at hi
        rw [if_neg hif]
        exact empty3 i hi

/-- Turning buffers of both kinds. -/
theorem orientValues_ok {h w o : Nat} {rs cs : Side} (hh : 0 < h) (hw : 0 < w) (hh' : h < 2 ^ 31) (hw' : w < 2 ^ 31) (ho : exif o = some (rs, cs)) :
    ∀ l : List ImageBuffer, (∀ b ∈ l, b.Picture h w) →
      ∃ l', orientCanvas l o = .ok l' ∧ l'.length = l.length ∧ ∀ (c : Nat) (b : ImageBuffer), l[c]? = some b → ∃ b', l'[c]? = some b' ∧
        b'.Picture (shownSize rs h w).1 (shownSize rs h w).2 ∧ ∀ d y x, y < h → x < w → value d b' (shown rs cs h w y x).1 (shown rs cs h w y x).2 = value d b y x
  | [], _ => ⟨[], rfl, rfl, fun c b hb => by simp at hb⟩
  | b :: bs, hl => by
    obtain ⟨b', e1, p1, q1⟩ : ∃ b', transposeBuffer b o = .ok b' ∧ b'.Picture (shownSize rs h w).1 (shownSize rs h w).2 ∧
        ∀ d y x, y < h → x < w → value d b' (shown rs cs h w y x).1 (shown rs cs h w y x).2 = value d b y x := by
      rcases hl b List.mem_cons_self with hp | hp
      · obtain ⟨b', e, p, q⟩ := C33_ints b h w o rs cs hp hh hw hh' hw' ho
        refine ⟨b', e, Or.inl p, fun d y x hy hx => ?_⟩
        unfold value
        rw [if_pos p.1, if_pos hp.1, q y x hy hx]
      · obtain ⟨b', e, p, q⟩ := C33_floats b h w o rs cs hp hh hw hh' hw' ho
        refine ⟨b', e, Or.inr p, fun d y x hy hx => ?_⟩
        unfold value
        rw [if_neg (by rw [p.1]; decide), if_neg (by rw [hp.1]; decide), q y x hy hx]
    obtain ⟨l', e2, n2, q2⟩ := orientValues_ok hh hw hh' hw' ho bs (fun b hb => hl b (List.mem_cons_of_mem _ hb))
    refine ⟨b' :: l', ?_, by simp [n2], fun c a hc => ?_⟩
    · unfold orientCanvas
      rw [e1, Res.bind_ok, e2, Res.bind_ok]
    · cases c with
      | zero =>
        rw [List.getElem?_cons_zero] at hc
        cases hc
        exact ⟨b', rfl, p1, q1⟩
      | succ c =>
        rw [List.getElem?_cons_succ] at hc ⊢
        exact q2 c a hc

theorem finishValues_ok {h : ImageHeader} (hV : Viewable h) (hS : StatedHeader h) {enc : Option (List UInt8)} (hp : ∃ p, imageProfile h enc = .ok p) {w : FloatPic} {st : Store}
    {l : List ImageBuffer} (hl : st.slices[st.canvas]? = some l) (hlw : ShowsValues h w l) {s : BR} {p : Nat} (hs : AtBit s p) :
    ∃ img s', finishImage h enc st s = (.ok img, s') ∧ Made img img.buffers h ∧ newJXLImage img.buffers h enc = .ok img ∧ ValuesTurned h w img.buffers := by
  obtain ⟨s1, e1, a1, d1⟩ := zeroPad_spec s p hs
  obtain ⟨rs, cs, hex⟩ := exif_of hS.orientation
  have hall : ∀ b ∈ l, b.Picture h.size.height h.size.width := by
    intro b hb
    obtain ⟨c, hc, e⟩ := List.mem_iff_getElem.mp hb
    obtain ⟨b', e', p', -⟩ := hlw.2 c (by rw [← hlw.1]; exact hc)
    rw [List.getElem?_eq_getElem hc, e] at e'
    cases e'
    exact p'
  obtain ⟨l', e2, n2, q2⟩ := orientValues_ok hV.height.1 hV.width.1 (by have := hV.height.2; omega) (by have := hV.width.2; omega) hex l hall
  obtain ⟨img, e3⟩ := newImage_ok hS.alphas (n2.trans hlw.1) hp
  have hm := newJXLImage_made e3 (by rw [n2, hlw.1]; rfl)
  refine ⟨img, s1, ?_, by rw [hm.bufs]; exact hm, by rw [hm.bufs]; exact e3, rs, cs, hex, by rw [hm.bufs, n2, hlw.1], fun c hc => ?_⟩
  · unfold finishImage
    rw [Rd.bind_ok e1, idx_of_getElem? _ _ _ hl, Rd.bind_ok (lift_ok rfl _), e2, Rd.bind_ok (lift_ok rfl _), e3]
    exact lift_ok rfl _
  · obtain ⟨b, eb, pb, hb⟩ := hlw.2 c hc
    obtain ⟨b', eb', pb', hb'⟩ := q2 c b eb
    rw [hm.bufs]
    refine ⟨b', eb', pb', fun y x hy hx => ?_⟩
    rw [hb' _ y x hy hx]
    exact hb y x hy hx

end Jxl
