import Verif.Proofs.DecodeFile
import Verif.Props.Compose
import Verif.Spec.Drawing

/-! # Frames that are added to saved frames -/
namespace Jxl
open Spec

/-- The store of the decoder shows a drawing. -/
structure Board (h : ImageHeader) (d : Drawing) (s : Store) : Prop where
  canvas : Canvas h d.canvas s
  slots : ∀ i a : Nat, s.refs[i]? = some (some a) → ∃ l, s.slices[a]? = some l ∧ ShowsPicture (channelCount h) h.size (d.slots i) l
  empty : ∀ i : Nat, s.refs[i]? = some none → ∀ c y x, d.slots i c y x = 0

theorem initCanvas_same {h : ImageHeader} {s s' : Store} (e : initCanvas h s = .ok s') :
    s'.refs = s.refs ∧ ∀ (a : Nat) (l : List ImageBuffer), s.slices[a]? = some l → (∃ b : ImageBuffer, l[0]? = some b ∧ b.height ≠ 0) → s'.slices[a]? = some l := by
  unfold initCanvas at e
  obtain ⟨l0, h0, e⟩ := Res.of_bind e
  obtain ⟨b0, h1, e⟩ := Res.of_bind e
  split at e
  · rename_i hz
    obtain ⟨fb, -, e⟩ := Res.of_bind e
    obtain ⟨n, -, e⟩ := Res.of_bind e
    obtain ⟨m, em, e⟩ := Res.of_bind e
    cases e
    obtain ⟨hlt, rfl⟩ := setAt_other em
    refine ⟨rfl, fun a l hl hb => ?_⟩
    dsimp only
    by_cases ha : s.canvas = a
    · subst ha
      obtain ⟨b, hb, hh⟩ := hb
      have := idx_ok_some h0
      rw [hl] at this
      cases this
      have := idx_ok_some (i := 0) h1
      rw [hb] at this
      cases this
      exact absurd hz.1 hh
    · rw [List.getElem?_set_ne ha, hl]
  · cases e
    exact ⟨rfl, fun a l hl _ => hl⟩

theorem detach_same {f : FrameHeader} {s s' : Store} {l : List ImageBuffer} (e : detachCanvas f s = .ok s') (hl : s.slices[s.canvas]? = some l) (hp : ∀ b ∈ l, Proper b) :
    s'.refs = s.refs ∧ s'.frame = s.frame ∧ (∀ (a : Nat) (m : List ImageBuffer), s.slices[a]? = some m → s'.slices[a]? = some m) ∧
      ∀ (i a : Nat) (m : List ImageBuffer), i < 4 → i ≠ f.saveAsReference → s.refs[i]? = some (some a) → s.slices[a]? = some m → a ≠ s'.canvas := by
  unfold detachCanvas at e
  rw [idx_of_getElem? _ _ _ hl, Res.bind_ok] at e
  split at e
  · cases e
    refine ⟨rfl, rfl, fun a m hm => ?_, fun i a m _ _ _ hm => ?_⟩
    · show (s.slices ++ [l])[a]? = _
      rw [List.getElem?_append_left (List.getElem?_eq_some_iff.mp hm).1, hm]
    · exact Nat.ne_of_lt (List.getElem?_eq_some_iff.mp hm).1
  · rename_i hc
    cases e
    refine ⟨rfl, rfl, fun a m hm => hm, fun i a m hi hne hr hm ha => hc ?_⟩
    unfold canvasSaved
    rw [List.any_eq_true]
    refine ⟨i, List.mem_range.mpr hi, ?_⟩
    rw [hr, Option.join_some, Option.bind_some, ha, hl, Option.getD_some, sliceEquals_self l hp]
    simpa using hne

/-- What takes part in painting channel `c` with a frame that replaces or adds. -/
def joined (h : ImageHeader) (f : FrameHeader) (s : Store) (l bufs : List ImageBuffer) (c : Nat) : Channel :=
  ⟨blendingOf h f c, if c < h.colourCount then false else decide ((h.extra[c - h.colourCount]?).map (·.ecType) = some 0), l.getD c ⟨0, 0, 0, [], []⟩, bufs.getD c ⟨0, 0, 0, [], []⟩,
    s.refs.getD (blendingOf h f c).source none, (s.refs.getD (blendingOf h f c).source none).bind (fun a => buffer s a c), none⟩

theorem shows_get {n : Nat} {size : Dim} {w : Pic} {l : List ImageBuffer} (h : ShowsPicture n size w l) {c : Nat} (hc : c < n) :
    l[c]? = some (l.getD c ⟨0, 0, 0, [], []⟩) ∧ (l.getD c ⟨0, 0, 0, [], []⟩).IntPicture size.height size.width ∧
      HoldsPlane size.height size.width (w c) (l.getD c ⟨0, 0, 0, [], []⟩).ints := by
  obtain ⟨b, e, p⟩ := h.2 c hc
  rw [List.getD_eq_getElem?_getD, e]
  exact ⟨rfl, p⟩

theorem blendingOf_ok {h : ImageHeader} {f : FrameHeader} {v : Pic} (hL : Addition h f v) (hr : RegularHeader h.extra.length f) {c : Nat} (hc : c < channelCount h) :
    (blendingOf h f c).mode ≤ 1 ∧ (blendingOf h f c).alpha = 0 ∧ (blendingOf h f c).source < 4 ∧
      (¬ c < h.colourCount → f.ecBlending[c - h.colourCount]? = some (blendingOf h f c)) := by
  have hcc : channelCount h = h.colourCount + h.extra.length := rfl
  unfold blendingOf
  by_cases hx : c < h.colourCount
  · rw [if_pos hx]
    exact ⟨hL.modes.1, hr.blending.2.1 (by have := hL.modes.1; omega), hr.blending.2.2, fun hy => absurd hx hy⟩
  · rw [if_neg hx]
    have hi : c - h.colourCount < f.ecBlending.length := by rw [hr.ecBlending.1]; omega
    rw [List.getD_eq_getElem?_getD, List.getElem?_eq_getElem hi, Option.getD_some]
    have hm := hL.modes.2 _ (List.getElem_mem hi)
    have := hr.ecBlending.2 _ (List.getElem_mem hi)
    exact ⟨hm, this.2.1 (by omega), this.2.2, fun _ => rfl⟩

/-- A frame that replaces or adds is painted. -/
theorem add_ok (I : BlendImpl) {h : ImageHeader} {f : FrameHeader} {v : Pic} {d : Drawing} (hL : Addition h f v) (hr : RegularHeader h.extra.length f) (hV : Viewable h)
    (hal : h.alphaIndices = alphaChannels h.extra) {s : Store} {l bufs : List ImageBuffer} (hrefs : s.refs.length = 4) (hl : s.slices[s.canvas]? = some l)
    (hlw : ShowsPicture (channelCount h) h.size d.canvas l) (hb : s.slices[s.frame]? = some bufs) (hbv : ShowsPicture (channelCount h) f.size v bufs) (hne : s.frame ≠ s.canvas)
    (hslots : ∀ i a : Nat, s.refs[i]? = some (some a) → a ≠ s.frame ∧ ∃ l, s.slices[a]? = some l ∧ ShowsPicture (channelCount h) h.size (d.slots i) l)
    (hempty : ∀ i : Nat, s.refs[i]? = some none → ∀ c y x, d.slots i c y x = 0)
    (hfit : ∀ c y x, c < channelCount h → y < h.size.height → x < h.size.width → CoversPixel f y x → -2 ^ 31 ≤ combined h f v d.slots c y x ∧ combined h f v d.slots c y x < 2 ^ 31) :
    ∃ s' l', blendFrame I h f s = .ok s' ∧ s'.refs = s.refs ∧ s'.canvas = s.canvas ∧ s'.slices[s.canvas]? = some l' ∧
      ShowsPicture (channelCount h) h.size (overCanvas h f v d) l' ∧ ∀ (a : Nat) (m : List ImageBuffer), a ≠ s.canvas → s.slices[a]? = some m → m ≠ [] → s'.slices[a]? = some m := by
  have hrect := rect_unscaled hL.toSheet hV.width.2 hV.height.2
  have hfc : frameColourCount h f.encoding = h.colourCount := by
    unfold frameColourCount
    rw [hL.plain.xyb, hL.plain.modular]
    rfl
  have hcc : channelCount h = h.colourCount + h.extra.length := rfl
  have hinfo : ∀ c, c < channelCount h → _ := fun c hc => blendingOf_ok hL hr hc
  have hsrc : ∀ c, c < channelCount h → s.refs[(blendingOf h f c).source]? = some (s.refs.getD (blendingOf h f c).source none) := by
    intro c hc
    have hs4 : (blendingOf h f c).source < s.refs.length := by rw [hrefs]; exact (hinfo c hc).2.2.1
    rw [List.getD_eq_getElem?_getD, List.getElem?_eq_getElem hs4]
    rfl
  have hold : ∀ c, c < channelCount h → ∀ a, s.refs.getD (blendingOf h f c).source none = some a → ∃ rb, buffer s a c = some rb ∧ rb.IntPicture h.size.height h.size.width ∧
      HoldsPlane h.size.height h.size.width (d.slots (blendingOf h f c).source c) rb.ints := by
    intro c hc a ha
    have h1 := hsrc c hc
    rw [ha] at h1
    obtain ⟨-, m, e, p⟩ := hslots _ a h1
    obtain ⟨rb, e2, p2⟩ := p.2 c hc
    exact ⟨rb, by unfold buffer; rw [e]; exact e2, p2⟩
  have sc : Scene h f s h.size.height h.size.width f.rect (channelCount h) (joined h f s l bufs) := by
    refine ⟨fun c hc => ?_, fun c hc => ?_, hne, fun i hi => ?_, Or.inl hfc, ⟨hV.height.1, by have := hV.height.2; omega⟩, by have := hV.width.2; omega⟩
    · obtain ⟨i1, i2, i3, i4⟩ := hinfo c hc
      refine ⟨?_, ?_, ?_, ?_, hsrc c hc, fun _ => ?_, fun hx => ?_⟩
      · unfold buffer
        rw [hl]
        exact (shows_get hlw hc).1
      · rw [hfc, show frameIndex h h.colourCount c = c by unfold frameIndex; split <;> [rw [if_pos rfl]; omega]]
        unfold buffer
        rw [hb]
        exact (shows_get hbv hc).1
      · by_cases hx : c < h.colourCount
        · rw [if_pos hx]
          show blendingOf h f c = _
          unfold blendingOf
          rw [if_pos hx]
        · rw [if_neg hx]
          exact i4 hx
      · by_cases hx : c < h.colourCount
        · rw [if_pos hx]
          unfold joined
          dsimp only
          rw [if_pos hx]
        · rw [if_neg hx]
          have hi : c - h.colourCount < h.extra.length := by omega
          refine ⟨_, List.getElem?_eq_getElem hi, ?_⟩
          unfold joined
          dsimp only
          rw [if_neg hx, List.getElem?_eq_getElem hi]
          simp
      · show match s.refs.getD (blendingOf h f c).source none with
          | none => (s.refs.getD (blendingOf h f c).source none).bind (fun a => buffer s a c) = none
          | some a => ∃ rb, buffer s a c = some rb ∧ (s.refs.getD (blendingOf h f c).source none).bind (fun a => buffer s a c) = some rb
        cases ha : s.refs.getD (blendingOf h f c).source none with
        | none => rfl
        | some a =>
          obtain ⟨rb, e, -⟩ := hold c hc a ha
          exact ⟨rb, e, e⟩
      · have : (blendingOf h f c).mode = 2 ∨ (blendingOf h f c).mode = 3 := hx
        omega
    · obtain ⟨i1, i2, i3, i4⟩ := hinfo c hc
      have hm : (joined h f s l bufs c).info.mode ≤ 1 := i1
      refine ⟨by omega, fun hx => ?_, Or.inr ⟨(shows_get hlw hc).2.1, hV.depths c hc⟩, ?_, fun hx => by omega, fun _ rb hrb => ?_, fun hx => by omega, fun _ ha => ?_, fun _ hx => by omega⟩
      · show (blendingOf h f c).alpha < _
        rw [i2]
        rcases he : h.extra with _ | ⟨x, xs⟩
        · unfold ImageHeader.hasAlpha at hx
          rw [hal, he] at hx
          simp [alphaChannels] at hx
        · simp
      · rw [hrect]
        have := hL.size
        exact ⟨f.size.height, f.size.width, Or.inr ⟨(shows_get hbv hc).2.1, hV.depths c hc⟩, Nat.le_refl _, Nat.le_refl _, by omega, by omega⟩
      · have hrb : (s.refs.getD (blendingOf h f c).source none).bind (fun a => buffer s a c) = some rb := hrb
        obtain ⟨a, ha, e⟩ := Option.bind_eq_some_iff.mp hrb
        obtain ⟨rb', e', p, -⟩ := hold c hc a ha
        rw [e] at e'
        cases e'
        have := hV.height.2
        have := hV.width.2
        exact ⟨_, _, Or.inr ⟨p, hV.depths c hc⟩, Nat.le_refl _, Nat.le_refl _, by omega, by omega⟩
      · have ha : s.refs.getD (blendingOf h f c).source none = some s.frame := ha
        have h1 := hsrc c hc
        rw [ha] at h1
        exact (hslots _ _ h1).1 rfl
    · rw [hfc] at hi
      unfold buffer
      rw [hb]
      exact ⟨_, (shows_get hbv (c := i) hi).1⟩
  obtain ⟨m1, m2, m3, m4⟩ := hL.meets
  obtain ⟨z1, z2⟩ := hL.size
  obtain ⟨s2, e2, hp⟩ := blendFrame_ok I False (h := h) (f := f) (H := h.size.height) (W := h.size.width) (k := joined h f s l bufs) (s := s) (nc := channelCount h) rfl
    (by rw [hl, Option.map_some, hlw.1]) sc hV.width.2 hV.height.2 (by rw [hrect]; exact z1) (by rw [hrect]; exact z2) (by rw [hrect]; exact hL.place) (by rw [hrect]; exact m1)
    (by rw [hrect]; exact m2) (by rw [hrect]; exact m3) (by rw [hrect]; exact m4)
    (fun _ c hc => ⟨(hinfo c hc).1, (shows_get hlw hc).2.1.1, (shows_get hbv hc).2.1.1, fun _ rb hrb => by
      have hrb : (s.refs.getD (blendingOf h f c).source none).bind (fun a => buffer s a c) = some rb := hrb
      obtain ⟨a, ha, e⟩ := Option.bind_eq_some_iff.mp hrb
      obtain ⟨rb', e', p, -⟩ := hold c hc a ha
      rw [e] at e'
      cases e'
      exact p.1⟩)
  have hcan : ∀ c, c < channelCount h → ∃ b, buffer s2 s.canvas c = some b ∧ b.IntPicture h.size.height h.size.width ∧
      HoldsPlane h.size.height h.size.width (overCanvas h f v d c) b.ints := by
    intro c hc
    obtain ⟨b, h1, h2, h3⟩ := hp.done c hc
    refine ⟨b, h1, ?_⟩
    rcases h2 with ⟨-, h2, h4⟩ | ⟨h2, -⟩
    · refine ⟨h2, h2.2.2.2, fun y x hy hx => ?_⟩
      rw [h4 y x hy hx, hrect]
      unfold overCanvas
      by_cases hcov : Covered ⟨f.x0, f.y0, f.size.width, f.size.height⟩ y x
      · have hcov' : CoversPixel f y x := hcov
        have hf := hfit c y x hc hy hx hcov'
        obtain ⟨c1, c2, c3, c4⟩ := hcov
        dsimp only at c1 c2 c3 c4
        rw [if_pos ⟨c1, c2, c3, c4⟩, if_pos hcov']
        have hnew : (if (bufs.getD c ⟨0, 0, 0, [], []⟩).bufferType = 0 then sample (bufs.getD c ⟨0, 0, 0, [], []⟩).ints ((y : Int) - f.y0).toNat ((x : Int) - f.x0).toNat else none) =
            some (v c ((y : Int) - f.y0).toNat ((x : Int) - f.x0).toNat) := by
          rw [if_pos (shows_get hbv hc).2.1.1]
          exact (shows_get hbv hc).2.2.2 _ _ (by omega) (by omega)
        show intResult _ (blendingOf h f c).mode ((s.refs.getD (blendingOf h f c).source none).bind (fun a => buffer s a c)) (bufs.getD c ⟨0, 0, 0, [], []⟩) y x = _
        unfold intResult frameRow frameCol
        dsimp only
        rw [hnew]
        unfold combined at hf ⊢
        dsimp only at hf ⊢
        rcases Nat.le_one_iff_eq_zero_or_eq_one.mp (hinfo c hc).1 with hm | hm
        · rw [hm, if_neg (by decide)]
          rfl
        · rw [hm, if_pos rfl] at hf
          rw [hm, if_pos rfl]
          cases ha : s.refs.getD (blendingOf h f c).source none with
          | none =>
            have h1 := hsrc c hc
            rw [ha] at h1
            rw [hempty _ h1, Int.zero_add]
            rfl
          | some a =>
            obtain ⟨rb, e, p, hpl⟩ := hold c hc a ha
            rw [Option.bind_some, e]
            show (if rb.bufferType = 0 then _ else _) = _
            rw [if_pos p.1, Option.bind_some, hpl.2 y x hy hx, Option.map_some, i32_in (by omega) (by omega)]
      · rw [if_neg hcov, if_neg (show ¬ CoversPixel f y x from hcov)]
        exact (shows_get hlw hc).2.2.2 y x hy hx
    · have := h3 not_false
      rw [h2.1] at this
      cases this
  have hsame : ∀ a i, a ≠ s.canvas → buffer s2 a i = buffer s a i := by
    intro a i ha
    cases hx : buffer s a i with
    | none => exact hp.none a i hx
    | some b =>
      obtain ⟨b', h1, l⟩ := hp.rest a i b (Or.inl ha) hx
      rw [h1, l.not not_false]
  obtain ⟨l', hl'⟩ : ∃ l', s2.slices[s.canvas]? = some l' := by
    obtain ⟨b, hb, -⟩ := hcan 0 (channelCount_pos h)
    unfold buffer at hb
    cases hx : s2.slices[s.canvas]? with
    | none => rw [hx] at hb; cases hb
    | some l' => exact ⟨l', rfl⟩
  refine ⟨s2, l', e2, hp.refs, hp.canvas, hl', ⟨?_, ?_⟩, ?_⟩
  · have h1 : channelCount h ≤ l'.length := by
      by_contra hx
      obtain ⟨b, hb, -⟩ := hcan l'.length (by omega)
      unfold buffer at hb
      rw [hl', Option.bind_some, List.getElem?_eq_none (Nat.le_refl _)] at hb
      cases hb
    have h2 := hp.none s.canvas (channelCount h) (by
      unfold buffer
      rw [hl, Option.bind_some, List.getElem?_eq_none (by rw [hlw.1])])
    unfold buffer at h2
    rw [hl', Option.bind_some] at h2
    have := List.getElem?_eq_none_iff.mp h2
    omega
  · intro c hc
    obtain ⟨b, hb, p⟩ := hcan c hc
    unfold buffer at hb
    rw [hl', Option.bind_some] at hb
    exact ⟨b, hb, p⟩
  · intro a m ha hm hnil
    cases hx : s2.slices[a]? with
    | none =>
      obtain ⟨b, m', rfl⟩ := List.exists_cons_of_ne_nil hnil
      have := hsame a 0 ha
      unfold buffer at this
      rw [hx, hm] at this
      cases this
    | some m' =>
      congr 1
      apply List.ext_getElem?
      intro i
      have := hsame a i ha
      unfold buffer at this
      rw [hx, hm] at this
      exact this

theorem ShowsPicture.proper {n : Nat} {size : Dim} {w : Pic} {l : List ImageBuffer} (h : ShowsPicture n size w l) (hh : 0 < size.height) : ∀ b ∈ l, Proper b := by
  intro b hb
  obtain ⟨c, hc, e⟩ := List.mem_iff_getElem.mp hb
  obtain ⟨b', e', p, -⟩ := h.2 c (by rw [← h.1]; exact hc)
  rw [List.getElem?_eq_getElem hc, e] at e'
  cases e'
  exact ⟨_, _, Or.inl p, hh, fun hx => by rw [p.1] at hx; cases hx⟩

/-- A frame that replaces or adds is put on the canvas, and saved. -/
theorem composeAdd_ok (I : BlendImpl) {h : ImageHeader} {f : FrameHeader} {v : Pic} {d : Drawing} (hL : Addition h f v) (hr : RegularHeader h.extra.length f) (hV : Viewable h)
    (hal : h.alphaIndices = alphaChannels h.extra) {s : Store} (hB : Board h d s) {bufs : List ImageBuffer} (hbv : ShowsPicture (channelCount h) f.size v bufs)
    (hfit : ∀ c y x, c < channelCount h → y < h.size.height → x < h.size.width → CoversPixel f y x → -2 ^ 31 ≤ combined h f v d.slots c y x ∧ combined h f v d.slots c y x < 2 ^ 31) :
    ∃ s' l', composeFrame I h (frameColours none h) ⟨f, bufs⟩ s = .ok s' ∧ s'.slices[s'.canvas]? = some l' ∧
      ShowsPicture (channelCount h) h.size (overCanvas h f v d) l' ∧ (f.isLast = false → Board h (save f (overCanvas h f v d) d) s') := by
  have hc := hB.canvas
  have hlt : s.canvas < s.slices.length := by
    rcases hc.canvas with ⟨e, -⟩ | ⟨l, e, -⟩ <;> exact (List.getElem?_eq_some_iff.mp e).1
  have hfr : (s.slices ++ [bufs])[s.slices.length]? = some bufs := by
    rw [List.getElem?_append_right (Nat.le_refl _), Nat.sub_self]
    rfl
  have hn0 : ∀ (w : Pic) (l : List ImageBuffer), ShowsPicture (channelCount h) h.size w l → (∃ b, l[0]? = some b ∧ b.height ≠ 0) ∧ l ≠ [] := by
    intro w l hw
    obtain ⟨b, e, p, -⟩ := hw.2 0 (channelCount_pos h)
    refine ⟨⟨b, e, ?_⟩, ?_⟩
    · have := p.2.1
      have := hV.height.1
      have := p.2.2.1
      omega
    · rintro rfl
      simp at e
  have e1 : saveEarly f { s with slices := s.slices ++ [bufs], frame := s.slices.length } = .ok { s with slices := s.slices ++ [bufs], frame := s.slices.length } := by
    unfold saveEarly
    rw [if_neg]
    intro hx
    rw [Bool.and_eq_true] at hx
    have h1 : f.isLast = false := by
      have := hx.1
      unfold FrameHeader.saves at this
      revert this
      cases f.isLast <;> simp
    rw [hL.saved h1] at hx
    cases hx.2
  have c1 : Canvas h d.canvas { s with slices := s.slices ++ [bufs], frame := s.slices.length } := by
    refine ⟨hc.refs, ?_⟩
    show ((s.slices ++ [bufs])[s.canvas]? = _ ∧ _) ∨ ∃ l, (s.slices ++ [bufs])[s.canvas]? = _ ∧ _
    rw [List.getElem?_append_left hlt]
    exact hc.canvas
  have e2 : colourStep (frameColours none h) f { s with slices := s.slices ++ [bufs], frame := s.slices.length } = .ok { s with slices := s.slices ++ [bufs], frame := s.slices.length } := by
    unfold colourStep
    rw [idx_of_getElem? _ _ _ hfr, Res.bind_ok, colours_plain hL.rgb, Res.bind_ok, setAt_nat' _ _ _ (List.getElem?_eq_some_iff.mp hfr).1, Res.bind_ok, set_self hfr]
  obtain ⟨s2, l, e3, r2, f2, c2, b2, l2, p2⟩ := initCanvas_ok c1 hfr hbv (Nat.ne_of_gt hlt) hV.width hV.height
  dsimp only at f2 c2 b2 l2
  obtain ⟨r2', k2⟩ := initCanvas_same e3
  have slots2 : ∀ i a : Nat, s2.refs[i]? = some (some a) → a ≠ s2.frame ∧ ∃ l, s2.slices[a]? = some l ∧ ShowsPicture (channelCount h) h.size (d.slots i) l := by
    intro i a hi
    rw [r2'] at hi
    obtain ⟨m, em, pm⟩ := hB.slots i a hi
    have hal := (List.getElem?_eq_some_iff.mp em).1
    refine ⟨by rw [f2]; exact Nat.ne_of_lt hal, m, k2 a m ?_ (hn0 _ _ pm).1, pm⟩
    show (s.slices ++ [bufs])[a]? = _
    rw [List.getElem?_append_left hal, em]
  obtain ⟨s3, e4, r3, l3, b3, n3⟩ := detach_ok f (s := s2) (by rw [c2]; exact l2) (by rw [f2]; exact b2) (by rw [f2, c2]; exact Nat.ne_of_gt hlt)
  obtain ⟨-, f3, k3, o3⟩ := detach_same e4 (by rw [c2]; exact l2) (p2.proper hV.height.1)
  have slots3 : ∀ i a : Nat, s3.refs[i]? = some (some a) → a ≠ s3.frame ∧ ∃ l, s3.slices[a]? = some l ∧ ShowsPicture (channelCount h) h.size (d.slots i) l := by
    intro i a hi
    rw [r3] at hi
    obtain ⟨h1, m, em, pm⟩ := slots2 i a hi
    exact ⟨by rw [f3]; exact h1, m, k3 a m em, pm⟩
  have empty3 : ∀ i : Nat, s3.refs[i]? = some none → ∀ c y x, d.slots i c y x = 0 := by
    intro i hi
    rw [r3, r2'] at hi
    exact hB.empty i hi
  have len3 : s3.refs.length = 4 := by rw [r3]; exact r2
  obtain ⟨s4, l4, e5, r4, c4, hl4, p4, k4⟩ := add_ok I hL hr hV hal len3 l3 p2 b3 hbv n3 slots3 empty3 hfit
  have ep : paintFrame I h f s2 = .ok s4 := by
    unfold paintFrame
    rw [if_pos (by have := hL.regular; simpa using this), e4, Res.bind_ok, e5]
  have len4 : s4.refs.length = 4 := by rw [r4]; exact len3
  have hcomp : composeFrame I h (frameColours none h) ⟨f, bufs⟩ s = saveLate f s4 := by
    unfold composeFrame
    dsimp only
    rw [if_neg (by have := hL.regular; omega), e1, Res.bind_ok, e2, Res.bind_ok, e3, Res.bind_ok, ep, Res.bind_ok]
  cases hlast : f.isLast with
  | true =>
    refine ⟨s4, l4, ?_, by rw [c4]; exact hl4, p4, fun hx => by cases hx⟩
    rw [hcomp]
    unfold saveLate FrameHeader.saves
    rw [hlast]
    rfl
  | false =>
    refine ⟨{ s4 with refs := s4.refs.set f.saveAsReference (some s4.canvas) }, l4, ?_, ?_, p4, fun _ => ⟨⟨?_, Or.inr ⟨l4, ?_, p4⟩⟩, fun i a hi => ?_, fun i hi => ?_⟩⟩
    · rw [hcomp]
      unfold saveLate
      rw [if_pos (by unfold FrameHeader.saves; rw [hlast, hL.saved hlast]; have := hL.regular; simp; omega),
        setAt_nat' _ _ _ (show f.saveAsReference < s4.refs.length by rw [len4]; exact hr.save), Res.bind_ok]
    · show s4.slices[s4.canvas]? = _
      rw [c4, hl4]
    · show (s4.refs.set _ _).length = 4
      rw [List.length_set, len4]
    · show s4.slices[s4.canvas]? = _
      rw [c4, hl4]
    · have hi : (s4.refs.set f.saveAsReference (some s4.canvas))[i]? = some (some a) := hi
      show ∃ l, s4.slices[a]? = some l ∧ ShowsPicture (channelCount h) h.size (if i = f.saveAsReference then overCanvas h f v d else d.slots i) l
      by_cases hif : i = f.saveAsReference
      · subst hif
        rw [List.getElem?_set_self (by rw [len4]; exact hr.save)] at hi
        cases hi
        rw [if_pos rfl]
        exact ⟨l4, by rw [c4, hl4], p4⟩
      · rw [List.getElem?_set_ne (Ne.symm hif)] at hi
        rw [if_neg hif]
        have hi4 : i < 4 := by rw [← len4]; exact (List.getElem?_eq_some_iff.mp hi).1
        rw [r4] at hi
        obtain ⟨-, m, em, pm⟩ := slots3 i a hi
        obtain ⟨-, m', em', -⟩ := slots2 i a (by rw [← r3]; exact hi)
        exact ⟨m, k4 a m (o3 i a m' hi4 hif (by rw [← r3]; exact hi) em') em (hn0 _ _ pm).2, pm⟩
    · have hi : (s4.refs.set f.saveAsReference (some s4.canvas))[i]? = some none := hi
      show ∀ c y x, (if i = f.saveAsReference then overCanvas h f v d else d.slots i) c y x = 0
      by_cases hif : i = f.saveAsReference
      · subst hif
        rw [List.getElem?_set_self (by rw [len4]; exact hr.save)] at hi
        cases hi
      · rw [List.getElem?_set_ne (Ne.symm hif), r4] at hi
        rw [if_neg hif]
        exact empty3 i hi

end Jxl
