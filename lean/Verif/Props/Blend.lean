import Verif.Proofs.BlendFrame
import Verif.Props.Copy

/-! # Painting frames on the canvas (C37, C63) -/
namespace Jxl
open Spec

/-- A frame is painted: its covered pixels, and no others, get the samples that the blending mode defines, in every channel; all other buffers keep their
values. Missing from the full property, because the code fails there (see the theorems below): frames above the canvas that are not left of it, frames left of
the canvas that are below its top, frames outside the canvas, a mode that needs a reference without one, alpha numbers that do not exist, and the two hypotheses
`order` and `gray` of `Paintable` and `Scene`. -/
theorem C37_blend_partial (I : BlendImpl) {h : ImageHeader} {f : FrameHeader} {H W : Nat} {k : Nat → Channel} {s : Store} {n : Nat}
    (hs : h.size = ⟨W, H⟩) (hn : (s.slices[s.canvas]?).map List.length = some n) (sc : Scene h f s H W f.rect n k)
    (hW : W < 2 ^ 30) (hH : H < 2 ^ 30) (hw : f.rect.width < 2 ^ 30) (hh : f.rect.height < 2 ^ 30)
    (hq : (0 ≤ f.rect.x ∧ 0 ≤ f.rect.y) ∨ (f.rect.x < 0 ∧ f.rect.y ≤ 0)) (hx0 : f.rect.x ≤ W) (hy0 : f.rect.y ≤ H)
    (hx1 : 0 ≤ f.rect.x + f.rect.width) (hy1 : 0 ≤ f.rect.y + f.rect.height) :
    ∃ s', blendFrame I h f s = .ok s' ∧ s'.canvas = s.canvas ∧ s'.refs = s.refs ∧
      (∀ c, c < n → ∃ b', buffer s' s.canvas c = some b' ∧
        Painted (depth h c) H W f.rect (intResult f.rect (k c).info.mode (k c).ref (k c).frame)
          (floatResult I (depth h c) f.rect (k c).info.mode (k c).info.clamp (k c).isAlpha (k c).ref (k c).alpha (k c).frame) (k c).canvas b') ∧
      ∀ a i b, a ≠ s.canvas → buffer s a i = some b → ∃ b', buffer s' a i = some b' ∧
        ∀ y x, (∃ h' w', Holds h' w' (depth h i) b) → value (depth h i) b' y x = value (depth h i) b y x := by
  obtain ⟨s', e, hp⟩ := blendFrame_ok I True hs hn sc hW hH hw hh hq hx0 hy0 hx1 hy1 (fun hx => absurd trivial hx)
  refine ⟨s', e, hp.canvas, hp.refs, ?_, ?_⟩
  · intro c hc
    obtain ⟨b', h1, h2, _⟩ := hp.done c hc
    exact ⟨b', h1, h2⟩
  · intro a i b ha hb
    obtain ⟨b', h1, l⟩ := hp.rest a i b (Or.inl ha) hb
    refine ⟨b', h1, ?_⟩
    rintro y x ⟨h', w', hh⟩
    exact (l.value hh).2.1 y x

/-- If integers are replaced or added then nothing is converted: the canvas holds the integer results and no other buffer changes at all. -/
theorem C37_integers_partial (I : BlendImpl) {h : ImageHeader} {f : FrameHeader} {H W : Nat} {k : Nat → Channel} {s : Store} {n : Nat}
    (hs : h.size = ⟨W, H⟩) (hn : (s.slices[s.canvas]?).map List.length = some n) (sc : Scene h f s H W f.rect n k)
    (hW : W < 2 ^ 30) (hH : H < 2 ^ 30) (hw : f.rect.width < 2 ^ 30) (hh : f.rect.height < 2 ^ 30)
    (hq : (0 ≤ f.rect.x ∧ 0 ≤ f.rect.y) ∨ (f.rect.x < 0 ∧ f.rect.y ≤ 0)) (hx0 : f.rect.x ≤ W) (hy0 : f.rect.y ≤ H)
    (hx1 : 0 ≤ f.rect.x + f.rect.width) (hy1 : 0 ≤ f.rect.y + f.rect.height) (hi : ∀ c, c < n → Integral (k c)) :
    ∃ s', blendFrame I h f s = .ok s' ∧
      (∀ c, c < n → ∃ b', buffer s' s.canvas c = some b' ∧ b'.IntPicture H W ∧ ∀ y x, y < H → x < W → sample b'.ints y x =
        if Covered f.rect y x then intResult f.rect (k c).info.mode (k c).ref (k c).frame y x else sample (k c).canvas.ints y x) ∧
      ∀ a i, a ≠ s.canvas → buffer s' a i = buffer s a i := by
  obtain ⟨s', e, hp⟩ := blendFrame_ok I False hs hn sc hW hH hw hh hq hx0 hy0 hx1 hy1 (fun _ => hi)
  refine ⟨s', e, ?_, ?_⟩
  · intro c hc
    obtain ⟨b', h1, h2, h3⟩ := hp.done c hc
    rcases h2 with h2 | h2
    · exact ⟨b', h1, h2.2.1, h2.2.2⟩
    · have := h3 not_false
      rw [h2.1.1] at this
      cases this
  · intro a i ha
    cases hb : buffer s a i with
    | none => exact hp.none a i hb
    | some b =>
      obtain ⟨b', h1, l⟩ := hp.rest a i b (Or.inl ha) hb
      rw [h1, l.not not_false]

theorem intResult_none (r : Rectangle) (ref : Option ImageBuffer) (fb : ImageBuffer) {mode : Nat} (hm : 2 ≤ mode) (y x : Nat) :
    intResult r mode ref fb y x = none := by
  obtain ⟨m, rfl⟩ : ∃ m, mode = m + 2 := ⟨mode - 2, by omega⟩
  cases ref <;> rfl

/-- The modes that combine two samples: every covered pixel gets the sample that the mode defines from the samples and the alphas of the reference and of the frame;
integers stand for the floats `v / (2^d - 1)`. Same restrictions as `C37_blend_partial`. -/
theorem C63_modes_partial (I : BlendImpl) {h : ImageHeader} {f : FrameHeader} {H W : Nat} {k : Nat → Channel} {s : Store} {n : Nat}
    (hs : h.size = ⟨W, H⟩) (hn : (s.slices[s.canvas]?).map List.length = some n) (sc : Scene h f s H W f.rect n k)
    (hW : W < 2 ^ 30) (hH : H < 2 ^ 30) (hw : f.rect.width < 2 ^ 30) (hh : f.rect.height < 2 ^ 30)
    (hq : (0 ≤ f.rect.x ∧ 0 ≤ f.rect.y) ∨ (f.rect.x < 0 ∧ f.rect.y ≤ 0)) (hx0 : f.rect.x ≤ W) (hy0 : f.rect.y ≤ H)
    (hx1 : 0 ≤ f.rect.x + f.rect.width) (hy1 : 0 ≤ f.rect.y + f.rect.height) :
    ∃ s', blendFrame I h f s = .ok s' ∧ ∀ c rb, c < n → 2 ≤ (k c).info.mode → (k c).ref = some rb → ∃ b', buffer s' s.canvas c = some b' ∧
      ∀ y x, y < H → x < W → Covered f.rect y x → sample b'.floats y x =
        some (composite I (k c).info.mode (k c).info.clamp (k c).isAlpha
          ((k c).alpha.map (fun a => (px a.1 a.2.1 y x, px a.1 a.2.2.1 (frameRow f.rect y) (frameCol f.rect x), a.2.2.2)))
          (px (depth h c) rb y x) (px (depth h c) (k c).frame (frameRow f.rect y) (frameCol f.rect x))) := by
  obtain ⟨s', e, _, _, hc, _⟩ := C37_blend_partial I hs hn sc hW hH hw hh hq hx0 hy0 hx1 hy1
  refine ⟨s', e, ?_⟩
  intro c rb hcn hm hr
  obtain ⟨b', hb, hp⟩ := hc c hcn
  refine ⟨b', hb, ?_⟩
  intro y x hy hx hcov
  rcases hp with ⟨_, h1, h2⟩ | ⟨h1, h2⟩
  · exfalso
    obtain ⟨v, hv⟩ := h1.2.2.2.sample hy hx
    have := h2 y x hy hx
    rw [if_pos hcov, hv, hr] at this
    rw [intResult_none _ _ _ hm] at this
    cases this
  · rw [h2 y x hy hx, if_pos hcov, hr]
    rfl

/-! ## Examples -/

/-- A gray image of two by two pixels with an alpha channel. -/
def grayAlpha : ImageHeader :=
  { sampleHeader with size := ⟨2, 2⟩, extra := [⟨[], 0, 0, 0, [], BitDepth.dflt, false⟩], alphaIndices := [0] }

/-- A frame of two by two pixels. -/
def frameAt (x y : Int) (info : Blending) (ec : List Blending) : FrameHeader :=
  ⟨0, 1, 0, false, [0, 0, 0], [0, 0, 0], 1, [1], 256, 2048, 8, 11, 2, 2, Passes.dflt, 0, true, x, y, 2, 2, ⟨2, 2⟩, info, ec, true, 0, false, [],
    Restoration.dflt, Extensions.none⟩

/-- An integer channel of two by two pixels. -/
def four (a b c d : Int) : ImageBuffer := ⟨2, 2, 0, [], [[a, b], [c, d]]⟩

/-- Canvas, frame and a reference. -/
def threeSlices : Store :=
  ⟨[[four 10 20 30 40, four 1 2 3 4], [four 50 60 70 80, four 5 6 7 8], [four 11 21 31 41, four 12 22 32 42]], 0, 1, [some 2, none, none, none]⟩

theorem four_table (a b c d : Int) : (four a b c d).IntPicture 2 2 := by
  refine ⟨rfl, rfl, rfl, rfl, ?_⟩
  intro r hr
  simp only [four, List.mem_cons, List.not_mem_nil, or_false] at hr
  rcases hr with rfl | rfl <;> rfl

theorem four_holds (a b c d : Int) : Holds 2 2 8 (four a b c d) := ⟨2, 2, Or.inr ⟨four_table a b c d, by decide, by decide⟩, by decide, by decide, by decide, by decide⟩

/-- A frame that covers the lower right pixel of the canvas, blended with a reference: the hypotheses of `C37_blend_partial` hold. -/
example : ∃ k, Scene grayAlpha (frameAt 1 1 ⟨2, 0, false, 0⟩ [⟨1, 0, false, 0⟩]) threeSlices 2 2 (frameAt 1 1 ⟨2, 0, false, 0⟩ [⟨1, 0, false, 0⟩]).rect 2 k := by
  refine ⟨fun c => if c = 0 then ⟨⟨2, 0, false, 0⟩, false, four 10 20 30 40, four 50 60 70 80, some 2, some (four 11 21 31 41), some (8, four 12 22 32 42, four 5 6 7 8, false)⟩
    else ⟨⟨1, 0, false, 0⟩, true, four 1 2 3 4, four 5 6 7 8, some 2, some (four 12 22 32 42), none⟩, ?_⟩
  refine ⟨?_, ?_, by decide, ?_, Or.inl rfl, by decide, by decide⟩
  · intro c hc
    match c, hc with
    | 0, _ => exact ⟨rfl, rfl, rfl, rfl, rfl, fun _ => ⟨_, rfl, rfl⟩, fun _ => ⟨_, _, _, _, rfl, rfl, rfl, rfl, rfl⟩⟩
    | 1, _ => exact ⟨rfl, rfl, rfl, ⟨_, rfl, rfl⟩, rfl, fun _ => ⟨_, rfl, rfl⟩, fun hx => absurd hx (by decide)⟩
  · intro c hc
    match c, hc with
    | 0, _ =>
      refine ⟨by decide, by decide, Or.inr ⟨four_table _ _ _ _, by decide, by decide⟩, four_holds _ _ _ _, fun _ => by decide, ?_, ?_, fun _ => by decide, by decide⟩
      · intro _ rb hx; cases hx; exact four_holds _ _ _ _
      · intro _ d ra fa p hx; cases hx; exact ⟨four_holds _ _ _ _, four_holds _ _ _ _⟩
    | 1, _ =>
      refine ⟨by decide, by decide, Or.inr ⟨four_table _ _ _ _, by decide, by decide⟩, four_holds _ _ _ _, fun _ => by decide, ?_, ?_, fun _ => by decide, by decide⟩
      · intro _ rb hx; cases hx; exact four_holds _ _ _ _
      · intro _ d ra fa p hx; cases hx
  · intro i hi
    match i, hi with
    | 0, _ => exact ⟨_, rfl⟩
    | 1, _ => exact ⟨_, rfl⟩

/-- The canvas after blending: the integer samples of every channel (`none`: the program crashed or failed). -/
def paintedInts (I : BlendImpl) (h : ImageHeader) (f : FrameHeader) (s : Store) : Option (List (List (List Int))) :=
  match blendFrame I h f s with
  | .ok s' => (s'.slices[s'.canvas]?).map (fun l => l.map (·.ints))
  | _ => none

/-- Adding integers: the frame is at the lower right pixel, then one row and column above and left of the canvas. -/
example (I : BlendImpl) : paintedInts I grayAlpha (frameAt 1 1 ⟨1, 0, false, 0⟩ [⟨0, 0, false, 0⟩]) threeSlices = some [[[10, 20], [30, 91]], [[1, 2], [3, 5]]] ∧
    paintedInts I grayAlpha (frameAt (-1) (-1) ⟨1, 0, false, 0⟩ [⟨0, 0, false, 0⟩]) threeSlices = some [[[91, 20], [30, 40]], [[8, 2], [3, 4]]] :=
  ⟨rfl, rfl⟩

/-! ## Where the property is false -/

theorem forFrom_panic {σ : Type} {f : Nat → σ → Res σ} {n i : Nat} {s : σ} (hn : 0 < n) (h : f i s = .panic) : forFrom f n i s = .panic := by
  cases n with
  | zero => omega
  | succ n => rw [forFrom, h]; rfl

theorem idx_panic {α : Type} {l : List α} {i : Int} (h : i < 0 ∨ (l.length : Int) ≤ i) : idx l i = .panic := by
  unfold idx
  rcases h with h | h
  · rw [if_pos h]
  · rw [if_neg (by omega), List.getElem?_eq_none (by omega)]

/-- Copying starts with a row that does not exist. -/
theorem copyPlane_panic {α : Type} {p : Place} {src dest : List (List α)} (hp : 0 < toU32 p.height)
    (hbad : dest.length ≤ toU32 p.startY ∨ (toU32 p.startY < dest.length ∧ src.length ≤ toU32 p.offY)) : copyPlane p src dest = .panic := by
  unfold copyPlane
  refine forFrom_panic hp ?_
  have b1 : toU32 p.startY < 4294967296 := by unfold toU32; omega
  have b2 : toU32 p.offY < 4294967296 := by unfold toU32; omega
  have e1 : u32 (0 + toU32 p.startY) = toU32 p.startY := by unfold u32; omega
  have e2 : u32 (0 + toU32 p.offY) = toU32 p.offY := by unfold u32; omega
  rw [e1, e2]
  rcases hbad with hb | ⟨hb, hc⟩
  · rw [idx_panic (Or.inr (by omega))]; rfl
  · rw [idx_some (List.getElem?_eq_getElem hb), Res.bind_ok, idx_panic (Or.inr (by omega))]
    rfl

theorem toU32_neg {z : Int} (h0 : -2147483648 ≤ z) (h1 : z < 0) : 2147483648 ≤ toU32 z := by unfold toU32; omega

theorem toU32_pos {z : Int} (h0 : 0 < z) (h1 : z < 4294967296) : 0 < toU32 z := by unfold toU32; omega

/-- If the first channel is replaced and copying it crashes, the program crashes. -/
theorem blendFrame_panic (I : BlendImpl) {h : ImageHeader} {f : FrameHeader} {H W : Nat} {k : Nat → Channel} {s : Store} {n : Nat}
    (hn : (s.slices[s.canvas]?).map List.length = some n) (sc : Scene h f s H W f.rect n k) (hpos : 0 < n) (hm : (k 0).info.mode = 0)
    (hc : ∀ (α : Type) (src dest : List (List α)) Fh Fw, Table Fh Fw src → Table H W dest → Fh < 2 ^ 31 → Fw < 2 ^ 31 →
      copyPlane (blendPlace f.rect h.size) src dest = .panic) : blendFrame I h f s = .panic := by
  obtain ⟨l, hl, hln⟩ := Option.map_eq_some_iff.mp hn
  rw [blendFrame, idx_some hl, Res.bind_ok, hln]
  refine forFrom_panic hpos ?_
  have h0 : Progress I True h H W f.rect k s 0 s :=
    ⟨rfl, rfl, rfl, fun a i b _ hb => ⟨b, hb, Like.refl _ _ _⟩, fun _ _ hx => hx, fun i hi => absurd hi (Nat.not_lt_zero i)⟩
  obtain ⟨premult, t1, cb, fb, _, _, hcb, hty, lC, lF, red⟩ := blendChannel_reduce (blendPlace f.rect h.size) sc hpos h0 (fun hx => absurd trivial hx)
  rw [red, if_pos (Or.inl hm), replaceChannel, Store.get_some hcb, Res.bind_ok, copyToCanvas, if_neg (fun hx => hx hty)]
  have hk := sc.paint 0 hpos
  have hPC : (k 0).canvas.Picture H W := by
    rcases hk.canvas with hx | hx
    · exact Or.inr hx
    · exact Or.inl hx.1
  have hHC : Holds H W (depth h 0) (k 0).canvas := ⟨H, W, hk.canvas, Nat.le_refl _, Nat.le_refl _, sc.hH.2, sc.hW⟩
  have pC := picture_cases ((lC.value hHC).2.2 _ _ hPC)
  obtain ⟨Fh, Fw, hpf, _, _, q3, q4⟩ := (lF.value hk.frame).1
  rcases hpf with hpf | hpf
  · have tC : cb.bufferType = 1 := hty.trans hpf.1
    rw [if_neg (by unfold ImageBuffer.isInt; rw [tC]; decide), hc _ _ _ _ _ hpf.2.2.2 (pC.2 tC).2.2.2 q3 q4]
    rfl
  · have tC : cb.bufferType = 0 := hty.trans hpf.1.1
    rw [if_pos (by unfold ImageBuffer.isInt; rw [tC]; decide), hc _ _ _ _ _ hpf.1.2.2.2 (pC.1 tC).2.2.2 q3 q4]
    rfl

theorem lowerCorner_of {r : Rectangle} (hh : r.height < 2 ^ 30) (h0 : -1073741824 ≤ r.y) (h1 : r.y ≤ 1073741824) : r.lowerCorner.2 = r.y + r.height := by
  have b1 : -2147483648 ≤ r.y + (r.height : Int) ∧ r.y + (r.height : Int) < 2147483648 := by omega
  have b2 : (r.height : Int) < 2147483648 := by omega
  unfold Rectangle.lowerCorner
  dsimp only
  rw [i32_in (z := r.height) (by omega) b2, i32_in b1.1 b1.2]

theorem blendPlace_rows {r : Rectangle} {W H : Nat} (hh : r.height < 2 ^ 30) (h0 : -1073741824 ≤ r.y) (h1 : r.y ≤ 1073741824) (hH : H < 2 ^ 30) :
    (0 ≤ r.x → (blendPlace r ⟨W, H⟩).startY = r.y ∧ (blendPlace r ⟨W, H⟩).height = min (r.y + r.height) (H : Int) - r.y) ∧
    (r.x < 0 → (blendPlace r ⟨W, H⟩).startY = 0 ∧ (blendPlace r ⟨W, H⟩).offY = -r.y ∧ (blendPlace r ⟨W, H⟩).height = min (r.y + r.height) (H : Int)) := by
  have b1 : -2147483648 ≤ min (r.y + r.height) (H : Int) - r.y ∧ min (r.y + r.height) (H : Int) - r.y < 2147483648 := by omega
  have b2 : -2147483648 ≤ min (r.y + r.height) (H : Int) - 0 ∧ min (r.y + r.height) (H : Int) - 0 < 2147483648 := by omega
  have b3 : -2147483648 ≤ 0 - r.y ∧ 0 - r.y < 2147483648 := by omega
  have b4 : (H : Int) < 2147483648 := by omega
  have b5 : -2147483648 ≤ (H : Int) := by omega
  unfold blendPlace
  dsimp only
  rw [lowerCorner_of hh h0 h1, i32_in b5 b4]
  refine ⟨fun hx => ?_, fun hx => ?_⟩
  · rw [if_pos hx, i32_in b1.1 b1.2]
    exact ⟨rfl, rfl⟩
  · rw [if_neg (Int.not_le.mpr hx), i32_in b2.1 b2.2, i32_in b3.1 b3.2, Int.sub_zero, Int.zero_sub]
    exact ⟨rfl, rfl, rfl⟩

/-- A frame whose top is above the canvas but that is not left of it crashes the decoder, although it covers pixels of the canvas. -/
theorem C37_above_panics (I : BlendImpl) {h : ImageHeader} {f : FrameHeader} {H W : Nat} {k : Nat → Channel} {s : Store} {n : Nat}
    (hs : h.size = ⟨W, H⟩) (hn : (s.slices[s.canvas]?).map List.length = some n) (sc : Scene h f s H W f.rect n k) (hpos : 0 < n)
    (hm : (k 0).info.mode = 0) (hH : H < 2 ^ 30) (hh : f.rect.height < 2 ^ 30) (hx : 0 ≤ f.rect.x) (hy : f.rect.y < 0) (hy1 : 0 < f.rect.y + f.rect.height) :
    blendFrame I h f s = .panic := by
  refine blendFrame_panic I hn sc hpos hm ?_
  intro α src dest Fh Fw _ hd _ _
  rw [hs]
  have b0 := sc.hH.1
  obtain ⟨e5, e4⟩ := (blendPlace_rows (W := W) hh (by omega) (by omega) hH).1 hx
  have := toU32_neg (z := f.rect.y) (by omega) hy
  refine copyPlane_panic (by rw [e4]; exact toU32_pos (by omega) (by omega)) (Or.inl ?_)
  rw [e5, hd.1]
  omega

/-- A frame left of the canvas crashes it if its top is below the top of the canvas. -/
theorem C37_left_panics (I : BlendImpl) {h : ImageHeader} {f : FrameHeader} {H W : Nat} {k : Nat → Channel} {s : Store} {n : Nat}
    (hs : h.size = ⟨W, H⟩) (hn : (s.slices[s.canvas]?).map List.length = some n) (sc : Scene h f s H W f.rect n k) (hpos : 0 < n)
    (hm : (k 0).info.mode = 0) (hH : H < 2 ^ 30) (hh : f.rect.height < 2 ^ 30) (hx : f.rect.x < 0) (hy : 0 < f.rect.y) (hy1 : f.rect.y < H) :
    blendFrame I h f s = .panic := by
  refine blendFrame_panic I hn sc hpos hm ?_
  intro α src dest Fh Fw hsrc hd hFh _
  rw [hs]
  obtain ⟨e5, e6, e4⟩ := (blendPlace_rows (W := W) hh (by omega) (by omega) hH).2 hx
  have := toU32_neg (z := -f.rect.y) (by omega) (by omega)
  refine copyPlane_panic (by rw [e4]; exact toU32_pos (by omega) (by omega)) (Or.inr ⟨?_, ?_⟩)
  · rw [e5, hd.1]
    exact sc.hH.1
  · rw [e6, hsrc.1]
    omega

/-- Such frames exist, and they cover a pixel of the canvas. -/
example : Covered (frameAt 0 (-1) ⟨0, 0, false, 0⟩ [⟨0, 0, false, 0⟩]).rect 0 0 ∧ Covered (frameAt (-1) 1 ⟨0, 0, false, 0⟩ [⟨0, 0, false, 0⟩]).rect 1 0 ∧
    ∀ I, blendFrame I grayAlpha (frameAt 0 (-1) ⟨0, 0, false, 0⟩ [⟨0, 0, false, 0⟩]) threeSlices = .panic ∧
      blendFrame I grayAlpha (frameAt (-1) 1 ⟨0, 0, false, 0⟩ [⟨0, 0, false, 0⟩]) threeSlices = .panic := by
  refine ⟨by decide, by decide, fun I => ⟨rfl, rfl⟩⟩

/-- A frame beside the canvas, which covers nothing, crashes the decoder. -/
theorem C37_outside_panics (I : BlendImpl) : (∀ y x, y < 2 → x < 2 → ¬ Covered (frameAt 3 0 ⟨0, 0, false, 0⟩ [⟨0, 0, false, 0⟩]).rect y x) ∧
    blendFrame I grayAlpha (frameAt 3 0 ⟨0, 0, false, 0⟩ [⟨0, 0, false, 0⟩]) threeSlices = .panic ∧
    blendFrame I grayAlpha (frameAt (-3) 0 ⟨0, 0, false, 0⟩ [⟨0, 0, false, 0⟩]) threeSlices = .panic := by
  refine ⟨?_, rfl, rfl⟩
  intro y x _ hx hc
  have := hc.2.2.1
  have e : (frameAt 3 0 ⟨0, 0, false, 0⟩ [⟨0, 0, false, 0⟩]).rect.x = 3 := by decide
  omega

/-- A frame that is blended, multiplied or added with alpha before any frame has been saved crashes the decoder. -/
theorem C37_no_reference_panics (I : BlendImpl) (mode : Nat) (hm : 2 ≤ mode) :
    blendFrame I grayAlpha (frameAt 0 0 ⟨mode, 0, false, 1⟩ [⟨0, 0, false, 0⟩]) threeSlices = .panic := by
  have : blendChannel I grayAlpha (frameAt 0 0 ⟨mode, 0, false, 1⟩ [⟨0, 0, false, 0⟩]) (blendPlace (frameAt 0 0 ⟨mode, 0, false, 1⟩ [⟨0, 0, false, 0⟩]).rect grayAlpha.size) 0
      threeSlices = (if mode = 0 ∨ ((none : Option Nat) = none ∧ mode = 1) then
        replaceChannel threeSlices (blendPlace (frameAt 0 0 ⟨mode, 0, false, 1⟩ [⟨0, 0, false, 0⟩]).rect grayAlpha.size) 0 (four 50 60 70 80) else .panic) := rfl
  rw [blendFrame]
  show forFrom _ 2 0 threeSlices = .panic
  refine forFrom_panic (by decide) ?_
  rw [this, if_neg (by omega)]

/-- A frame that names an alpha channel which the image does not have crashes the decoder. -/
theorem C37_alpha_number_panics (I : BlendImpl) : blendFrame I grayAlpha (frameAt 0 0 ⟨2, 1, false, 0⟩ [⟨0, 0, false, 0⟩]) threeSlices = .panic := rfl

/-- A float channel of two by two pixels. -/
def fourF (a b c d : ℚ) : ImageBuffer := ⟨2, 2, 1, [[.fin a, .fin b], [.fin c, .fin d]], []⟩

/-- Canvas, frame and a reference, of floats. -/
def floatSlices : Store :=
  ⟨[[fourF 0 0 0 0, fourF 0 0 0 0], [fourF 1 1 1 1, fourF 1 1 1 1], [fourF 0 0 0 0, fourF 0 0 0 0]], 0, 1, [some 2, none, none, none]⟩

/-- The modes of the format end at 4, but the parser lets 5 and 6 through: blending then fails. -/
theorem C37_other_modes_rejected (I : BlendImpl) :
    blendFrame I grayAlpha (frameAt 0 0 ⟨5, 0, false, 0⟩ [⟨0, 0, false, 0⟩]) floatSlices = .err ∧
    blendFrame I grayAlpha (frameAt 0 0 ⟨6, 0, false, 0⟩ [⟨0, 0, false, 0⟩]) floatSlices = .err := ⟨rfl, rfl⟩

/-- The canvas after blending, in floats. -/
def paintedFloats (I : BlendImpl) (h : ImageHeader) (f : FrameHeader) (s : Store) : Option (List (List (List F32))) :=
  match blendFrame I h f s with
  | .ok s' => (s'.slices[s'.canvas]?).map (fun l => l.map (·.floats))
  | _ => none

/-- A way to evaluate `x*y + z` and `a*b + c*d`. -/
def impl (fused left : Bool) : BlendImpl := ⟨⟨fused, fun _ => 0⟩, left⟩

/-- A gray image of two by two pixels with an alpha channel and another extra channel. -/
def grayAlphaDepth : ImageHeader :=
  { grayAlpha with extra := [⟨[], 0, 0, 0, [], BitDepth.dflt, false⟩, ⟨[], 1, 0, 0, [], BitDepth.dflt, false⟩] }

/-- The canvas is also the reference; the frame has alpha 1/2. -/
def sharedSlices : Store :=
  ⟨[[fourF 0 0 0 0, fourF 0 0 0 0, fourF 0 0 0 0], [fourF 1 1 1 1, fourF (1/2) (1/2) (1/2) (1/2), fourF 1 1 1 1]], 0, 1, [some 0, none, none, none]⟩

/-- The same with another slice as reference, which holds the same samples. -/
def separateSlices : Store :=
  ⟨[[fourF 0 0 0 0, fourF 0 0 0 0, fourF 0 0 0 0], [fourF 1 1 1 1, fourF (1/2) (1/2) (1/2) (1/2), fourF 1 1 1 1], [fourF 0 0 0 0, fourF 0 0 0 0, fourF 0 0 0 0]], 0, 1,
    [some 2, none, none, none]⟩

/-- If the reference is the canvas itself, a channel after the alpha channel is blended with the alpha of the result instead of the alpha of the reference: with
a reference of the same samples in another place the third channel becomes 1, as it should, but with the canvas itself it becomes 2/3. -/
theorem C37_shared_reference_wrong (fused left : Bool) :
    paintedFloats (impl fused left) grayAlphaDepth (frameAt 0 0 ⟨2, 0, false, 0⟩ [⟨2, 0, false, 0⟩, ⟨2, 0, false, 0⟩]) separateSlices =
      some [(fourF 1 1 1 1).floats, (fourF (1/2) (1/2) (1/2) (1/2)).floats, (fourF 1 1 1 1).floats] ∧
    ∃ v, v ≠ F32.fin 1 ∧ paintedFloats (impl fused left) grayAlphaDepth (frameAt 0 0 ⟨2, 0, false, 0⟩ [⟨2, 0, false, 0⟩, ⟨2, 0, false, 0⟩]) sharedSlices =
      some [(fourF 1 1 1 1).floats, (fourF (1/2) (1/2) (1/2) (1/2)).floats, [[v, v], [v, v]]] := by
  have h1 : ∀ fused left, paintedFloats (impl fused left) grayAlphaDepth (frameAt 0 0 ⟨2, 0, false, 0⟩ [⟨2, 0, false, 0⟩, ⟨2, 0, false, 0⟩]) separateSlices =
      some [(fourF 1 1 1 1).floats, (fourF (1/2) (1/2) (1/2) (1/2)).floats, (fourF 1 1 1 1).floats] := by decide +kernel
  have h2 : F32.div (.fin (1/2)) (.fin (3/4)) ≠ F32.fin 1 ∧ ∀ fused left, paintedFloats (impl fused left) grayAlphaDepth
      (frameAt 0 0 ⟨2, 0, false, 0⟩ [⟨2, 0, false, 0⟩, ⟨2, 0, false, 0⟩]) sharedSlices =
      some [(fourF 1 1 1 1).floats, (fourF (1/2) (1/2) (1/2) (1/2)).floats,
        [[F32.div (.fin (1/2)) (.fin (3/4)), F32.div (.fin (1/2)) (.fin (3/4))], [F32.div (.fin (1/2)) (.fin (3/4)), F32.div (.fin (1/2)) (.fin (3/4))]]] := by
    decide +kernel
  exact ⟨h1 fused left, _, h2.1, h2.2 fused left⟩

/-- A transparent pixel blended over a transparent pixel is not a number. -/
theorem C37_transparent_nan (fused left : Bool) :
    paintedFloats (impl fused left) grayAlpha (frameAt 0 0 ⟨2, 0, false, 0⟩ [⟨0, 0, false, 0⟩])
      ⟨[[fourF 0 0 0 0, fourF 0 0 0 0], [fourF 1 1 1 1, fourF 0 0 0 0], [fourF 0 0 0 0, fourF 0 0 0 0]], 0, 1, [some 2, none, none, none]⟩ =
      some [[[.nan, .nan], [.nan, .nan]], (fourF 0 0 0 0).floats] := by
  have : ∀ fused left, paintedFloats (impl fused left) grayAlpha (frameAt 0 0 ⟨2, 0, false, 0⟩ [⟨0, 0, false, 0⟩])
      ⟨[[fourF 0 0 0 0, fourF 0 0 0 0], [fourF 1 1 1 1, fourF 0 0 0 0], [fourF 0 0 0 0, fourF 0 0 0 0]], 0, 1, [some 2, none, none, none]⟩ =
      some [[[.nan, .nan], [.nan, .nan]], (fourF 0 0 0 0).floats] := by decide +kernel
  exact this fused left

/-- A gray image in a frame with three colour channels: colours hold floats, alpha is still integer. -/
def graySlices (alpha : ImageBuffer) : Store :=
  ⟨[[fourF 0 0 0 0, fourF 0 0 0 0], [fourF 1 1 1 1, fourF 1 1 1 1, fourF 1 1 1 1, alpha], [fourF 0 0 0 0, fourF 0 0 0 0]], 0, 1, [some 2, none, none, none]⟩

/-- A frame encoded with the DCT. -/
def dctFrame (info : Blending) (ec : List Blending) : FrameHeader := { frameAt 0 0 info ec with encoding := 0 }

/-- Blending a gray frame encoded with the DCT crashes if the alpha channel holds integers, because another channel is converted in its place. -/
theorem C37_gray_alpha_panics : ∀ fused left, blendFrame (impl fused left) grayAlpha (dctFrame ⟨2, 0, false, 0⟩ [⟨0, 0, false, 0⟩]) (graySlices (four 0 255 0 255)) = .panic ∧
    paintedFloats (impl fused left) grayAlpha (dctFrame ⟨2, 0, false, 0⟩ [⟨0, 0, false, 0⟩]) (graySlices (fourF 0 1 0 1)) =
      some [[[.nan, .fin 1], [.nan, .fin 1]], [[.fin 0, .fin 1], [.fin 0, .fin 1]]] := by
  intro fused left
  refine ⟨rfl, ?_⟩
  have : ∀ fused left, paintedFloats (impl fused left) grayAlpha (dctFrame ⟨2, 0, false, 0⟩ [⟨0, 0, false, 0⟩]) (graySlices (fourF 0 1 0 1)) =
      some [[[.nan, .fin 1], [.nan, .fin 1]], [[.fin 0, .fin 1], [.fin 0, .fin 1]]] := by decide +kernel
  exact this fused left

/-- The position of an upsampled frame is multiplied by the upsampling factor: a frame that is not at the origin is painted elsewhere. -/
theorem C37_upsampled_misplaced (f : FrameHeader) (hu : f.upsampling = 2 ∨ f.upsampling = 4 ∨ f.upsampling = 8) (hx : f.x0 ≠ 0)
    (hb : -134217728 ≤ f.x0 ∧ f.x0 < 134217728) : f.rect.x = f.upsampling * f.x0 ∧ f.rect.x ≠ f.x0 := by
  have : f.rect.x = f.upsampling * f.x0 := by
    unfold FrameHeader.rect
    dsimp only
    rw [i32_in, Int.mul_comm]
    · rcases hu with h | h | h <;> rw [h] <;> omega
    · rcases hu with h | h | h <;> rw [h] <;> omega
  refine ⟨this, ?_⟩
  rw [this]
  rcases hu with h | h | h <;> rw [h] <;> omega

example : ({ frameAt 3 0 ⟨0, 0, false, 0⟩ [] with upsampling := 2 } : FrameHeader).rect = ⟨6, 0, 4, 4⟩ := by decide

end Jxl
