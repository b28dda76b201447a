import Verif.Proofs.BlendChannel

/-! # Blending all the channels of a frame -/
namespace Jxl
open Spec

/-- What has been painted on channel `c`. -/
def PaintedAs (I : BlendImpl) (h : ImageHeader) (H W : Nat) (r : Rectangle) (c : Nat) (k : Channel) (b' : ImageBuffer) : Prop :=
  Painted (depth h c) H W r (intResult r k.info.mode k.ref k.frame)
    (floatResult I (depth h c) r k.info.mode k.info.clamp k.isAlpha k.ref k.alpha k.frame) k.canvas b'

/-- After the first `c` channels. -/
structure Progress (I : BlendImpl) (T : Prop) (h : ImageHeader) (H W : Nat) (r : Rectangle) (k : Nat → Channel) (s : Store) (c : Nat) (t : Store) : Prop where
  canvas : t.canvas = s.canvas
  frame : t.frame = s.frame
  refs : t.refs = s.refs
  rest : ∀ a i b, a ≠ s.canvas ∨ c ≤ i → buffer s a i = some b → ∃ b', buffer t a i = some b' ∧ Like T (depth h i) b b'
  none : ∀ a i, buffer s a i = Option.none → buffer t a i = Option.none
  done : ∀ i, i < c → ∃ b', buffer t s.canvas i = some b' ∧ PaintedAs I h H W r i (k i) b' ∧ (¬ T → b'.bufferType = 0)

/-- The buffers that may be converted while channel `c` is painted. -/
def Open (T : Prop) (s : Store) (c a i : Nat) : Prop := T ∧ (a ≠ s.canvas ∨ c ≤ i)

theorem Like.mono {T T' : Prop} {d : Nat} {b b' : ImageBuffer} (h : Like T d b b') (hT : T → T') : Like T' d b b' := by
  rcases h with h | ⟨h1, h2⟩
  · exact Or.inl h
  · exact Or.inr ⟨hT h1, h2⟩

theorem Progress.evolve {I : BlendImpl} {T : Prop} {h : ImageHeader} {H W : Nat} {r : Rectangle} {k : Nat → Channel} {s t t' : Store} {c : Nat}
    (hp : Progress I T h H W r k s c t) (he : Evolves (Open T s c) (depth h) t t') : Progress I T h H W r k s c t' := by
  refine ⟨he.canvas.trans hp.canvas, he.frame.trans hp.frame, he.refs.trans hp.refs, ?_, fun a i hn => he.none a i (hp.none a i hn), ?_⟩
  · intro a i b ha hb
    obtain ⟨b1, e1, l1⟩ := hp.rest a i b ha hb
    obtain ⟨b2, e2, l2⟩ := he.bufs a i b1 e1
    exact ⟨b2, e2, l1.trans (l2.mono (fun x => x.1))⟩
  · intro i hi
    obtain ⟨b1, e1, p1, q1⟩ := hp.done i hi
    obtain ⟨b2, e2, l2⟩ := he.bufs _ i b1 e1
    have := l2.not (by rintro ⟨_, hx⟩; rcases hx with hx | hx; exact hx rfl; omega)
    subst this
    exact ⟨b2, e2, p1, q1⟩

theorem Progress.next {I : BlendImpl} {T : Prop} {h : ImageHeader} {H W : Nat} {r : Rectangle} {k : Nat → Channel} {s t : Store} {c : Nat}
    (hp : Progress I T h H W r k s c t) {cb b' : ImageBuffer} (hcb : buffer t t.canvas c = some cb) (hb : PaintedAs I h H W r c (k c) b')
    (ht : ¬ T → b'.bufferType = 0) : ∃ t', t.set t.canvas (c : Int) b' = .ok t' ∧ Progress I T h H W r k s (c + 1) t' := by
  obtain ⟨t', e, e1, e2, e3, hbuf⟩ := Store.set_some (b' := b') hcb
  rw [hp.canvas] at hbuf
  refine ⟨t', e, e1.trans hp.canvas, e2.trans hp.frame, e3.trans hp.refs, ?_, ?_, ?_⟩
  · intro a i b ha hb
    obtain ⟨b1, h1, l1⟩ := hp.rest a i b (by omega) hb
    exact ⟨b1, by rw [hbuf, if_neg (by omega), h1], l1⟩
  · intro a i hn
    have h1 := hp.none a i hn
    rw [hbuf, if_neg, h1]
    rintro ⟨rfl, rfl⟩
    rw [hp.canvas, h1] at hcb
    cases hcb
  · intro i hi
    by_cases hic : i = c
    · subst hic
      exact ⟨b', by rw [hbuf, if_pos ⟨rfl, rfl⟩], hb, ht⟩
    · obtain ⟨b1, h1, p1⟩ := hp.done i (by omega)
      exact ⟨b1, by rw [hbuf, if_neg (by omega), h1], p1⟩

theorem FloatPicture.with_floats {b : ImageBuffer} {H W : Nat} {m : List (List F32)} (hb : b.FloatPicture H W) (hm : Table H W m) :
    ({ b with floats := m } : ImageBuffer).FloatPicture H W := ⟨hb.1, hb.2.1, hb.2.2.1, hm⟩

theorem IntPicture.with_ints {b : ImageBuffer} {H W : Nat} {m : List (List Int)} (hb : b.IntPicture H W) (hm : Table H W m) :
    ({ b with ints := m } : ImageBuffer).IntPicture H W := ⟨hb.1, hb.2.1, hb.2.2.1, hm⟩

theorem picture_cases {b : ImageBuffer} {H W : Nat} (hb : b.Picture H W) : (b.bufferType = 0 → b.IntPicture H W) ∧ (b.bufferType = 1 → b.FloatPicture H W) := by
  rcases hb with hb | hb
  · exact ⟨fun _ => hb, fun h1 => (by rw [hb.1] at h1; cases h1)⟩
  · exact ⟨fun h1 => (by rw [hb.1] at h1; cases h1), fun _ => hb⟩

/-- The float picture that results. -/
theorem painted_float {d H W : Nat} {r : Rectangle} {gi : Nat → Nat → Option Int} {gf g : Nat → Nat → F32} {b cb : ImageBuffer} {sy sx n m : Nat}
    {m' : List (List F32)} (hcb : cb.FloatPicture H W) (hv : ∀ y x, value d cb y x = value d b y x) (hm' : Table H W m')
    (hw : ∀ y x, y < H → x < W → (InWindow sy sx n m y x ↔ Covered r y x))
    (hs : ∀ y x, sample m' y x = if InWindow sy sx n m y x then some (g y x) else sample cb.floats y x) (hg : ∀ y x, g y x = gf y x) :
    Painted d H W r gi gf b { cb with floats := m' } := by
  refine Or.inr ⟨FloatPicture.with_floats hcb hm', ?_⟩
  intro y x hy hx
  dsimp only
  rw [hs, hg, ← hv]
  have hx' := hw y x hy hx
  have : value d cb y x = sample cb.floats y x := by
    unfold value
    rw [if_neg (by rw [hcb.1]; decide)]
  rw [this]
  by_cases hc : Covered r y x
  · rw [if_pos hc, if_pos (hx'.mpr hc)]
  · rw [if_neg hc, if_neg (fun hx'' => hc (hx'.mp hx''))]

theorem painted_int {d H W : Nat} {r : Rectangle} {gi : Nat → Nat → Option Int} {gf : Nat → Nat → F32} {b : ImageBuffer} {sy sx n m : Nat}
    {m' : List (List Int)} (hb : b.IntPicture H W) (hm' : Table H W m') (hw : ∀ y x, y < H → x < W → (InWindow sy sx n m y x ↔ Covered r y x))
    (hs : ∀ y x, y < H → x < W → sample m' y x = if InWindow sy sx n m y x then gi y x else sample b.ints y x) :
    Painted d H W r gi gf b { b with ints := m' } := by
  refine Or.inl ⟨hb, IntPicture.with_ints hb hm', ?_⟩
  intro y x hy hx
  dsimp only
  rw [hs y x hy hx]
  have hx' := hw y x hy hx
  by_cases hc : Covered r y x
  · rw [if_pos hc, if_pos (hx'.mpr hc)]
  · rw [if_neg hc, if_neg (fun hx'' => hc (hx'.mp hx''))]

/-- The frame replaces the covered pixels. -/
theorem replaceChannel_ok {I : BlendImpl} {T : Prop} {h : ImageHeader} {H W : Nat} {r : Rectangle} {k : Nat → Channel} {s t : Store} {c : Nat} {p : Place}
    {sy sx oy ox n m : Nat} (hfit : Fits p H W r.height r.width sy sx oy ox n m)
    (hw : ∀ y x, y < H → x < W → (InWindow sy sx n m y x ↔ Covered r y x))
    (hrow : ∀ y, sy ≤ y → y - sy + oy = frameRow r y) (hcol : ∀ x, sx ≤ x → x - sx + ox = frameCol r x)
    (hp : Progress I T h H W r k s c t) {cb fb : ImageBuffer} (hcb : buffer t t.canvas c = some cb) (lC : Like T (depth h c) (k c).canvas cb)
    (lF : Like T (depth h c) (k c).frame fb) (hty : cb.bufferType = fb.bufferType) (hPC : (k c).canvas.Picture H W) (hHC : Holds H W (depth h c) (k c).canvas)
    (hHF : Holds r.height r.width (depth h c) (k c).frame) (hT : ¬ T → Integral (k c))
    (hm : (k c).info.mode = 0 ∨ ((k c).info.mode = 1 ∧ (k c).ref = none)) :
    ∃ t', replaceChannel t p c fb = .ok t' ∧ Progress I T h H W r k s (c + 1) t' := by
  obtain ⟨hC', vC, pC⟩ := lC.value hHC
  obtain ⟨hF', vF, _⟩ := lF.value hHF
  have pC := picture_cases (pC _ _ hPC)
  have int_iff : ∀ b : ImageBuffer, b.isInt = decide (b.bufferType = 0) := fun _ => rfl
  rcases hF'.types with t0 | t1
  · have e1 := lF.int t0
    have e2 := lC.int (hty.trans t0)
    subst e1 e2
    obtain ⟨h', w', hpf, q1, q2, q3, q4⟩ := hF'
    have hTF : Table h' w' (k c).frame.ints := by
      rcases hpf with hpf | hpf
      · rw [hpf.1] at t0; cases t0
      · exact hpf.1.2.2.2
    have hIC := pC.1 (hty.trans t0)
    obtain ⟨m', e, hm', hs⟩ := copyPlane_ok (hfit.mono q1 q2 q3 q4) hTF hIC.2.2.2
    have hP : PaintedAs I h H W r c (k c) { (k c).canvas with ints := m' } := by
      refine painted_int hIC hm' hw ?_
      intro y x _ _
      rw [hs]
      by_cases hin : InWindow sy sx n m y x
      · rw [if_pos hin, if_pos hin, hrow y hin.1, hcol x hin.2.2.1]
        unfold intResult
        rcases hm with hm | ⟨hm, hr⟩
        · rw [hm]; simp only [t0, if_true]
        · rw [hm, hr]; simp only [t0, if_true]
      · rw [if_neg hin, if_neg hin]
    obtain ⟨t', et, hpr⟩ := hp.next hcb hP (fun _ => hIC.1)
    refine ⟨t', ?_, hpr⟩
    rw [replaceChannel, Store.get_some hcb, Res.bind_ok, copyToCanvas, if_neg (fun hx => hx hty),
      if_pos (by rw [int_iff, hIC.1]; rfl), e, Res.bind_ok, Res.bind_ok, et]
  · have tC : cb.bufferType = 1 := hty.trans t1
    have hFC := pC.2 tC
    have hFF := hF'
    obtain ⟨h', w', hpf, q1, q2, q3, q4⟩ := hF'
    have hTF : Table h' w' fb.floats := by
      rcases hpf with hpf | hpf
      · exact hpf.2.2.2
      · rw [hpf.1.1] at t1; cases t1
    obtain ⟨m', e, hm', hs⟩ := copyPlane_ok (hfit.mono q1 q2 q3 q4) hTF hFC.2.2.2
    have hP : PaintedAs I h H W r c (k c) { cb with floats := m' } := by
      refine painted_float (n := n) (m := m) (g := fun y x => px (depth h c) (k c).frame (frameRow r y) (frameCol r x)) hFC vC hm' hw ?_ ?_
      · intro y x
        rw [hs]
        by_cases hin : InWindow sy sx n m y x
        · have i1 := hfit.frow
          have i2 := hfit.fcol
          obtain ⟨w1, w2, w3, w4⟩ := hin
          have := at2_px (b0 := (k c).frame) hFF t1 vF (y := y - sy + oy) (x := x - sx + ox) (by omega) (by omega)
          rw [if_pos ⟨w1, w2, w3, w4⟩, if_pos ⟨w1, w2, w3, w4⟩, this.1, hrow y w1, hcol x w3]
        · rw [if_neg hin, if_neg hin]
      · intro y x
        unfold floatResult
        rcases hm with hm | ⟨hm, hr⟩
        · rw [hm]
          cases (k c).ref <;> rfl
        · rw [hr]
    obtain ⟨t', et, hpr⟩ := hp.next hcb hP (fun hnT => by
      have := (hT hnT).2.1
      rw [lC.not hnT, this] at tC
      cases tC)
    refine ⟨t', ?_, hpr⟩
    rw [replaceChannel, Store.get_some hcb, Res.bind_ok, copyToCanvas, if_neg (fun hx => hx hty),
      if_neg (by rw [int_iff, tC]; decide), e, Res.bind_ok, Res.bind_ok, et]

/-- A buffer with at least one row is not replaced by a new one. -/
theorem holds_height {H W d : Nat} {b : ImageBuffer} (hb : Holds H W d b) (hH : 0 < H) : ¬ (b.width = 0 ∧ b.height = 0) := by
  obtain ⟨h', w', hp, h1, _⟩ := hb
  rcases hp with hp | hp
  · have := hp.2.1; omega
  · have := hp.1.2.1; omega

/-- The alpha channels are prepared. -/
theorem blendAlpha_step {I : BlendImpl} {T : Prop} {h : ImageHeader} {f : FrameHeader} {H W : Nat} {r : Rectangle} {k : Nat → Channel} {s t : Store}
    {c a nc : Nat} (sc : Scene h f s H W r nc k) (hc : c < nc) (hp : Progress I T h H W r k s c t) (ha : (k c).addr = some a)
    (hT : ¬ T → Integral (k c)) (hm0 : (k c).info.mode ≠ 0) (cb : ImageBuffer) {premult : Bool} (hpre : channelPremult h (k c).info = .ok premult) :
    ∃ t', blendAlpha h t a (k c).info cb = .ok t' ∧ Evolves (Open T s c) (depth h) t t' ∧ ((k c).info.mode = 1 → t' = t) ∧
      ∀ t'', Evolves (Open T s c) (depth h) t' t'' → (k c).info.mode = 2 ∨ (k c).info.mode = 3 →
        ∃ al, AlphaReady h t'' a (frameColourCount h f.encoding) H W r.height r.width (k c).info premult al ∧
          ((k c).alpha = none ∧ al = none ∨ ∃ dd o n o' n' p, (k c).alpha = some (dd, o, n, p) ∧ al = some (dd, o', n', p) ∧
            (∀ y x, value dd o' y x = value dd o y x) ∧ ∀ y x, value dd n' y x = value dd n y x) := by
  have hne : a ≠ s.frame := fun hx => (sc.paint c hc).apart hm0 (by rw [ha, hx])
  by_cases hu : (k c).info.mode = 2 ∨ (k c).info.mode = 3
  · have hal := (sc.takes c hc).alpha hu
    have hTt : T := by
      by_contra hx
      have := (hT hx).1
      omega
    cases hasA : h.hasAlpha with
    | false =>
      rw [hasA] at hal
      refine ⟨t, blendAlpha_skip h t a _ cb (Or.inl hasA), Evolves.refl _ _ _, fun _ => rfl, ?_⟩
      intro t'' _ _
      refine ⟨none, ?_, Or.inl ⟨hal, rfl⟩⟩
      unfold AlphaReady
      rw [hasA]
      rfl
    | true =>
      rw [hasA, if_pos rfl] at hal
      obtain ⟨e, ra, fa, a', he, ha', hra, hfa, hkal⟩ := hal
      rw [ha] at ha'
      cases ha'
      have hord : a ≠ s.canvas ∨ c ≤ h.colourCount + (k c).info.alpha := by
        by_cases hx : a = s.canvas
        · exact Or.inr ((sc.paint c hc).order (by rw [ha, hx]) hu hasA)
        · exact Or.inl hx
      obtain ⟨HRA, HFA⟩ := (sc.paint c hc).alpha hu _ _ _ _ hkal
      have hd := alphaDepth_eq h _ e he
      obtain ⟨ra1, era1, lra1⟩ := hp.rest a _ ra hord hra
      obtain ⟨fa1, efa1, lfa1⟩ := hp.rest s.frame _ fa (Or.inl sc.apart) hfa
      rw [hd] at lra1
      have hin := getElem?_lt he
      have hcc := colourCount_le h f.encoding
      obtain ⟨g, hg⟩ := sc.full (h.colourCount + (k c).info.alpha) (by omega)
      obtain ⟨g1, eg1, lg1⟩ := hp.rest s.frame _ g (Or.inl sc.apart) hg
      have hgF : Holds r.height r.width e.bitDepth.bits g1 ∨ g1.bufferType = 1 := by
        rcases sc.gray with hx | hx
        · rw [hx, hg] at hfa
          cases hfa
          rw [hd] at lg1
          exact Or.inl (lg1.value HFA).1
        · have := hx _ _ hg
          rw [lg1.float this]
          exact Or.inr this
      rw [← hp.frame] at eg1
      obtain ⟨t', ra', g', et, ev, hb1, ht1, hb2, ht2⟩ := blendAlpha_ok (T := Open T s c) (cb := cb) (info := (k c).info) hasA hu he sc.hH.1 era1
        (lra1.value HRA).1 ⟨⟨hTt, hord⟩, ⟨hTt, Or.inl (by rw [hp.frame]; exact sc.apart)⟩⟩ eg1 hgF
      refine ⟨t', et, ev, fun hx => by omega, ?_⟩
      intro t'' ev2 _
      have hp' := (hp.evolve ev).evolve ev2
      obtain ⟨ra2, era2, lra2⟩ := hp'.rest a _ ra hord hra
      obtain ⟨fa2, efa2, lfa2⟩ := hp'.rest s.frame _ fa (Or.inl sc.apart) hfa
      rw [hd] at lra2
      have tra2 : ra2.bufferType = 1 := by
        obtain ⟨z, ez, lz⟩ := ev2.bufs _ _ _ hb1
        rw [ez] at era2
        cases era2
        rw [lz.float ht1, ht1]
      have hfa2 : Holds r.height r.width e.bitDepth.bits fa2 ∧ fa2.bufferType = 1 ∧ ∀ y x, value e.bitDepth.bits fa2 y x = value e.bitDepth.bits fa y x := by
        rcases sc.gray with hx | hx
        · rw [hx, hd] at lfa2
          have := lfa2.value HFA
          refine ⟨this.1, ?_, this.2.1⟩
          obtain ⟨z, ez, lz⟩ := ev2.bufs _ _ _ hb2
          rw [hp.frame, ← hx, efa2] at ez
          cases ez
          rw [lz.float ht2, ht2]
        · have := hx _ _ hfa
          rw [lfa2.float this]
          exact ⟨HFA, this, fun _ _ => rfl⟩
      refine ⟨some (e.bitDepth.bits, ra2, fa2, premult), ?_, Or.inr ⟨e.bitDepth.bits, ra, fa, ra2, fa2, e.alphaAssociated, hkal, ?_, (lra2.value HRA).2.1, hfa2.2.2⟩⟩
      · unfold AlphaReady
        rw [hasA, if_pos rfl]
        exact ⟨_, _, _, rfl, era2, tra2, (lra2.value HRA).1, by rw [hp'.frame]; exact efa2, hfa2.2.1, hfa2.1⟩
      · rw [channelPremult, hasA, if_pos rfl, idx_some he, Res.bind_ok] at hpre
        cases hpre
        rfl
  · refine ⟨t, blendAlpha_skip h t a _ cb (Or.inr (by omega)), Evolves.refl _ _ _, fun _ => rfl, ?_⟩
    intro t'' _ hx
    exact absurd hx hu

/-- The frame is combined with a reference. -/
theorem combineChannel_ok {I : BlendImpl} {T : Prop} {h : ImageHeader} {f : FrameHeader} {H W : Nat} {r : Rectangle} {k : Nat → Channel} {s t : Store}
    {c a nc : Nat} {p : Place} {sy sx oy ox n m : Nat} (hfit : Fits p H W r.height r.width sy sx oy ox n m)
    (hw : ∀ y x, y < H → x < W → (InWindow sy sx n m y x ↔ Covered r y x))
    (hrow : ∀ y, sy ≤ y → y - sy + oy = frameRow r y) (hcol : ∀ x, sx ≤ x → x - sx + ox = frameCol r x)
    (sc : Scene h f s H W r nc k) (hc : c < nc)
    (hp : Progress I T h H W r k s c t) {cb fb : ImageBuffer} (hcb : buffer t t.canvas c = some cb) (lC : Like T (depth h c) (k c).canvas cb)
    (lF : Like T (depth h c) (k c).frame fb) (hty : cb.bufferType = fb.bufferType) (hPC : (k c).canvas.Picture H W) (hHC : Holds H W (depth h c) (k c).canvas)
    (hin : h.colourCount ≤ c → c - h.colourCount < h.extra.length)
    (hT : ¬ T → Integral (k c)) (hm0 : (k c).info.mode ≠ 0) (ha : (k c).addr = some a) {premult : Bool} (hpre : channelPremult h (k c).info = .ok premult) :
    ∃ t', combineChannel I h t p a c (frameIndex h (frameColourCount h f.encoding) c) (frameColourCount h f.encoding) (k c).info (k c).isAlpha premult fb =
      .ok t' ∧ Progress I T h H W r k s (c + 1) t' := by
  have hk := sc.paint c hc
  have htk := (sc.takes c hc).ref hm0
  rw [ha] at htk
  obtain ⟨rb, hrb, hkr⟩ := htk
  have HR := hk.ref hm0 rb hkr
  have HF := hk.frame
  obtain ⟨ref, href, lR⟩ := hp.rest a c rb (Or.inr (Nat.le_refl c)) hrb
  obtain ⟨t1, et1, ev1, hm1, hal⟩ := blendAlpha_step sc hc hp ha hT hm0 cb hpre
  have hp1 := hp.evolve ev1
  obtain ⟨cb1, hcb1, lC1⟩ := ev1.bufs _ _ _ hcb
  rw [← ev1.canvas] at hcb1
  have lC1' : Like T (depth h c) cb cb1 := lC1.mono (fun x => x.1)
  have lCC := lC.trans lC1'
  have hopen : T → Open T s c t1.canvas c := fun hx => ⟨hx, Or.inr (Nat.le_refl c)⟩
  obtain ⟨fb2, ref2, t2, cb2, e2, ev2, hcb2, lF2, lC2, lR2, hfin⟩ := convertReference_ok (T := Open T s c) (e := f.encoding) (info := (k c).info) hin hcb1
    (lCC.value hHC).1 (lR.value HR).1 (lF.value HF).1 (by
      intro hx
      apply hopen
      by_contra hnT
      have hI := hT hnT
      rw [lR.not hnT, lF.not hnT, hI.2.2.1] at hx
      have h1 : (k c).info.mode = 1 := by have := hI.1; omega
      rw [hI.2.2.2 h1 rb hkr] at hx
      rcases hx with hx | hx
      · exact hx rfl
      · exact hx h1) (by
      intro hx
      rw [hm1 hx, hcb] at hcb1
      cases hcb1
      exact hty)
  have hp2 := hp1.evolve ev2
  have lF2' : Like T (depth h c) (k c).frame fb2 := lF.trans (lF2.mono (fun x => x.1))
  have lC2' : Like T (depth h c) (k c).canvas cb2 := lCC.trans (lC2.mono (fun x => x.1))
  have lR2' : Like T (depth h c) rb ref2 := lR.trans (lR2.mono (fun x => x.1))
  obtain ⟨HF2, vF2, _⟩ := lF2'.value HF
  obtain ⟨HC2, vC2, pC2⟩ := lC2'.value hHC
  obtain ⟨HR2, vR2, _⟩ := lR2'.value HR
  have pC2 := picture_cases (pC2 _ _ hPC)
  rw [← ev2.canvas] at hcb2
  have hsh : (decide (a = t1.canvas) && decide (ref2.bufferType = ref.bufferType)) = true → cb2 = ref2 := by
    intro hx
    rw [Bool.and_eq_true, decide_eq_true_eq, decide_eq_true_eq] at hx
    obtain ⟨hx1, hx2⟩ := hx
    rw [ev1.canvas] at hx1
    subst hx1
    rw [hcb] at href
    cases href
    rcases (lR.value HR).1.types with h0 | h1
    · have r0 := hx2.trans h0
      have e3 := lR2.int r0
      have c0 : cb2.bufferType = 0 := by
        rcases hfin with hx | hx
        · rw [hx.2.1] at r0; cases r0
        · exact hx.2.1
      have e4 := lC2.int c0
      rw [e4] at c0 ⊢
      rw [e3, lC1.int c0]
    · have e3 := lC1.float h1
      subst e3
      rw [lC2.float h1, lR2.float h1]
  have hmode : 1 ≤ (k c).info.mode ∧ (k c).info.mode ≤ 4 := ⟨by omega, hk.mode⟩
  have e0 : freshReference t a c fb.bufferType = .ok t := by
    rw [freshReference, Store.get_some href, Res.bind_ok, if_neg (holds_height (lR.value HR).1 sc.hH.1)]
  have done : ∀ b', performBlending I h t2 p a c (frameColourCount h f.encoding) (k c).info (k c).isAlpha premult
      (decide (a = t1.canvas) && decide (ref2.bufferType = ref.bufferType)) cb2 ref2 fb2 = .ok b' → PaintedAs I h H W r c (k c) b' →
      (¬ T → b'.bufferType = 0) →
      ∃ t', combineChannel I h t p a c (frameIndex h (frameColourCount h f.encoding) c) (frameColourCount h f.encoding) (k c).info (k c).isAlpha premult fb =
      .ok t' ∧ Progress I T h H W r k s (c + 1) t' := by
    intro b' eb hP hty'
    obtain ⟨t3, et3, hp3⟩ := hp2.next hcb2 hP hty'
    refine ⟨t3, ?_, hp3⟩
    rw [combineChannel, e0, Res.bind_ok, Store.get_some href, Res.bind_ok, Store.get_some hcb, Res.bind_ok, et1, Res.bind_ok, e2, Res.bind_ok]
    dsimp only
    rw [Store.get_some hcb2, Res.bind_ok, eb, Res.bind_ok, et3]
  rcases hfin with ⟨f1, f2, f3⟩ | ⟨f0, f1, f2, f3⟩
  · have hal2 : ∃ al, ((k c).info.mode = 2 ∨ (k c).info.mode = 3 → AlphaReady h t2 a (frameColourCount h f.encoding) H W r.height r.width (k c).info premult al) ∧
        ((k c).alpha = none ∧ al = none ∨ (k c).info.mode ≠ 2 ∧ (k c).info.mode ≠ 3 ∨ ∃ dd o n o' n' p, (k c).alpha = some (dd, o, n, p) ∧ al = some (dd, o', n', p) ∧
            (∀ y x, value dd o' y x = value dd o y x) ∧ ∀ y x, value dd n' y x = value dd n y x) := by
      by_cases hu : (k c).info.mode = 2 ∨ (k c).info.mode = 3
      · obtain ⟨al, h1, h2⟩ := hal t2 ev2 hu
        refine ⟨al, fun _ => h1, ?_⟩
        rcases h2 with h2 | h2
        · exact Or.inl h2
        · exact Or.inr (Or.inr h2)
      · exact ⟨none, fun hx => absurd hx hu, Or.inr (Or.inl (by omega))⟩
    obtain ⟨al, hal1, hal2⟩ := hal2
    obtain ⟨m', e, hm', hs⟩ := performBlending_float I (h := h) (t := t2) (a := a) (c := c) (frameColours := frameColourCount h f.encoding)
      (isAlpha := (k c).isAlpha) (premult := premult) (d := depth h c) hfit hrow hcol hmode (pC2.2 f1) HR2 f2 HF2 f3 hsh hcb2 hal1
    refine done _ e ?_ ?_
    · refine painted_float (pC2.2 f1) vC2 hm' hw hs ?_
      intro y x
      rw [hkr]
      exact floatResult_congr I vR2 vF2 hal2 y x
    · intro hnT
      have := (hT hnT).2.1
      rw [lC2'.not hnT, this] at f1
      cases f1
  · obtain ⟨m', e, hm', hs⟩ := performBlending_int I (h := h) (t := t2) (a := a) (c := c) (frameColours := frameColourCount h f.encoding)
      (isAlpha := (k c).isAlpha) (premult := premult) (d := depth h c) hfit hrow hcol f0 (pC2.1 f1) HR2 f2 HF2 f3 hsh
    refine done _ e ?_ (fun _ => f1)
    have z1 := lC2'.int f1
    have z2 := lR2'.int f2
    have z3 := lF2'.int f3
    subst z1 z3
    rw [z2] at hs
    refine painted_int (pC2.1 f1) hm' hw ?_
    intro y x _ _
    rw [hs, f0, hkr]

theorem channelBlending_ok {h : ImageHeader} {f : FrameHeader} {s : Store} {c : Nat} {k : Channel} (ht : Takes h f s c k) :
    channelBlending f (frameColourCount h f.encoding) (frameIndex h (frameColourCount h f.encoding) c) = .ok k.info := by
  have hcc := colourCount_le h f.encoding
  have hi := ht.info
  unfold channelBlending frameIndex
  by_cases hc : c < h.colourCount
  · rw [if_pos hc] at hi
    rw [if_pos hc, if_pos (by split <;> omega), hi]
  · rw [if_neg hc] at hi
    rw [if_neg hc, if_neg (by omega), show ((frameColourCount h f.encoding + (c - h.colourCount) : Nat) : Int) - (frameColourCount h f.encoding : Nat) =
      ((c - h.colourCount : Nat) : Int) by omega, idx_some hi]

theorem channelIsAlpha_ok {h : ImageHeader} {f : FrameHeader} {s : Store} {c : Nat} {k : Channel} (ht : Takes h f s c k) :
    channelIsAlpha h c = .ok k.isAlpha ∧ (h.colourCount ≤ c → c - h.colourCount < h.extra.length) := by
  have hi := ht.isAlpha
  unfold channelIsAlpha
  by_cases hc : c < h.colourCount
  · rw [if_pos hc] at hi
    rw [if_neg (by omega), hi]
    exact ⟨rfl, fun hx => by omega⟩
  · rw [if_neg hc] at hi
    obtain ⟨e, he, hk⟩ := hi
    rw [if_pos (by omega), show (c : Int) - (h.colourCount : Nat) = ((c - h.colourCount : Nat) : Int) by omega, idx_some he, Res.bind_ok, hk]
    exact ⟨rfl, fun _ => getElem?_lt he⟩

/-- One channel, up to the choice of the way to paint it. -/
theorem blendChannel_reduce {I : BlendImpl} {T : Prop} {h : ImageHeader} {f : FrameHeader} {H W : Nat} {r : Rectangle} {k : Nat → Channel} {s t : Store}
    {c nc : Nat} (p : Place) (sc : Scene h f s H W r nc k) (hc : c < nc) (hp : Progress I T h H W r k s c t) (hT : ¬ T → Integral (k c)) :
    ∃ premult t1 cb1 fb1, channelPremult h (k c).info = .ok premult ∧ Progress I T h H W r k s c t1 ∧ buffer t1 t1.canvas c = some cb1 ∧
      cb1.bufferType = fb1.bufferType ∧ Like T (depth h c) (k c).canvas cb1 ∧ Like T (depth h c) (k c).frame fb1 ∧
      blendChannel I h f p c t =
      (if (k c).info.mode = 0 ∨ ((k c).addr = none ∧ (k c).info.mode = 1) then replaceChannel t1 p c fb1
       else match (k c).addr with
        | none => .panic
        | some a => combineChannel I h t1 p a c (frameIndex h (frameColourCount h f.encoding) c) (frameColourCount h f.encoding) (k c).info (k c).isAlpha premult fb1) := by
  have htk := sc.takes c hc
  have hk := sc.paint c hc
  obtain ⟨e1, hin⟩ := channelIsAlpha_ok htk
  have e2 := channelBlending_ok htk
  obtain ⟨premult, e3⟩ : ∃ b, channelPremult h (k c).info = .ok b := by
    unfold channelPremult
    cases hasA : h.hasAlpha with
    | false => exact ⟨_, rfl⟩
    | true =>
      have := hk.alphaIn hasA
      rw [if_pos rfl, idx_some (List.getElem?_eq_getElem this)]
      exact ⟨_, rfl⟩
  have e4 : idx t.refs (k c).info.source = .ok (k c).addr := by
    rw [hp.refs]
    exact idx_some htk.addr
  obtain ⟨cb, hcb, lC⟩ := hp.rest s.canvas c _ (Or.inr (Nat.le_refl c)) htk.canvas
  obtain ⟨fb, hfb, lF⟩ := hp.rest s.frame _ _ (Or.inl sc.apart) htk.frame
  have lF : Like T (depth h c) (k c).frame fb := by
    rcases sc.gray with hx | hx
    · have : frameIndex h (frameColourCount h f.encoding) c = c := by
        unfold frameIndex
        rw [hx]
        split
        · rw [if_pos rfl]
        · omega
      rw [this] at lF
      exact lF
    · exact Or.inl (lF.float (hx _ _ htk.frame))
  rw [← hp.canvas] at hcb
  rw [← hp.frame] at hfb
  have hPC : (k c).canvas.Picture H W := by
    rcases hk.canvas with hx | hx
    · exact Or.inr hx
    · exact Or.inl hx.1
  have hHC : Holds H W (depth h c) (k c).canvas := ⟨H, W, hk.canvas, Nat.le_refl _, Nat.le_refl _, sc.hH.2, sc.hW⟩
  have hHF := hk.frame
  obtain ⟨fb1, t1, cb1, e5, ev, hcb1, hty, lF1, lC1, _⟩ := convertCanvas_ok (T := Open T s c) (e := f.encoding) hin hcb (lC.value hHC).1 (lF.value hHF).1 (by
    intro hx
    refine ⟨?_, Or.inr (Nat.le_refl c)⟩
    by_contra hnT
    have hI := hT hnT
    rw [lC.not hnT, lF.not hnT, hI.2.1, hI.2.2.1] at hx
    exact hx rfl)
  have hp1 := hp.evolve ev
  rw [← ev.canvas] at hcb1
  have lF1' : Like T (depth h c) (k c).frame fb1 := lF.trans (lF1.mono (fun x => x.1))
  have lC1' : Like T (depth h c) (k c).canvas cb1 := lC.trans (lC1.mono (fun x => x.1))
  refine ⟨premult, t1, cb1, fb1, e3, hp1, hcb1, hty, lC1', lF1', ?_⟩
  have red : blendChannel I h f p c t =
      (if (k c).info.mode = 0 ∨ ((k c).addr = none ∧ (k c).info.mode = 1) then replaceChannel t1 p c fb1
       else match (k c).addr with
        | none => .panic
        | some a => combineChannel I h t1 p a c (frameIndex h (frameColourCount h f.encoding) c) (frameColourCount h f.encoding) (k c).info (k c).isAlpha premult fb1) := by
    unfold blendChannel
    dsimp only
    rw [frameChannel_eq, Store.get_some hfb, Res.bind_ok, e2, Res.bind_ok, e1, Res.bind_ok, e3, Res.bind_ok, e4, Res.bind_ok, e5, Res.bind_ok]
    rfl
  exact red

/-- One channel. -/
theorem blendChannel_ok {I : BlendImpl} {T : Prop} {h : ImageHeader} {f : FrameHeader} {H W : Nat} {r : Rectangle} {k : Nat → Channel} {s t : Store}
    {c nc : Nat} {p : Place} {sy sx oy ox n m : Nat} (hfit : Fits p H W r.height r.width sy sx oy ox n m)
    (hw : ∀ y x, y < H → x < W → (InWindow sy sx n m y x ↔ Covered r y x))
    (hrow : ∀ y, sy ≤ y → y - sy + oy = frameRow r y) (hcol : ∀ x, sx ≤ x → x - sx + ox = frameCol r x)
    (sc : Scene h f s H W r nc k) (hc : c < nc) (hp : Progress I T h H W r k s c t) (hT : ¬ T → Integral (k c)) :
    ∃ t', blendChannel I h f p c t = .ok t' ∧ Progress I T h H W r k s (c + 1) t' := by
  have htk := sc.takes c hc
  have hk := sc.paint c hc
  obtain ⟨_, hin⟩ := channelIsAlpha_ok htk
  have hPC : (k c).canvas.Picture H W := by
    rcases hk.canvas with hx | hx
    · exact Or.inr hx
    · exact Or.inl hx.1
  have hHC : Holds H W (depth h c) (k c).canvas := ⟨H, W, hk.canvas, Nat.le_refl _, Nat.le_refl _, sc.hH.2, sc.hW⟩
  have hHF := hk.frame
  obtain ⟨premult, t1, cb1, fb1, e3, hp1, hcb1, hty, lC1', lF1', red⟩ := blendChannel_reduce p sc hc hp hT
  rw [red]
  by_cases hr : (k c).info.mode = 0 ∨ ((k c).addr = none ∧ (k c).info.mode = 1)
  · rw [if_pos hr]
    refine replaceChannel_ok hfit hw hrow hcol hp1 hcb1 lC1' lF1' hty hPC hHC hHF hT ?_
    rcases hr with hr | ⟨hr, hr1⟩
    · exact Or.inl hr
    · have := htk.ref (by omega)
      rw [hr] at this
      exact Or.inr ⟨hr1, this⟩
  · rw [if_neg hr]
    cases ha : (k c).addr with
    | none =>
      exfalso
      have := hk.haveRef
      rw [ha] at hr
      by_cases h2 : 2 ≤ (k c).info.mode
      · exact this h2 ha
      · apply hr
        by_cases h0 : (k c).info.mode = 0
        · exact Or.inl h0
        · exact Or.inr ⟨rfl, by omega⟩
    | some a => exact combineChannel_ok hfit hw hrow hcol sc hc hp1 hcb1 lC1' lF1' hty hPC hHC hin hT (fun hx => hr (Or.inl hx)) ha e3

/-- The whole frame. -/
theorem blendFrame_ok (I : BlendImpl) (T : Prop) {h : ImageHeader} {f : FrameHeader} {H W : Nat} {k : Nat → Channel} {s : Store} {nc : Nat}
    (hs : h.size = ⟨W, H⟩) (hn : (s.slices[s.canvas]?).map List.length = some nc) (sc : Scene h f s H W f.rect nc k)
    (hW : W < 2 ^ 30) (hH : H < 2 ^ 30) (hw : f.rect.width < 2 ^ 30) (hh : f.rect.height < 2 ^ 30)
    (hq : (0 ≤ f.rect.x ∧ 0 ≤ f.rect.y) ∨ (f.rect.x < 0 ∧ f.rect.y ≤ 0)) (hx0 : f.rect.x ≤ W) (hy0 : f.rect.y ≤ H)
    (hx1 : 0 ≤ f.rect.x + f.rect.width) (hy1 : 0 ≤ f.rect.y + f.rect.height) (hT : ¬ T → ∀ c, c < nc → Integral (k c)) :
    ∃ s', blendFrame I h f s = .ok s' ∧ Progress I T h H W f.rect k s nc s' := by
  obtain ⟨sy, sx, oy, ox, n, m, hfit, hwin, hrow, hcol⟩ := blendPlace_ok f.rect W H hW hH hw hh hq hx0 hy0 hx1 hy1
  obtain ⟨l, hl, hln⟩ := Option.map_eq_some_iff.mp hn
  have h0 : Progress I T h H W f.rect k s 0 s :=
    ⟨rfl, rfl, rfl, fun a i b _ hb => ⟨b, hb, Like.refl _ _ _⟩, fun _ _ hx => hx, fun i hi => absurd hi (Nat.not_lt_zero i)⟩
  obtain ⟨s', e, hp⟩ := forFrom_inv (f := fun c s => blendChannel I h f (blendPlace f.rect h.size) c s) (fun c t => Progress I T h H W f.rect k s c t) nc 0 s h0 (by
    intro c t _ hc hp
    rw [hs]
    exact blendChannel_ok hfit hwin hrow hcol sc (by omega) hp (fun hx => hT hx c (by omega)))
  refine ⟨s', ?_, by rwa [Nat.zero_add] at hp⟩
  rw [blendFrame, idx_some hl, Res.bind_ok, hln, e]

end Jxl
