import Verif.Proofs.Blend

/-! # Blending one channel -/
namespace Jxl
open Spec

theorem colourCount_le (h : ImageHeader) (e : Nat) : h.colourCount ≤ frameColourCount h e ∧ (frameColourCount h e = h.colourCount ∨
    (frameColourCount h e = 3 ∧ h.colourCount = 1)) := by
  unfold frameColourCount ImageHeader.colourCount
  split <;> split <;> omega

theorem frameChannel_eq (h : ImageHeader) (e c : Nat) : frameChannel (frameColourCount h e) h.colourCount c = frameIndex h (frameColourCount h e) c := by
  have := (colourCount_le h e).2
  unfold frameChannel frameIndex
  rcases this with h1 | ⟨h1, h2⟩
  · rw [h1]
    simp only [ne_eq, not_true_eq_false, if_false, if_true]
    split <;> omega
  · rw [h1, h2]
    by_cases hc : c = 0
    · subst hc; rfl
    · rw [if_pos (by decide), if_neg hc, if_neg (by omega)]
      omega

theorem channelDepth_eq (h : ImageHeader) (c : Nat) (hc : h.colourCount ≤ c → c - h.colourCount < h.extra.length) :
    channelDepth h h.colourCount c = .ok (depth h c) := by
  unfold channelDepth depth
  by_cases h1 : h.colourCount ≤ c
  · have := hc h1
    rw [if_pos h1, if_neg (by omega), show (c : Int) - h.colourCount = ((c - h.colourCount : Nat) : Int) by omega,
      idx_some (List.getElem?_eq_getElem this), List.getElem?_eq_getElem this]
    rfl
  · rw [if_neg h1, if_pos (by omega)]

theorem frameDepth_eq (h : ImageHeader) (e c : Nat) (hc : h.colourCount ≤ c → c - h.colourCount < h.extra.length) :
    channelDepth h (frameColourCount h e) (frameIndex h (frameColourCount h e) c) = .ok (depth h c) := by
  have hle := (colourCount_le h e).2
  unfold channelDepth depth frameIndex
  by_cases h1 : c < h.colourCount
  · rw [if_pos h1, if_pos h1, if_neg]
    split <;> omega
  · have := hc (by omega)
    rw [if_neg h1, if_neg h1, if_pos (by omega), show ((frameColourCount h e + (c - h.colourCount) : Nat) : Int) - (frameColourCount h e : Nat) =
      ((c - h.colourCount : Nat) : Int) by omega, idx_some (List.getElem?_eq_getElem this), List.getElem?_eq_getElem this]
    rfl

theorem alphaDepth_eq (h : ImageHeader) (i : Nat) (e : ExtraChannel) (he : h.extra[i]? = some e) : depth h (h.colourCount + i) = e.bitDepth.bits := by
  unfold depth
  rw [if_neg (by omega), show h.colourCount + i - h.colourCount = i by omega, he]
  rfl

/-- Preparing the canvas: afterwards it has the type of the frame. -/
theorem convertCanvas_ok {T : Nat → Nat → Prop} {h : ImageHeader} {t : Store} {c e H W Fh Fw : Nat} {cb fb : ImageBuffer}
    (hc : h.colourCount ≤ c → c - h.colourCount < h.extra.length) (hcb : buffer t t.canvas c = some cb) (hC : Holds H W (depth h c) cb)
    (hF : Holds Fh Fw (depth h c) fb) (hT : cb.bufferType ≠ fb.bufferType → T t.canvas c) :
    ∃ fb' t' cb', convertCanvas h t c (frameIndex h (frameColourCount h e) c) (frameColourCount h e) fb = .ok (fb', t') ∧ Evolves T (depth h) t t' ∧
      buffer t' t.canvas c = some cb' ∧ cb'.bufferType = fb'.bufferType ∧ Like (T t.canvas c) (depth h c) fb fb' ∧ Like (T t.canvas c) (depth h c) cb cb' ∧
      ∀ a i, ¬ (a = t.canvas ∧ i = c) → buffer t' a i = buffer t a i := by
  by_cases ht : cb.bufferType = fb.bufferType
  · refine ⟨fb, t, cb, ?_, Evolves.refl _ _ _, hcb, ht, Like.refl _ _ _, Like.refl _ _ _, fun _ _ _ => rfl⟩
    rw [convertCanvas, Store.get_some hcb, Res.bind_ok, if_pos ht]
  · obtain ⟨fb', e1, l1, t1⟩ := cast_like hF (fun _ => hT ht)
    obtain ⟨cb', e2, l2, t2⟩ := cast_like hC (fun _ => hT ht)
    obtain ⟨t', e3, ev, hb, ho⟩ := Evolves.of_set (dep := depth h) hcb l2
    refine ⟨fb', t', cb', ?_, ev, hb, by rw [t1, t2], l1, l2, ho⟩
    rw [convertCanvas, Store.get_some hcb, Res.bind_ok, if_neg ht, channelDepth_eq h c hc, Res.bind_ok, frameDepth_eq h e c hc, Res.bind_ok, e1,
      Res.bind_ok, e2, Res.bind_ok, e3, Res.bind_ok]

/-- Preparing the alpha channels: afterwards they hold floats. -/
theorem blendAlpha_ok {T : Nat → Nat → Prop} {h : ImageHeader} {t : Store} {a H W Fh Fw : Nat} {info : Blending} {ra fa cb : ImageBuffer} {ec : ExtraChannel}
    (hal : h.hasAlpha = true) (hm : info.mode = 2 ∨ info.mode = 3) (he : h.extra[info.alpha]? = some ec) (hH : 0 < H)
    (hra : buffer t a (h.colourCount + info.alpha) = some ra) (hR : Holds H W ec.bitDepth.bits ra) (hT : T a (h.colourCount + info.alpha) ∧ T t.frame (h.colourCount + info.alpha))
    (hfa : buffer t t.frame (h.colourCount + info.alpha) = some fa) (hF : Holds Fh Fw ec.bitDepth.bits fa ∨ fa.bufferType = 1) :
    ∃ t' ra' fa', blendAlpha h t a info cb = .ok t' ∧ Evolves T (depth h) t t' ∧ buffer t' a (h.colourCount + info.alpha) = some ra' ∧ ra'.bufferType = 1 ∧
      buffer t' t.frame (h.colourCount + info.alpha) = some fa' ∧ fa'.bufferType = 1 := by
  have hd := alphaDepth_eq h info.alpha ec he
  have e0 : freshAlpha t a (h.colourCount + info.alpha) cb = .ok t := by
    rw [freshAlpha, Store.get_some hra, Res.bind_ok, if_neg]
    obtain ⟨h', w', hp, h1, _⟩ := hR
    intro hz
    rcases hp with hp | hp
    · have := hp.2.1; omega
    · have := hp.1.2.1; omega
  rw [← hd] at hR
  obtain ⟨t1, ra1, e1, ev1, hb1, ht1⟩ := castInPlace_ok (dep := depth h) hra hR (fun _ => hT.1)
  obtain ⟨fa1, hfa1, lf⟩ := ev1.bufs _ _ _ hfa
  have key : ∃ t2 fa2, castInPlace t1 t1.frame (h.colourCount + info.alpha) (mask32 ec.bitDepth.bits) = .ok t2 ∧ Evolves T (depth h) t1 t2 ∧
      buffer t2 t1.frame (h.colourCount + info.alpha) = some fa2 ∧ fa2.bufferType = 1 := by
    rcases hF with hF | hF
    · rw [← hd] at hF ⊢
      have hb : buffer t1 t1.frame (h.colourCount + info.alpha) = some fa1 := by rw [ev1.frame]; exact hfa1
      exact castInPlace_ok (dep := depth h) hb (lf.value hF).1 (fun _ => ev1.frame ▸ hT.2)
    · have := lf.float hF
      subst this
      obtain ⟨t2, e2, ev2, hb2⟩ := castInPlace_float (T := T) (dep := depth h) (mask32 ec.bitDepth.bits)
        (show buffer t1 t1.frame (h.colourCount + info.alpha) = some fa1 by rw [ev1.frame]; exact hfa1) hF
      exact ⟨t2, _, e2, ev2, hb2, hF⟩
  obtain ⟨t2, fa2, e2, ev2, hb2, ht2⟩ := key
  obtain ⟨ra2, hra2, lr⟩ := ev2.bufs _ _ _ hb1
  have := lr.float ht1
  subst this
  refine ⟨t2, ra2, fa2, ?_, ev1.trans ev2, hra2, ht1, by rw [← ev1.frame]; exact hb2, ht2⟩
  unfold blendAlpha
  rw [hal, if_pos (by rcases hm with hm | hm <;> rw [hm] <;> rfl), idx_some he, Res.bind_ok, e0, Res.bind_ok, ← hd, e1, Res.bind_ok, hd, e2]

theorem blendAlpha_skip (h : ImageHeader) (t : Store) (a : Nat) (info : Blending) (cb : ImageBuffer)
    (hs : h.hasAlpha = false ∨ (info.mode ≠ 2 ∧ info.mode ≠ 3)) : blendAlpha h t a info cb = .ok t := by
  unfold blendAlpha
  rw [if_neg]
  rcases hs with hs | hs
  · rw [hs]; simp
  · simp [hs.1, hs.2]

/-- Preparing the reference: everything holds floats, or integers are added to integers. -/
theorem convertReference_ok {T : Nat → Nat → Prop} {h : ImageHeader} {t : Store} {c e H W Fh Fw : Nat} {info : Blending} {cb ref fb : ImageBuffer}
    (hc : h.colourCount ≤ c → c - h.colourCount < h.extra.length) (hcb : buffer t t.canvas c = some cb) (hC : Holds H W (depth h c) cb)
    (hR : Holds H W (depth h c) ref) (hF : Holds Fh Fw (depth h c) fb) (hT : ref.bufferType ≠ fb.bufferType ∨ info.mode ≠ 1 → T t.canvas c)
    (hty : info.mode = 1 → cb.bufferType = fb.bufferType) :
    ∃ fb' ref' t' cb', convertReference h t c (frameIndex h (frameColourCount h e) c) (frameColourCount h e) info ref fb = .ok (fb', ref', t') ∧
      Evolves T (depth h) t t' ∧ buffer t' t.canvas c = some cb' ∧ Like (T t.canvas c) (depth h c) fb fb' ∧ Like (T t.canvas c) (depth h c) cb cb' ∧ Like (T t.canvas c) (depth h c) ref ref' ∧
      ((cb'.bufferType = 1 ∧ ref'.bufferType = 1 ∧ fb'.bufferType = 1) ∨
        (info.mode = 1 ∧ cb'.bufferType = 0 ∧ ref'.bufferType = 0 ∧ fb'.bufferType = 0)) := by
  by_cases hn : ref.bufferType ≠ fb.bufferType ∨ info.mode ≠ 1
  · obtain ⟨fb', e1, l1, t1⟩ := cast_like hF (fun _ => hT hn)
    obtain ⟨cb', e2, l2, t2⟩ := cast_like hC (fun _ => hT hn)
    obtain ⟨ref', e3, l3, t3⟩ := cast_like hR (fun _ => hT hn)
    obtain ⟨t', e4, ev, hb, _⟩ := Evolves.of_set (dep := depth h) hcb l2
    refine ⟨fb', ref', t', cb', ?_, ev, hb, l1, l2, l3, Or.inl ⟨t2, t3, t1⟩⟩
    rw [convertReference, if_pos hn, channelDepth_eq h c hc, Res.bind_ok, frameDepth_eq h e c hc, Res.bind_ok, e1,
      Res.bind_ok, Store.get_some hcb, Res.bind_ok, e2, Res.bind_ok, e4, Res.bind_ok, e3, Res.bind_ok]
  · refine ⟨fb, ref, t, cb, ?_, Evolves.refl _ _ _, hcb, Like.refl _ _ _, Like.refl _ _ _, Like.refl _ _ _, ?_⟩
    · rw [convertReference, if_neg hn]
    · have h1 : ref.bufferType = fb.bufferType := by by_contra hx; exact hn (Or.inl hx)
      have h2 : info.mode = 1 := by by_contra hx; exact hn (Or.inr hx)
      have h3 := hty h2
      rcases hF.types with h0 | h0
      · exact Or.inr ⟨h2, by rw [h3, h0], by rw [h1, h0], h0⟩
      · exact Or.inl ⟨by rw [h3, h0], by rw [h1, h0], h0⟩

theorem clampUnit_eq (clamp : Bool) (v : F32) : clampUnit clamp v = limited clamp v := by cases clamp <;> rfl

/-- Reading a float plane whose values are those of `b0`. -/
theorem at2_px {d h w y x : Nat} {b b0 : ImageBuffer} (hb : Holds h w d b) (ht : b.bufferType = 1) (hv : ∀ y x, value d b y x = value d b0 y x)
    (hy : y < h) (hx : x < w) : sample b.floats y x = some (px d b0 y x) ∧ at2 b.floats (y : Int) (x : Int) = .ok (px d b0 y x) := by
  obtain ⟨h', w', hp, h1, h2, _⟩ := hb
  have hT : Table h' w' b.floats := by
    rcases hp with hp | hp
    · exact hp.2.2.2
    · rw [hp.1.1] at ht; cases ht
  obtain ⟨v, hs⟩ := hT.sample (y := y) (x := x) (by omega) (by omega)
  have := hv y x
  unfold value at this
  rw [if_neg (by rw [ht]; decide), hs] at this
  have hpx : px d b0 y x = v := by
    unfold px value
    rw [← this]
    rfl
  rw [hpx]
  exact ⟨hs, at2_sample hs⟩

/-- Reading an integer plane. -/
theorem at2_int {d h w y x : Nat} {b : ImageBuffer} (hb : Holds h w d b) (ht : b.bufferType = 0) (hy : y < h) (hx : x < w) :
    ∃ v, sample b.ints y x = some v ∧ at2 b.ints (y : Int) (x : Int) = .ok v := by
  obtain ⟨h', w', hp, h1, h2, _⟩ := hb
  have hT : Table h' w' b.ints := by
    rcases hp with hp | hp
    · rw [hp.1] at ht; cases ht
    · exact hp.1.2.2.2
  obtain ⟨v, hs⟩ := hT.sample (y := y) (x := x) (by omega) (by omega)
  exact ⟨v, hs, at2_sample hs⟩

/-- A sample read from the reference, which may be the plane being written. -/
theorem src_at {d H W y x : Nat} {cb ref : ImageBuffer} {m : List (List F32)} {shared : Bool} (hsh : shared = true → cb = ref) (hR : Holds H W d ref)
    (ht : ref.bufferType = 1) (hy : y < H) (hx : x < W) (hm : sample m y x = sample cb.floats y x) :
    (if shared then Src.dest else Src.own ref.floats).at m (y : Int) (x : Int) = .ok (px d ref y x) := by
  have h1 := at2_px (b0 := ref) hR ht (fun _ _ => rfl) hy hx
  cases shared with
  | true =>
    rw [hsh rfl, h1.1] at hm
    exact at2_sample hm
  | false => exact h1.2

/-- The alphas of a pixel. -/
def alphaAt (r : Rectangle) (al : Option (Nat × ImageBuffer × ImageBuffer × Bool)) (y x : Nat) : F32 × F32 :=
  match al with
  | none => (.fin 1, .fin 1)
  | some a => (px a.1 a.2.1 y x, px a.1 a.2.2.1 (frameRow r y) (frameCol r x))

/-- What the modes with alpha need of the alpha channels. -/
def AlphaReady (h : ImageHeader) (t : Store) (a frameColours H W Fh Fw : Nat) (info : Blending) (premult : Bool)
    (al : Option (Nat × ImageBuffer × ImageBuffer × Bool)) : Prop :=
  if h.hasAlpha then ∃ dd o n, al = some (dd, o, n, premult) ∧ buffer t a (h.colourCount + info.alpha) = some o ∧ o.bufferType = 1 ∧ Holds H W dd o ∧
    buffer t t.frame (frameColours + info.alpha) = some n ∧ n.bufferType = 1 ∧ Holds Fh Fw dd n
  else al = none

theorem alphaPair_ok {h : ImageHeader} {t : Store} {a c frameColours H W Fh Fw : Nat} {info : Blending} {premult : Bool}
    {al : Option (Nat × ImageBuffer × ImageBuffer × Bool)} {r : Rectangle} {cb : ImageBuffer} (hr : AlphaReady h t a frameColours H W Fh Fw info premult al)
    (hcb : buffer t t.canvas c = some cb) :
    ∃ pl, alphaPlanes h t a c frameColours info = .ok pl ∧ ∀ m y x fy fx, y < H → x < W → fy < Fh → fx < Fw → fy = frameRow r y → fx = frameCol r x →
      sample m y x = sample cb.floats y x → alphaPair h.hasAlpha pl.1 pl.2 m (y : Int) (x : Int) (fy : Int) (fx : Int) = .ok (alphaAt r al y x) := by
  unfold AlphaReady at hr
  unfold alphaPlanes
  cases hal : h.hasAlpha with
  | false =>
    rw [hal] at hr
    refine ⟨_, rfl, ?_⟩
    intro m y x fy fx _ _ _ _ _ _ _
    rw [show al = none from hr]
    rfl
  | true =>
    rw [hal, if_pos rfl] at hr
    obtain ⟨dd, o, n, e, ho, tyo, Ho, hn, tn, Hn⟩ := hr
    rw [if_pos rfl, Store.get_some ho, Res.bind_ok, Store.get_some hn, Res.bind_ok]
    refine ⟨_, rfl, ?_⟩
    intro m y x fy fx hy hx hfy hfx ey ex hm
    have h1 := at2_px (b0 := o) Ho tyo (fun _ _ => rfl) hy hx
    have h2 := at2_px (b0 := n) Hn tn (fun _ _ => rfl) hfy hfx
    have h3 : (if a = t.canvas ∧ h.colourCount + info.alpha = c then Src.dest else Src.own o.floats).at m (y : Int) (x : Int) = .ok (px dd o y x) := by
      split
      · rename_i hx'
        rw [hx'.1, hx'.2, hcb] at ho
        cases ho
        rw [h1.1] at hm
        exact at2_sample hm
      · exact h1.2
    unfold alphaPair
    dsimp only
    rw [if_pos rfl, h3, Res.bind_ok, h2.2, Res.bind_ok, e, alphaAt, ey, ex]

theorem blendValue_eq (I : BlendImpl) (r : Rectangle) {h : ImageHeader} {t : Store} {a frameColours H W Fh Fw : Nat} {info : Blending} {premult : Bool}
    {al : Option (Nat × ImageBuffer × ImageBuffer × Bool)} (hr : AlphaReady h t a frameColours H W Fh Fw info premult al) (isAlpha : Bool) (clamp : Bool)
    (y x : Nat) (old new : F32) :
    blendValue I h.hasAlpha isAlpha premult (alphaAt r al y x).1 (clampUnit clamp (alphaAt r al y x).2) old new =
      composite I 2 clamp isAlpha (al.map (fun a => (px a.1 a.2.1 y x, px a.1 a.2.2.1 (frameRow r y) (frameCol r x), a.2.2.2))) old new := by
  unfold AlphaReady at hr
  unfold blendValue composite
  simp only [clampUnit_eq]
  cases hal : h.hasAlpha with
  | false =>
    rw [hal] at hr
    have hr : al = none := hr
    subst hr
    cases isAlpha <;> simp [alphaAt, overAlpha]
  | true =>
    rw [hal, if_pos rfl] at hr
    obtain ⟨dd, o, n, e, _⟩ := hr
    subst e
    cases isAlpha <;> cases premult <;> simp [alphaAt, overAlpha]

theorem mulAddValue_eq (I : BlendImpl) (r : Rectangle) (al : Option (Nat × ImageBuffer × ImageBuffer × Bool)) (isAlpha : Bool) (clamp : Bool)
    (y x : Nat) (old new : F32) :
    mulAddValue I isAlpha (alphaAt r al y x).1 (clampUnit clamp (alphaAt r al y x).2) old new =
      composite I 3 clamp isAlpha (al.map (fun a => (px a.1 a.2.1 y x, px a.1 a.2.2.1 (frameRow r y) (frameCol r x), a.2.2.2))) old new := by
  unfold mulAddValue composite
  simp only [clampUnit_eq]
  cases al <;> cases isAlpha <;> simp [alphaAt]

/-- Combining floats. -/
theorem performBlending_float (I : BlendImpl) {h : ImageHeader} {t : Store} {p : Place} {a c frameColours H W : Nat} {r : Rectangle} {info : Blending}
    {isAlpha premult shared : Bool} {cb ref fb : ImageBuffer} {d sy sx oy ox n m : Nat} {al : Option (Nat × ImageBuffer × ImageBuffer × Bool)}
    (hp : Fits p H W r.height r.width sy sx oy ox n m) (hrow : ∀ y, sy ≤ y → y - sy + oy = frameRow r y) (hcol : ∀ x, sx ≤ x → x - sx + ox = frameCol r x)
    (hm : 1 ≤ info.mode ∧ info.mode ≤ 4) (hC : cb.FloatPicture H W) (hR : Holds H W d ref) (tR : ref.bufferType = 1)
    (hF : Holds r.height r.width d fb) (tF : fb.bufferType = 1) (hsh : shared = true → cb = ref) (hcb : buffer t t.canvas c = some cb)
    (hal : info.mode = 2 ∨ info.mode = 3 → AlphaReady h t a frameColours H W r.height r.width info premult al) :
    ∃ m', performBlending I h t p a c frameColours info isAlpha premult shared cb ref fb = .ok { cb with floats := m' } ∧ Table H W m' ∧
      ∀ y x, sample m' y x =
        if InWindow sy sx n m y x then some (floatResult I d r info.mode info.clamp isAlpha (some ref) al fb y x) else sample cb.floats y x := by
  have b1 : ∀ y, y < n → sy + y < H ∧ oy + y < r.height ∧ oy + y = frameRow r (sy + y) := by
    intro y hy
    have := hp.row
    have := hp.frow
    have := hrow (sy + y) (by omega)
    omega
  have b2 : ∀ x, x < m → sx + x < W ∧ ox + x < r.width ∧ ox + x = frameCol r (sx + x) := by
    intro x hx
    have := hp.col
    have := hp.fcol
    have := hcol (sx + x) (by omega)
    omega
  have rd : ∀ (d' : List (List F32)) y x, y < n → x < m → sample d' (sy + y) (sx + x) = sample cb.floats (sy + y) (sx + x) →
      (if shared then Src.dest else Src.own ref.floats).at d' ((sy + y : Nat) : Int) ((sx + x : Nat) : Int) = .ok (px d ref (sy + y) (sx + x)) :=
    fun d' y x hy hx he => src_at hsh hR tR (b1 y hy).1 (b2 x hx).1 he
  have fd : ∀ y x, y < n → x < m → at2 fb.floats ((oy + y : Nat) : Int) ((ox + x : Nat) : Int) = .ok (px d fb (frameRow r (sy + y)) (frameCol r (sx + x))) := by
    intro y x hy hx
    rw [(at2_px (b0 := fb) hF tF (fun _ _ => rfl) (b1 y hy).2.1 (b2 x hx).2.1).2, (b1 y hy).2.2, (b2 x hx).2.2]
  have hTab := hC.2.2.2
  unfold performBlending
  dsimp only
  by_cases m1 : info.mode = 1
  · rw [if_pos m1, if_neg (by unfold ImageBuffer.isInt; rw [tF]; decide)]
    obtain ⟨m', e, hm', hs⟩ := blendLoop_ok hp (fun d' cy cx fy fx => do
        let r' ← (if shared then Src.dest else Src.own ref.floats).at d' cy cx
        let f ← at2 fb.floats fy fx
        .ok (F32.add r' f)) (fun y x => floatResult I d r info.mode info.clamp isAlpha (some ref) al fb y x) hTab (by
      intro d' y x hy hx he
      rw [rd d' y x hy hx he, Res.bind_ok, fd y x hy hx, Res.bind_ok, floatResult, m1]
      rfl)
    exact ⟨m', by rw [e, Res.bind_ok], hm', hs⟩
  rw [if_neg m1]
  by_cases m4 : info.mode = 4
  · rw [if_pos m4]
    obtain ⟨m', e, hm', hs⟩ := blendLoop_ok hp (fun d' cy cx fy fx => do
        let f ← at2 fb.floats fy fx
        let r' ← (if shared then Src.dest else Src.own ref.floats).at d' cy cx
        .ok (F32.mul (clampUnit info.clamp f) r')) (fun y x => floatResult I d r info.mode info.clamp isAlpha (some ref) al fb y x) hTab (by
      intro d' y x hy hx he
      rw [fd y x hy hx, Res.bind_ok, rd d' y x hy hx he, Res.bind_ok, floatResult, m4, clampUnit_eq]
      rfl)
    exact ⟨m', by rw [e, Res.bind_ok], hm', hs⟩
  rw [if_neg m4]
  by_cases m2 : info.mode = 2
  · rw [if_pos m2]
    obtain ⟨pl, epl, hpl⟩ := alphaPair_ok (r := r) (hal (Or.inl m2)) hcb
    obtain ⟨m', e, hm', hs⟩ := blendLoop_ok hp (fun d' cy cx fy fx => do
        let on ← alphaPair h.hasAlpha pl.1 pl.2 d' cy cx fy fx
        let r' ← (if shared then Src.dest else Src.own ref.floats).at d' cy cx
        let f ← at2 fb.floats fy fx
        .ok (blendValue I h.hasAlpha isAlpha premult on.1 (clampUnit info.clamp on.2) r' f))
        (fun y x => floatResult I d r info.mode info.clamp isAlpha (some ref) al fb y x) hTab (by
      intro d' y x hy hx he
      rw [hpl d' _ _ _ _ (b1 y hy).1 (b2 x hx).1 (b1 y hy).2.1 (b2 x hx).2.1 (b1 y hy).2.2 (b2 x hx).2.2 he, Res.bind_ok, rd d' y x hy hx he, Res.bind_ok,
        fd y x hy hx, Res.bind_ok, blendValue_eq I r (hal (Or.inl m2)), floatResult, m2])
    exact ⟨m', by rw [epl, Res.bind_ok, e, Res.bind_ok], hm', hs⟩
  rw [if_neg m2]
  have m3 : info.mode = 3 := by omega
  · rw [if_pos m3]
    obtain ⟨pl, epl, hpl⟩ := alphaPair_ok (r := r) (hal (Or.inr m3)) hcb
    obtain ⟨m', e, hm', hs⟩ := blendLoop_ok hp (fun d' cy cx fy fx => do
        let on ← alphaPair h.hasAlpha pl.1 pl.2 d' cy cx fy fx
        let r' ← (if shared then Src.dest else Src.own ref.floats).at d' cy cx
        let f ← at2 fb.floats fy fx
        .ok (mulAddValue I isAlpha on.1 (clampUnit info.clamp on.2) r' f))
        (fun y x => floatResult I d r info.mode info.clamp isAlpha (some ref) al fb y x) hTab (by
      intro d' y x hy hx he
      rw [hpl d' _ _ _ _ (b1 y hy).1 (b2 x hx).1 (b1 y hy).2.1 (b2 x hx).2.1 (b1 y hy).2.2 (b2 x hx).2.2 he, Res.bind_ok, rd d' y x hy hx he, Res.bind_ok,
        fd y x hy hx, Res.bind_ok, mulAddValue_eq I r al, floatResult, m3])
    exact ⟨m', by rw [epl, Res.bind_ok, e, Res.bind_ok], hm', hs⟩

/-- Adding integers. -/
theorem performBlending_int (I : BlendImpl) {h : ImageHeader} {t : Store} {p : Place} {a c frameColours H W : Nat} {r : Rectangle} {info : Blending}
    {isAlpha premult shared : Bool} {cb ref fb : ImageBuffer} {d sy sx oy ox n m : Nat}
    (hp : Fits p H W r.height r.width sy sx oy ox n m) (hrow : ∀ y, sy ≤ y → y - sy + oy = frameRow r y) (hcol : ∀ x, sx ≤ x → x - sx + ox = frameCol r x)
    (hm : info.mode = 1) (hC : cb.IntPicture H W) (hR : Holds H W d ref) (tR : ref.bufferType = 0)
    (hF : Holds r.height r.width d fb) (tF : fb.bufferType = 0) (hsh : shared = true → cb = ref) :
    ∃ m', performBlending I h t p a c frameColours info isAlpha premult shared cb ref fb = .ok { cb with ints := m' } ∧ Table H W m' ∧
      ∀ y x, sample m' y x = if InWindow sy sx n m y x then intResult r 1 (some ref) fb y x else sample cb.ints y x := by
  have b1 : ∀ y, y < n → sy + y < H ∧ oy + y < r.height ∧ oy + y = frameRow r (sy + y) := by
    intro y hy
    have := hp.row
    have := hp.frow
    have := hrow (sy + y) (by omega)
    omega
  have b2 : ∀ x, x < m → sx + x < W ∧ ox + x < r.width ∧ ox + x = frameCol r (sx + x) := by
    intro x hx
    have := hp.col
    have := hp.fcol
    have := hcol (sx + x) (by omega)
    omega
  have hTab := hC.2.2.2
  have key : ∀ d' y x, y < n → x < m → sample d' (sy + y) (sx + x) = sample cb.ints (sy + y) (sx + x) →
      ∃ v, (if shared then Src.dest else Src.own ref.ints).at d' ((sy + y : Nat) : Int) ((sx + x : Nat) : Int) = .ok v ∧
        ∃ u, at2 fb.ints ((oy + y : Nat) : Int) ((ox + x : Nat) : Int) = .ok u ∧ intResult r 1 (some ref) fb (sy + y) (sx + x) = some (i32 (v + u)) := by
    intro d' y x hy hx he
    obtain ⟨v, sv, av⟩ := at2_int hR tR (b1 y hy).1 (b2 x hx).1
    obtain ⟨u, su, au⟩ := at2_int hF tF (b1 y hy).2.1 (b2 x hx).2.1
    refine ⟨v, ?_, u, au, ?_⟩
    · cases shared with
      | true =>
        rw [hsh rfl, sv] at he
        exact at2_sample he
      | false => exact av
    · unfold intResult
      rw [(b1 y hy).2.2, (b2 x hx).2.2] at su
      simp only [tF, tR, if_true, su, sv, Option.bind_some, Option.map_some]
  unfold performBlending
  dsimp only
  rw [if_pos hm, if_pos (by unfold ImageBuffer.isInt; rw [tF]; decide)]
  obtain ⟨m', e, hm', hs⟩ := blendLoop_ok hp (fun d' cy cx fy fx => do
        let r' ← (if shared then Src.dest else Src.own ref.ints).at d' cy cx
        let f ← at2 fb.ints fy fx
        .ok (i32 (r' + f))) (fun y x => (intResult r 1 (some ref) fb y x).getD 0) hTab (by
      intro d' y x hy hx he
      obtain ⟨v, e1, u, e2, e3⟩ := key d' y x hy hx he
      rw [e1, Res.bind_ok, e2, Res.bind_ok, e3]
      rfl)
  refine ⟨m', by rw [e, Res.bind_ok], hm', ?_⟩
  intro y x
  rw [hs y x]
  split
  · rename_i hw
    obtain ⟨w1, w2, w3, w4⟩ := hw
    obtain ⟨v, _, u, _, e3⟩ := key cb.ints (y - sy) (x - sx) (by omega) (by omega) rfl
    rw [show sy + (y - sy) = y by omega, show sx + (x - sx) = x by omega] at e3
    rw [e3]
    rfl
  · rfl

theorem floatResult_congr (I : BlendImpl) {d : Nat} {r : Rectangle} {mode : Nat} {clamp isAlpha : Bool} {ref ref' fb fb' : ImageBuffer}
    {al al' : Option (Nat × ImageBuffer × ImageBuffer × Bool)} (h1 : ∀ y x, value d ref' y x = value d ref y x) (h2 : ∀ y x, value d fb' y x = value d fb y x)
    (h3 : al = none ∧ al' = none ∨ mode ≠ 2 ∧ mode ≠ 3 ∨ ∃ dd o n o' n' p, al = some (dd, o, n, p) ∧ al' = some (dd, o', n', p) ∧
      (∀ y x, value dd o' y x = value dd o y x) ∧ ∀ y x, value dd n' y x = value dd n y x) (y x : Nat) :
    floatResult I d r mode clamp isAlpha (some ref') al' fb' y x = floatResult I d r mode clamp isAlpha (some ref) al fb y x := by
  have p1 : ∀ y x, px d ref' y x = px d ref y x := fun y x => by unfold px; rw [h1]
  have p2 : ∀ y x, px d fb' y x = px d fb y x := fun y x => by unfold px; rw [h2]
  unfold floatResult
  dsimp only
  rw [p1, p2]
  rcases h3 with ⟨rfl, rfl⟩ | ⟨h3, h4⟩ | ⟨dd, o, n, o', n', p, rfl, rfl, e1, e2⟩
  · rfl
  · unfold composite
    split <;> first | rfl | (exact absurd rfl h3) | (exact absurd rfl h4)
  · have p3 : ∀ y x, px dd o' y x = px dd o y x := fun y x => by unfold px; rw [e1]
    have p4 : ∀ y x, px dd n' y x = px dd n y x := fun y x => by unfold px; rw [e2]
    simp only [Option.map_some, p3, p4]

end Jxl
