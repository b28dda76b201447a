import Verif.Proofs.ColourSpaces
import Verif.Proofs.Output
import Verif.Proofs.PNGSize

/-!
# C77, C78: colour conversion
-/
namespace Jxl

/-! ## C77 -/

/-- C77: inverting XYB computes, at every pixel and from that pixel alone, the colour of the format: sensor values by cubing, the matrix of the header, the
intensity target. -/
theorem C77_formula {H W : Nat} {o : Opsin ℝ} {M : Matrix (Fin 3) (Fin 3) ℝ} {bias : Fin 3 → ℝ} (ho : IsOpsin o M bias) (target : ℝ)
    {v : Nat → Nat → Fin 3 → ℝ} {s : RGBPlanes ℝ} (hs : ShowsImage H W v s) :
    ∃ s', invertXYB o target s = .ok s' ∧ ShowsImage H W (fun y x => (255 / target) • M.mulVec (sensorOf bias (v y x))) s' := by
  obtain ⟨hm, hb, hc⟩ := ho
  have ek := xyb_of (t := target) hm.entries (show o.bias = [bias 0, bias 1, bias 2] from hb)
    (show o.cbrtBias = [signedCbrt (bias 0), signedCbrt (bias 1), signedCbrt (bias 2)] from hc)
  obtain ⟨s', e, r⟩ := rows_loop (xyb_pixel_step ⟨(Arith.lit 255 : ℝ) / target, (bias 0, bias 1, bias 2),
    (signedCbrt (bias 0), signedCbrt (bias 1), signedCbrt (bias 2)), (M 0 0, M 0 1, M 0 2), (M 1 0, M 1 1, M 1 2), (M 2 0, M 2 1, M 2 2)⟩ H W) hs
  refine ⟨s', ?_, r.congr fun y x _ _ => ?_⟩
  · unfold invertXYB
    rw [ek, Res.bind_ok]
    exact e
  · funext i
    simp only [Pi.smul_apply, smul_eq_mul, Matrix.mulVec, dotProduct, Fin.sum_univ_three, sensorOf, XYB.pixel, XYB.channel, XYB.mix, real_lit,
      Matrix.cons_val_zero, Matrix.cons_val_one, Matrix.cons_val]
    match i with
    | 0 => simp only [Fin.isValue, Matrix.cons_val_zero]; push_cast; ring
    | 1 => simp only [Fin.isValue, Matrix.cons_val_one, Matrix.cons_val_zero]; push_cast; ring
    | 2 => simp only [Fin.isValue, Matrix.cons_val]; push_cast; ring

/-- C77: inverting XYB undoes what an encoder does, for every matrix that can be inverted, every bias, intensity target and image of any size (in exact
arithmetic). -/
theorem C77_xyb {H W : Nat} {o : Opsin ℝ} {M : Matrix (Fin 3) (Fin 3) ℝ} {bias : Fin 3 → ℝ} (ho : IsOpsin o M bias) (hM : M.det ≠ 0) {target : ℝ} (ht : target ≠ 0)
    {rgb : Nat → Nat → Fin 3 → ℝ} {s : RGBPlanes ℝ} (hs : ShowsImage H W (fun y x => toXYB M bias target (rgb y x)) s) :
    ∃ s', invertXYB o target s = .ok s' ∧ ShowsImage H W rgb s' := by
  obtain ⟨s', e, r⟩ := C77_formula ho target hs
  refine ⟨s', e, r.congr fun y x _ _ => ?_⟩
  have hu : IsUnit M.det := isUnit_iff_ne_zero.2 hM
  have e1 : sensorOf bias (toXYB M bias target (rgb y x)) = (M⁻¹).mulVec (fun i => rgb y x i * (target / 255)) := by
    have h : ∀ a b : ℝ, (signedCbrt (a - b) + signedCbrt b - signedCbrt b) ^ 3 + b = a := by
      intro a b
      rw [add_sub_cancel_right, signedCbrt_cube]
      ring
    funext i
    simp only [sensorOf, toXYB, Matrix.cons_val_zero, Matrix.cons_val_one, Matrix.cons_val]
    match i with
    | 0 =>
      simp only [Fin.isValue, Matrix.cons_val_zero]
      rw [show ∀ p q : ℝ, (p + q) / 2 + (p - q) / 2 = p by intros; ring, h]
    | 1 =>
      simp only [Fin.isValue, Matrix.cons_val_one, Matrix.cons_val_zero]
      rw [show ∀ p q : ℝ, (p + q) / 2 - (p - q) / 2 = q by intros; ring, h]
    | 2 =>
      simp only [Fin.isValue, Matrix.cons_val]
      rw [h]
  rw [e1, Matrix.mulVec_mulVec, Matrix.mul_nonsing_inv _ hu, Matrix.one_mulVec]
  funext i
  simp only [Pi.smul_apply, smul_eq_mul]
  field_simp

/-- The matrix of the example. -/
noncomputable def exampleOpsin : Opsin ℝ :=
  ⟨[[11, -9, 0], [-3, 4, 0], [0, 0, 2]], [-1, -1, 8], [signedCbrt (-1), signedCbrt (-1), signedCbrt 8], ⟨⟨0, 1⟩, ⟨0, 1⟩, ⟨0, 1⟩⟩, ⟨0, 1⟩⟩

/-- A matrix, a bias and an image of one pixel that meet the hypotheses. -/
example : IsOpsin exampleOpsin !![11, -9, 0; -3, 4, 0; 0, 0, 2] ![-1, -1, 8] ∧ (!![11, -9, 0; -3, 4, 0; 0, 0, 2] : Matrix (Fin 3) (Fin 3) ℝ).det ≠ 0 ∧
    ∀ v : Fin 3 → ℝ, ShowsImage 1 1 (fun _ _ => v) ⟨[[v 0]], [[v 1]], [[v 2]]⟩ := by
  refine ⟨⟨rfl, rfl, rfl⟩, ?_, fun v => ?_⟩
  · rw [Matrix.det_fin_three]
    simp only [Matrix.of_apply, Matrix.cons_val', Matrix.cons_val_zero, Matrix.cons_val_one, Matrix.cons_val, Matrix.cons_val_fin_one]
    norm_num
  refine ⟨⟨⟨rfl, by simp⟩, ⟨rfl, by simp⟩, ⟨rfl, by simp⟩⟩, fun y x hy hx => ?_⟩
  obtain rfl : y = 0 := by omega
  obtain rfl : x = 0 := by omega
  exact ⟨rfl, rfl, rfl⟩

/-- C77: the YCbCr transform undoes that of JPEG up to 10⁻¹⁹ (the constants of the code are rounded), for every pixel of the frame and every image; pixels of
the buffers outside of the frame are left alone. -/
theorem C77_ycbcr {H W : Nat} {d : Dim} (hh : d.height ≤ H) (hw : d.width ≤ W) {rgb : Nat → Nat → Fin 3 → ℝ}
    (hr : ∀ y x i, 0 ≤ rgb y x i ∧ rgb y x i ≤ 1) {s : RGBPlanes ℝ} (hs : ShowsImage H W (fun y x => toYCbCr (rgb y x)) s) (target : ℝ) :
    ∃ s' out, transformPlanes none target true (.ok d) s = .ok s' ∧ ShowsImage H W out s' ∧
      (∀ y x i, y < d.height → x < d.width → |out y x i - rgb y x i| ≤ 1 / 10 ^ 19) ∧
      ∀ y x, ¬ (y < d.height ∧ x < d.width) → out y x = toYCbCr (rgb y x) := by
  obtain ⟨s', e, r⟩ := rect_loop (ycbcr_pixel_step H W) hs hh hw
  refine ⟨s', _, e, r, fun y x i hy hx => ?_, fun y x h => if_neg h⟩
  rw [if_pos ⟨hy, hx⟩]
  obtain ⟨a0, b0⟩ := hr y x 0
  obtain ⟨a1, b1⟩ := hr y x 1
  obtain ⟨a2, b2⟩ := hr y x 2
  simp only [ycbcrPixel, toYCbCr, real_lit, Matrix.cons_val_zero, Matrix.cons_val_one, Matrix.cons_val]
  push_cast
  rw [abs_le]
  match i with
  | 0 => simp only [Fin.isValue, Matrix.cons_val_zero]; constructor <;> ring_nf <;> linarith
  | 1 => simp only [Fin.isValue, Matrix.cons_val_one, Matrix.cons_val_zero]; constructor <;> ring_nf <;> linarith
  | 2 => simp only [Fin.isValue, Matrix.cons_val]; constructor <;> ring_nf <;> linarith

/-- Any image in the range meets the hypotheses, for instance a coloured pixel. -/
example : ∃ (rgb : Nat → Nat → Fin 3 → ℝ) (s : RGBPlanes ℝ), (∀ y x i, 0 ≤ rgb y x i ∧ rgb y x i ≤ 1) ∧ ShowsImage 1 1 (fun y x => toYCbCr (rgb y x)) s := by
  refine ⟨fun _ _ => ![1, 1 / 2, 0], ⟨[[toYCbCr ![1, 1 / 2, 0] 0]], [[toYCbCr ![1, 1 / 2, 0] 1]], [[toYCbCr ![1, 1 / 2, 0] 2]]⟩, ?_, ⟨⟨rfl, by simp⟩, ⟨rfl, by simp⟩, ⟨rfl, by simp⟩⟩, ?_⟩
  · intro y x i
    match i with
    | 0 => norm_num
    | 1 => norm_num
    | 2 => exact ⟨le_refl _, zero_le_one⟩
  · intro y x hy hx
    obtain rfl : y = 0 := by omega
    obtain rfl : x = 0 := by omega
    exact ⟨rfl, rfl, rfl⟩

/-- C77: colour transforms of a frame whose three buffers have the same size, larger than the frame: they succeed, whatever the numbers are, the three buffers
are float buffers of the same size afterwards, and all other channels are untouched. Without a transform nothing happens at all. -/
theorem C77_frame {H W depth : Nat} {b0 b1 b2 : ImageBuffer} {rest : List ImageBuffer} (h0 : b0.Picture H W) (h1 : b1.Picture H W) (h2 : b2.Picture H W)
    (hd : 1 ≤ depth ∧ depth ≤ 31) (matrix : Option (Opsin F32)) (hm : ∀ o, matrix = some o → Is3 o.matrix ∧ o.bias.length = 3 ∧ o.cbrtBias.length = 3) (target : F32)
    (ycbcr : Bool) {d : Dim} (hh : d.height ≤ H) (hw : d.width ≤ W) :
    (matrix = none → ycbcr = false → performColourTransforms matrix target depth ycbcr (.ok d) (b0 :: b1 :: b2 :: rest) = .ok (b0 :: b1 :: b2 :: rest)) ∧
    (matrix ≠ none ∨ ycbcr = true → ∃ c0 c1 c2, performColourTransforms matrix target depth ycbcr (.ok d) (b0 :: b1 :: b2 :: rest) = .ok (c0 :: c1 :: c2 :: rest) ∧
      c0.FloatPicture H W ∧ c1.FloatPicture H W ∧ c2.FloatPicture H W) := by
  constructor
  · rintro rfl rfl
    rfl
  · intro hc
    have cast : ∀ (b : ImageBuffer), b.Picture H W → ∃ c, c.FloatPicture H W ∧
        ∀ (l : List ImageBuffer) (i : Nat), l[i]? = some b → (do
          let b ← idx l (i : Int)
          if b.isInt then do
            let b ← castToFloatIfMax b (mask32 depth)
            setAt l (i : Int) b
          else .ok l : Res (List ImageBuffer)) = .ok (l.set i c) := by
      intro b hb
      obtain ⟨c, e, hf, e1, -⟩ := cast_channel hb (d := depth) (fun _ => hd)
      refine ⟨c, hf, fun l i hi => ?_⟩
      rw [idx_nat hi, Res.bind_ok]
      have hl : i < l.length := (List.getElem?_eq_some_iff.1 hi).1
      by_cases ht : b.isInt = true
      · rw [if_pos ht, e, Res.bind_ok]
        unfold setAt
        rw [if_neg (by omega), if_pos (by simpa using hl), Int.toNat_natCast]
      · rw [if_neg ht]
        have : b.bufferType = 1 := by
          rcases hb with hb | hb
          · exact absurd (by unfold ImageBuffer.isInt; rw [hb.1]; rfl) ht
          · exact hb.1
        rw [e1 this]
        obtain ⟨hl', ev⟩ := List.getElem?_eq_some_iff.1 hi
        rw [← ev, List.set_getElem_self]
    obtain ⟨c0, f0, g0⟩ := cast b0 h0
    obtain ⟨c1, f1, g1⟩ := cast b1 h1
    obtain ⟨c2, f2, g2⟩ := cast b2 h2
    have ec : castColours depth (b0 :: b1 :: b2 :: rest) = .ok (c0 :: c1 :: c2 :: rest) := by
      unfold castColours forFrom
      rw [g0 (b0 :: b1 :: b2 :: rest) 0 rfl, Res.bind_ok, forFrom]
      rw [show 0 + 1 = 1 from rfl, g1 _ 1 rfl, Res.bind_ok, forFrom, show 1 + 1 = 2 from rfl, g2 _ 2 rfl, Res.bind_ok, forFrom]
      rfl
    have full : ∀ {m : List (List F32)}, Table H W m → ∃ f : Nat → Nat → F32, HoldsMat H W f m := by
      intro m t
      refine ⟨fun y x => (sample m y x).getD (.fin 0), t, fun y x hy hx => ?_⟩
      obtain ⟨v, hv⟩ := t.sample hy hx
      show sample m y x = some ((sample m y x).getD (.fin 0))
      rw [hv]
      rfl
    obtain ⟨v0, k0⟩ := full f0.2.2.2
    obtain ⟨v1, k1⟩ := full f1.2.2.2
    obtain ⟨v2, k2⟩ := full f2.2.2.2
    have hs : ShowsImage H W (fun y x => ![v0 y x, v1 y x, v2 y x]) ⟨c0.floats, c1.floats, c2.floats⟩ := .of_planes ⟨k0, k1, k2⟩
    have step1 : ∃ s' g, invertIf matrix target ⟨c0.floats, c1.floats, c2.floats⟩ = .ok s' ∧ ShowsImage H W g s' := by
      cases matrix with
      | none => exact ⟨_, _, rfl, hs⟩
      | some o =>
        obtain ⟨⟨a, b, c, d, e, f, g, h, i, em⟩, lb, lc⟩ := hm o rfl
        obtain ⟨x0, x1, x2, eb⟩ := List.length_eq_three.1 lb
        obtain ⟨y0, y1, y2, ec⟩ := List.length_eq_three.1 lc
        obtain ⟨s', e', r⟩ := rows_loop (xyb_pixel_step ⟨(Arith.lit 255 : F32) / target, (x0, x1, x2), (y0, y1, y2), (a, b, c), (d, e, f), (g, h, i)⟩ H W) hs
        refine ⟨s', _, ?_, r⟩
        unfold invertIf invertXYB
        dsimp only
        rw [xyb_of em eb ec, Res.bind_ok]
        exact e'
    obtain ⟨s1, g, e1, r1⟩ := step1
    have step2 : ∃ s' g, transformPlanes matrix target ycbcr (.ok d) ⟨c0.floats, c1.floats, c2.floats⟩ = .ok s' ∧ ShowsImage H W g s' := by
      unfold transformPlanes
      rw [e1, Res.bind_ok]
      cases ycbcr with
      | false => exact ⟨s1, g, rfl, r1⟩
      | true =>
        obtain ⟨s', e, r⟩ := rect_loop (ycbcr_pixel_step H W) r1 hh hw
        exact ⟨s', _, e, r⟩
    obtain ⟨s2, g2', e2, r2⟩ := step2
    refine ⟨{ c0 with floats := s2.p0 }, { c1 with floats := s2.p1 }, { c2 with floats := s2.p2 }, ?_, ⟨f0.1, f0.2.1, f0.2.2.1, r2.1.1⟩, ⟨f1.1, f1.2.1, f1.2.2.1, r2.1.2.1⟩,
      ⟨f2.1, f2.2.1, f2.2.2.1, r2.1.2.2⟩⟩
    unfold performColourTransforms
    have c : ¬ ((matrix.isNone && !ycbcr) = true) := by
      rcases hc with hc | hc
      · cases matrix with
        | none => exact absurd rfl hc
        | some o => simp
      · rw [hc]
        simp
    rw [if_neg c, ec, Res.bind_ok]
    show (do
      let s ← transformPlanes matrix target ycbcr (.ok d) ⟨c0.floats, c1.floats, c2.floats⟩
      let l ← setAt (c0 :: c1 :: c2 :: rest) 0 { c0 with floats := s.p0 }
      let l ← setAt l 1 { c1 with floats := s.p1 }
      setAt l 2 { c2 with floats := s.p2 } : Res (List ImageBuffer)) = _
    rw [e2, Res.bind_ok]
    rfl

/-- C77: a frame of a grayscale image that is not VarDCT has one colour buffer. If its header asks for the YCbCr transform, the program crashes; it is not
reported as an error. -/
theorem C77_gray_panics {H W depth : Nat} {b : ImageBuffer} (h : b.Picture H W) (hd : 1 ≤ depth ∧ depth ≤ 31) (target : F32) (size : Res Dim) :
    performColourTransforms none target depth true size [b] = .panic := by
  obtain ⟨c, e, -, -, -⟩ := cast_channel h (d := depth) (fun _ => hd)
  have : castColours depth [b] = .panic := by
    unfold castColours forFrom
    have e0 : idx [b] ((0 : Nat) : Int) = .ok b := rfl
    rw [e0, Res.bind_ok]
    by_cases ht : b.isInt = true
    · rw [if_pos ht, e, Res.bind_ok]
      rfl
    · rw [if_neg ht]
      rfl
  unfold performColourTransforms
  rw [if_neg (by decide), this]
  rfl

/-! ## C78 -/

/-- C78: the matrix computed for a colour space is the one of its definition: pure red, green and blue have the chromaticities of the primaries and equal parts
are white. There is only one such matrix. -/
theorem C78_primaries {p : Primaries ℝ} {w : XY ℝ} (hw : w.Allowed) (hp : ∀ j, (p.get j).Allowed) (hs : p.Span) :
    ∃ m M, primariesToXYZ p w = .ok (some m) ∧ IsMatrix m M ∧ IsRGBToXYZ p w M ∧ ∀ N, IsRGBToXYZ p w N → N = M := by
  obtain ⟨m, e, h⟩ := primariesToXYZ_ok hw hp hs
  exact ⟨m, _, e, h, rgbToXYZ_columns hs, fun N hN => rgbToXYZ_unique hs hN (rgbToXYZ_columns hs)⟩

/-- C78: the conversion between two colour spaces. Let `T` and `C` convert the target space and the current space to XYZ. If the white points are the same (up
to 10⁻⁴) the conversion keeps the XYZ colour; otherwise the XYZ colour is adapted by Bradford's method. If everything is the same nothing is converted. -/
theorem C78_conversion {tp cp : Primaries ℝ} {tw cw : XY ℝ} (htw : tw.Allowed) (hcw : cw.Allowed) (htp : ∀ j, (tp.get j).Allowed) (hcp : ∀ j, (cp.get j).Allowed)
    (hts : tp.Span) (hcs : cp.Span) {T C : Matrix (Fin 3) (Fin 3) ℝ} (hT : IsRGBToXYZ tp tw T) (hC : IsRGBToXYZ cp cw C) (hd : T.det ≠ 0)
    (hl : ∀ i, 1 / 100000000 ≤ |bradfordMatrix.mulVec (xyzOf cw) i|) :
    ∃ m K, conversionMatrix tp tw cp cw = .ok (some m) ∧ IsMatrix m K ∧
      (if |tw.x - cw.x| + |tw.y - cw.y| < 1 / 10000 then
        if ∀ j, |(tp.get j).x - (cp.get j).x| + |(tp.get j).y - (cp.get j).y| < 1 / 10000 then K = 1 else T * K = C
      else ∃ A, IsBradford tw cw A ∧ T * K = A * C) := by
  have hu : IsUnit T.det := isUnit_iff_ne_zero.2 hd
  have pn : tp.near cp = true ↔ ∀ j, |(tp.get j).x - (cp.get j).x| + |(tp.get j).y - (cp.get j).y| < 1 / 10000 := by
    unfold Primaries.near
    simp only [Bool.and_eq_true, near_iff]
    constructor
    · rintro ⟨⟨a, b⟩, c⟩ j
      match j with
      | 0 => exact a
      | 1 => exact b
      | 2 => exact c
    · intro h
      exact ⟨⟨h 0, h 1⟩, h 2⟩
  by_cases hn : tp.near cp = true ∧ tw.near cw = true
  · refine ⟨_, 1, ?_, identity_isMatrix, ?_⟩
    · unfold conversionMatrix
      rw [if_pos (by simpa using hn)]
    · rw [if_pos ((near_iff tw cw).1 hn.2), if_pos (pn.1 hn.1)]
  · obtain ⟨f, ef, hf⟩ := primariesToXYZ_ok hcw hcp hcs
    obtain ⟨t, et, ht⟩ := primariesToXYZ_ok htw htp hts
    rw [rgbToXYZ_unique hcs (rgbToXYZ_columns hcs) hC] at hf
    rw [rgbToXYZ_unique hts (rgbToXYZ_columns hts) hT] at ht
    obtain ⟨r, er, hr⟩ := invert_isMatrix ht hd
    obtain ⟨m, e, hm⟩ := product htw hcw hl hn ef hf et er (.inr ⟨r, rfl, hr⟩)
    refine ⟨m, _, e, hm, ?_⟩
    have key : ∀ X : Matrix (Fin 3) (Fin 3) ℝ, T * (T⁻¹ * X) = X := fun X => by rw [← Matrix.mul_assoc, Matrix.mul_nonsing_inv _ hu, Matrix.one_mul]
    by_cases c : tw.near cw = true
    · rw [if_pos ((near_iff tw cw).1 c), if_neg (fun h => hn ⟨pn.2 h, c⟩), if_pos c, Matrix.one_mul, key]
    · rw [if_neg (fun h => c ((near_iff tw cw).2 h)), if_neg c]
      refine ⟨adaptation tw cw, isBradford_adaptation fun i h => ?_, key _⟩
      have := hl i
      rw [show bradfordMatrix.mulVec (xyzOf cw) i = 0 from h, abs_zero] at this
      norm_num at this

/-- C78: white stays white, exactly, whenever the white points are equal or are adapted. -/
theorem C78_white {tp cp : Primaries ℝ} {tw cw : XY ℝ} (htw : tw.Allowed) (hcw : cw.Allowed) (htp : ∀ j, (tp.get j).Allowed) (hcp : ∀ j, (cp.get j).Allowed)
    (hts : tp.Span) (hcs : cp.Span) {T : Matrix (Fin 3) (Fin 3) ℝ} (hT : IsRGBToXYZ tp tw T) (hd : T.det ≠ 0)
    (hl : ∀ i, 1 / 100000000 ≤ |bradfordMatrix.mulVec (xyzOf cw) i|) (hw : tw = cw ∨ 1 / 10000 ≤ |tw.x - cw.x| + |tw.y - cw.y|) :
    ∃ (m : List (List ℝ)) (K : Matrix (Fin 3) (Fin 3) ℝ), conversionMatrix tp tw cp cw = .ok (some m) ∧ IsMatrix m K ∧ K.mulVec 1 = 1 := by
  obtain ⟨_, C, -, -, hC, -⟩ := C78_primaries hcw hcp hcs
  obtain ⟨m, K, e, hm, h⟩ := C78_conversion htw hcw htp hcp hts hcs hT hC hd hl
  have hu : IsUnit T.det := isUnit_iff_ne_zero.2 hd
  refine ⟨m, K, e, hm, ?_⟩
  have key : T.mulVec (K.mulVec 1) = xyzOf tw → K.mulVec 1 = 1 := by
    intro h
    rw [← hT.2] at h
    have := congrArg (T⁻¹.mulVec) h
    have l : ∀ v : Fin 3 → ℝ, T⁻¹.mulVec (T.mulVec v) = v := fun v => by rw [Matrix.mulVec_mulVec, Matrix.nonsing_inv_mul _ hu, Matrix.one_mulVec]
    rwa [l, l] at this
  rcases hw with rfl | hw
  · rw [if_pos (by simp)] at h
    split at h
    · rw [h, Matrix.one_mulVec]
    · refine key ?_
      rw [Matrix.mulVec_mulVec, h, hC.2]
  · rw [if_neg (by linarith)] at h
    obtain ⟨A, hA, h⟩ := h
    refine key ?_
    rw [Matrix.mulVec_mulVec, h, ← Matrix.mulVec_mulVec, hC.2, hA.2]

/-- C78: colours that are not allowed are an error, unless they are what the image has anyway (up to 10⁻⁴). -/
theorem C78_rejects {tp cp : Primaries ℝ} {tw cw : XY ℝ} (hb : ¬ ((tw.Allowed ∧ ∀ j, (tp.get j).Allowed) ∧ cw.Allowed ∧ ∀ j, (cp.get j).Allowed))
    (hn : ¬ (tp.near cp = true ∧ tw.near cw = true)) : conversionMatrix tp tw cp cw = .err := by
  rcases conversion_shape tp tw cp cw with ⟨m, e, -⟩ | e
  · exfalso
    unfold conversionMatrix at e
    rw [if_neg (by simpa using hn)] at e
    obtain ⟨w, -, e⟩ := Res.of_bind e
    obtain ⟨f, ef, e⟩ := Res.of_bind e
    obtain ⟨t, et, e⟩ := Res.of_bind e
    refine hb ⟨?_, ?_⟩
    · by_contra h
      rw [primariesToXYZ_err h] at et
      cases et
    · by_contra h
      rw [primariesToXYZ_err h] at ef
      cases ef
  · exact e

/-- C78: in any arithmetic, `float32` included, the computation of the matrices never crashes, and what it returns has three rows and columns. -/
theorem C78_no_panic {α : Type} [Arith α] (tp : Primaries α) (tw : XY α) (cp : Primaries α) (cw : XY α) :
    (∃ m, conversionMatrix tp tw cp cw = .ok (some m) ∧ m.length = 3 ∧ ∀ r ∈ m, r.length = 3) ∨ conversionMatrix tp tw cp cw = .err := by
  rcases conversion_shape tp tw cp cw with ⟨m, e, a, b, c, d, e', f, g, h, i, rfl⟩ | e
  · exact .inl ⟨_, e, rfl, by simp⟩
  · exact .inr e

/-- C78: the matrix used for a frame is that of the header followed by the conversion to the colours of the image; biases are kept. -/
theorem C78_header {o : Opsin ℝ} {M : Matrix (Fin 3) (Fin 3) ℝ} {bias : Fin 3 → ℝ} (ho : IsOpsin o M bias) (prim : Primaries ℝ) (white : XY ℝ) {m : List (List ℝ)}
    {K : Matrix (Fin 3) (Fin 3) ℝ} (e : conversionMatrix prim white o.prim o.white = .ok (some m)) (hm : IsMatrix m K) :
    ∃ o', o.forColours signedCbrt prim white = .ok o' ∧ IsOpsin o' (K * M) bias := by
  obtain ⟨hM, hb, hc⟩ := ho
  obtain ⟨p, ep, hp⟩ := mul_isMatrix hm hM
  refine ⟨⟨p, o.bias, [signedCbrt (bias 0), signedCbrt (bias 1), signedCbrt (bias 2)], prim, white⟩, ?_, hp, hb, rfl⟩
  unfold Opsin.forColours
  rw [e, Res.bind_ok, matrixMultiply, ep, Res.bind_ok, matrixMultiply, Res.bind_ok]
  dsimp only
  unfold Opsin.bake
  rw [show o.bias = [bias 0, bias 1, bias 2] from hb]
  rfl

/-- C78, a shortcoming: target primaries that lie on a line do not define a colour space, yet they are accepted. The matrix that is used then converts to XYZ,
not to the colours of the image. -/
theorem C78_degenerate {tp cp : Primaries ℝ} {tw cw : XY ℝ} (htw : tw.Allowed) (hcw : cw.Allowed) (htp : ∀ j, (tp.get j).Allowed) (hcp : ∀ j, (cp.get j).Allowed)
    (hts : ¬ tp.Span) (hcs : cp.Span) (hw : tw = cw) (hn : ¬ tp.near cp = true) (hl : ∀ i, 1 / 100000000 ≤ |bradfordMatrix.mulVec (xyzOf cw) i|) :
    ∃ m C, conversionMatrix tp tw cp cw = .ok (some m) ∧ IsMatrix m C ∧ IsRGBToXYZ cp cw C := by
  obtain ⟨f, ef, hf⟩ := primariesToXYZ_ok hcw hcp hcs
  have h0 : (columns tp).det = 0 := by
    by_contra h
    exact hts h
  obtain ⟨m, hm⟩ := columns_isMatrix tp
  obtain ⟨t, et, ht⟩ := primariesToXYZ_step (v := xyzOf tw) htw htp hm (invert_singular hm h0) rfl
  have h1 : (columns tp * Matrix.diagonal (xyzOf tw)).det = 0 := by rw [Matrix.det_mul, h0, zero_mul]
  obtain ⟨k, e, hk⟩ := product htw hcw hl (fun h => hn h.1) ef hf et (invert_singular ht h1) (.inl ⟨rfl, rfl⟩)
  refine ⟨k, _, e, ?_, rgbToXYZ_columns hcs⟩
  have : tw.near cw = true := by
    rw [hw, near_iff]
    simp
  rwa [Matrix.one_mul, if_pos this, Matrix.one_mul] at hk

/-- The colours of sRGB. -/
noncomputable def exampleSRGB : Primaries ℝ := ⟨⟨0.64, 0.33⟩, ⟨0.3, 0.6⟩, ⟨0.15, 0.06⟩⟩
/-- The colours of P3. -/
noncomputable def exampleP3 : Primaries ℝ := ⟨⟨0.68, 0.32⟩, ⟨0.265, 0.69⟩, ⟨0.15, 0.06⟩⟩
/-- Three times the same colour. -/
noncomputable def exampleLine : Primaries ℝ := ⟨⟨0.3, 0.3⟩, ⟨0.3, 0.3⟩, ⟨0.3, 0.3⟩⟩

/-- The hypotheses are met by sRGB, P3 and their white point, which are different spaces; and a degenerate target exists. -/
example : (∀ j, (exampleSRGB.get j).Allowed) ∧ (∀ j, (exampleP3.get j).Allowed) ∧ (⟨0.3127, 0.329⟩ : XY ℝ).Allowed ∧ exampleSRGB.Span ∧ exampleP3.Span ∧
    (∀ i, 1 / 100000000 ≤ |bradfordMatrix.mulVec (xyzOf ⟨0.3127, 0.329⟩) i|) ∧
    (∃ T, IsRGBToXYZ exampleP3 ⟨0.3127, 0.329⟩ T ∧ T.det ≠ 0) ∧ (∀ j, (exampleLine.get j).Allowed) ∧ ¬ exampleLine.Span ∧ ¬ exampleLine.near exampleSRGB = true := by
  have sp : exampleP3.Span := by
    unfold Primaries.Span
    rw [Matrix.det_fin_three]
    simp only [exampleP3, Primaries.get, xyzOf, Matrix.of_apply, Matrix.cons_val_zero, Matrix.cons_val_one, Matrix.cons_val]
    norm_num
  refine ⟨?_, ?_, ?_, ?_, sp, ?_, ⟨Matrix.of fun i j => (![35783 / 156275, 247089 / 357200, 198249 / 2500400] : Fin 3 → ℝ) j * xyzOf (exampleP3.get j) i, ⟨⟨_, fun i j => rfl⟩, ?_⟩, ?_⟩, ?_, ?_, ?_⟩
  · intro j
    match j with
    | 0 => unfold XY.Allowed; simp only [exampleSRGB, Primaries.get, Matrix.cons_val_zero]; norm_num
    | 1 => unfold XY.Allowed; simp only [exampleSRGB, Primaries.get, Matrix.cons_val_one, Matrix.cons_val_zero]; norm_num
    | 2 => unfold XY.Allowed; simp only [exampleSRGB, Primaries.get, Matrix.cons_val]; norm_num
  · intro j
    match j with
    | 0 => unfold XY.Allowed; simp only [exampleP3, Primaries.get, Matrix.cons_val_zero]; norm_num
    | 1 => unfold XY.Allowed; simp only [exampleP3, Primaries.get, Matrix.cons_val_one, Matrix.cons_val_zero]; norm_num
    | 2 => unfold XY.Allowed; simp only [exampleP3, Primaries.get, Matrix.cons_val]; norm_num
  · unfold XY.Allowed; norm_num
  · unfold Primaries.Span
    rw [Matrix.det_fin_three]
    simp only [exampleSRGB, Primaries.get, xyzOf, Matrix.of_apply, Matrix.cons_val_zero, Matrix.cons_val_one, Matrix.cons_val]
    norm_num
  · intro i
    simp only [Matrix.mulVec, dotProduct, Fin.sum_univ_three, bradfordMatrix, xyzOf, Matrix.of_apply, Matrix.cons_val', Matrix.cons_val_zero, Matrix.cons_val_one,
      Matrix.cons_val, Matrix.cons_val_fin_one]
    match i with
    | 0 => simp only [Fin.isValue, Matrix.cons_val_zero]; rw [le_abs]; left; norm_num
    | 1 => simp only [Fin.isValue, Matrix.cons_val_one, Matrix.cons_val_zero]; rw [le_abs]; left; norm_num
    | 2 => simp only [Fin.isValue, Matrix.cons_val]; rw [le_abs]; left; norm_num
  · funext i
    simp only [Matrix.mulVec, dotProduct, Fin.sum_univ_three, exampleP3, Primaries.get, xyzOf, Matrix.of_apply, Matrix.cons_val_zero, Matrix.cons_val_one,
      Matrix.cons_val, Pi.one_apply]
    match i with
    | 0 => simp only [Fin.isValue, Matrix.cons_val_zero]; norm_num
    | 1 => simp only [Fin.isValue, Matrix.cons_val_one, Matrix.cons_val_zero]; norm_num
    | 2 => simp only [Fin.isValue, Matrix.cons_val]; norm_num
  · rw [Matrix.det_fin_three]
    simp only [exampleP3, Primaries.get, xyzOf, Matrix.of_apply, Matrix.cons_val_zero, Matrix.cons_val_one, Matrix.cons_val]
    norm_num
  · intro j
    match j with
    | 0 => unfold XY.Allowed; simp only [exampleLine, Primaries.get, Matrix.cons_val_zero]; norm_num
    | 1 => unfold XY.Allowed; simp only [exampleLine, Primaries.get, Matrix.cons_val_one, Matrix.cons_val_zero]; norm_num
    | 2 => unfold XY.Allowed; simp only [exampleLine, Primaries.get, Matrix.cons_val]; norm_num
  · unfold Primaries.Span
    rw [Matrix.det_fin_three]
    simp only [exampleLine, Primaries.get, xyzOf, Matrix.of_apply, Matrix.cons_val_zero, Matrix.cons_val_one, Matrix.cons_val]
    norm_num
  · unfold Primaries.near
    simp only [Bool.and_eq_true, near_iff]
    simp only [exampleLine, exampleSRGB]
    norm_num [abs_of_nonneg, abs_of_nonpos]

end Jxl
