import Verif.Spec.Colour
import Verif.Proofs.Cfl
import Verif.Proofs.LFCoefficients

/-!
# Lemmas about colour conversion
-/
namespace Jxl

section
variable {α : Type}

theorem ShowsImage.planes {H W : Nat} {f : Nat → Nat → Fin 3 → α} {s : RGBPlanes α} (h : ShowsImage H W f s) :
    HoldsMat H W (fun y x => f y x 0) s.p0 ∧ HoldsMat H W (fun y x => f y x 1) s.p1 ∧ HoldsMat H W (fun y x => f y x 2) s.p2 :=
  ⟨⟨h.1.1, fun y x hy hx => (h.2 y x hy hx).1⟩, ⟨h.1.2.1, fun y x hy hx => (h.2 y x hy hx).2.1⟩, ⟨h.1.2.2, fun y x hy hx => (h.2 y x hy hx).2.2⟩⟩

theorem ShowsImage.of_planes {H W : Nat} {f : Nat → Nat → Fin 3 → α} {s : RGBPlanes α}
    (h : HoldsMat H W (fun y x => f y x 0) s.p0 ∧ HoldsMat H W (fun y x => f y x 1) s.p1 ∧ HoldsMat H W (fun y x => f y x 2) s.p2) : ShowsImage H W f s :=
  ⟨⟨h.1.1, h.2.1.1, h.2.2.1⟩, fun y x hy hx => ⟨h.1.2 y x hy hx, h.2.1.2 y x hy hx, h.2.2.2 y x hy hx⟩⟩

theorem ShowsImage.congr {H W : Nat} {f g : Nat → Nat → Fin 3 → α} {s : RGBPlanes α} (h : ShowsImage H W f s) (e : ∀ y x, y < H → x < W → f y x = g y x) :
    ShowsImage H W g s :=
  ⟨h.1, fun y x hy hx => by rw [← e y x hy hx]; exact h.2 y x hy hx⟩

/-- A step that changes one pixel. -/
def PixelStep (H W : Nat) (pix : (Fin 3 → α) → Fin 3 → α) (f : Nat → Nat → RGBPlanes α → Res (RGBPlanes α)) : Prop :=
  ∀ g y x s, y < H → x < W → ShowsImage H W g s → ∃ s', f y x s = .ok s' ∧ ShowsImage H W (fun j k => if j = y ∧ k = x then pix (g y x) else g j k) s'

theorem set3 {H W : Nat} {g : Nat → Nat → Fin 3 → α} {s : RGBPlanes α} (h : ShowsImage H W g s) {y x : Nat} (hy : y < H) (hx : x < W) (v : Fin 3 → α) :
    ∃ p0 p1 p2, set2 s.p0 (y : Int) (x : Int) (v 0) = .ok p0 ∧ set2 s.p1 (y : Int) (x : Int) (v 1) = .ok p1 ∧ set2 s.p2 (y : Int) (x : Int) (v 2) = .ok p2 ∧
      ShowsImage H W (fun j k => if j = y ∧ k = x then v else g j k) ⟨p0, p1, p2⟩ := by
  obtain ⟨h0, h1, h2⟩ := h.planes
  obtain ⟨p0, e0, r0⟩ := h0.set hy hx (v 0)
  obtain ⟨p1, e1, r1⟩ := h1.set hy hx (v 1)
  obtain ⟨p2, e2, r2⟩ := h2.set hy hx (v 2)
  refine ⟨p0, p1, p2, e0, e1, e2, .of_planes ⟨?_, ?_, ?_⟩⟩
  · exact r0.congr fun j k _ _ => by split <;> rfl
  · exact r1.congr fun j k _ _ => by split <;> rfl
  · exact r2.congr fun j k _ _ => by split <;> rfl

theorem rect_loop {H W : Nat} {pix : (Fin 3 → α) → Fin 3 → α} {f : Nat → Nat → RGBPlanes α → Res (RGBPlanes α)} (hf : PixelStep H W pix f)
    {old : Nat → Nat → Fin 3 → α} {s : RGBPlanes α} (h0 : ShowsImage H W old s) {nh nw : Nat} (hh : nh ≤ H) (hw : nw ≤ W) :
    ∃ s', forFrom (fun y s => forFrom (fun x s => f y x s) nw 0 s) nh 0 s = .ok s' ∧
      ShowsImage H W (fun y x => if y < nh ∧ x < nw then pix (old y x) else old y x) s' := by
  obtain ⟨s', e, r⟩ := cell_loop (f := f) (ShowsImage H W) (old := old) (new := fun y x => pix (old y x)) 0 0 nh nw s h0 (by
    intro g y x s hy hx hg hs
    obtain ⟨s', e, r⟩ := hf g y x s (by omega) (by omega) hs
    rw [hg] at r
    exact ⟨s', e, r⟩)
  refine ⟨s', e, r.congr fun y x _ _ => ?_⟩
  by_cases c : y < nh ∧ x < nw
  · rw [if_pos c, if_pos (by omega)]
  · rw [if_neg c, if_neg (by omega)]

theorem rows_loop {H W : Nat} {pix : (Fin 3 → α) → Fin 3 → α} {f : Nat → Nat → RGBPlanes α → Res (RGBPlanes α)} (hf : PixelStep H W pix f)
    {old : Nat → Nat → Fin 3 → α} {s : RGBPlanes α} (h0 : ShowsImage H W old s) :
    ∃ s', forFrom (fun y s => do
        let row0 ← idx s.p0 (y : Int)
        let _ ← idx s.p1 (y : Int)
        let _ ← idx s.p2 (y : Int)
        forFrom (fun x s => f y x s) row0.length 0 s) s.p0.length 0 s = .ok s' ∧ ShowsImage H W (fun y x => pix (old y x)) s' := by
  have hl : s.p0.length = H := h0.1.1.1
  obtain ⟨s', e, r⟩ := forFrom_inv (f := fun y (s : RGBPlanes α) => do
        let row0 ← idx s.p0 (y : Int)
        let _ ← idx s.p1 (y : Int)
        let _ ← idx s.p2 (y : Int)
        forFrom (fun x s => f y x s) row0.length 0 s)
    (fun y s => ShowsImage H W (fun j k => if j < y then pix (old j k) else old j k) s) s.p0.length 0 s (by
      exact h0.congr fun y x _ _ => (if_neg (by omega)).symm) (by
      intro y s _ hy hs
      rw [hl] at hy
      obtain ⟨p0, p1, p2⟩ := hs.planes
      obtain ⟨r0, e0, l0, -⟩ := p0.row (by omega : y < H)
      obtain ⟨r1, e1, -, -⟩ := p1.row (by omega : y < H)
      obtain ⟨r2, e2, -, -⟩ := p2.row (by omega : y < H)
      rw [e0, Res.bind_ok, e1, Res.bind_ok, e2, Res.bind_ok, l0]
      obtain ⟨s', e, r⟩ := forFrom_inv (f := fun x s => f y x s)
        (fun x s => ShowsImage H W (fun j k => if j < y ∨ j = y ∧ k < x then pix (old j k) else old j k) s) W 0 s (by
          refine hs.congr fun j k _ _ => ?_
          by_cases c : j < y
          · rw [if_pos c, if_pos (Or.inl c)]
          · rw [if_neg c, if_neg (by omega)]) (by
          intro x s _ hx hs
          obtain ⟨s', e, r⟩ := hf _ y x s (by omega) (by omega) hs
          refine ⟨s', e, r.congr fun j k _ _ => ?_⟩
          rw [if_neg (by omega : ¬ (y < y ∨ y = y ∧ x < x))]
          by_cases c : j = y ∧ k = x
          · rw [if_pos c, if_pos (by omega), c.1, c.2]
          · rw [if_neg c]
            by_cases d : j < y ∨ j = y ∧ k < x
            · rw [if_pos d, if_pos (by omega)]
            · rw [if_neg d, if_neg (by omega)])
      refine ⟨s', e, r.congr fun j k _ hk => ?_⟩
      by_cases c : j < y + 1
      · rw [if_pos c, if_pos (by omega)]
      · rw [if_neg c, if_neg (by omega)])
  refine ⟨s', e, r.congr fun y x hy _ => if_pos (by omega)⟩

end

section
variable {α : Type} [Arith α]

/-- One pixel of `InvertXYB`. -/
def XYB.pixel (k : XYB α) (v : Fin 3 → α) : Fin 3 → α :=
  ![k.channel k.m0 (k.mix (v 0) (v 1) (v 2)), k.channel k.m1 (k.mix (v 0) (v 1) (v 2)), k.channel k.m2 (k.mix (v 0) (v 1) (v 2))]

theorem xyb_pixel_step (k : XYB α) (H W : Nat) : PixelStep H W k.pixel k.step := by
  intro g y x s hy hx hs
  obtain ⟨h0, h1, h2⟩ := hs.planes
  obtain ⟨p0, p1, p2, e0, e1, e2, r⟩ := set3 hs hy hx (k.pixel (g y x))
  refine ⟨⟨p0, p1, p2⟩, ?_, r⟩
  unfold XYB.step
  rw [h0.at2 hy hx, Res.bind_ok, h1.at2 hy hx, Res.bind_ok, h2.at2 hy hx, Res.bind_ok]
  have e0' : set2 s.p0 (y : Int) (x : Int) (k.channel k.m0 (k.mix (g y x 0) (g y x 1) (g y x 2))) = .ok p0 := e0
  have e1' : set2 s.p1 (y : Int) (x : Int) (k.channel k.m1 (k.mix (g y x 0) (g y x 1) (g y x 2))) = .ok p1 := e1
  have e2' : set2 s.p2 (y : Int) (x : Int) (k.channel k.m2 (k.mix (g y x 0) (g y x 1) (g y x 2))) = .ok p2 := e2
  dsimp only
  rw [e0', Res.bind_ok, e1', Res.bind_ok, e2', Res.bind_ok]

/-- One pixel of the YCbCr transform. -/
def ycbcrPixel (v : Fin 3 → α) : Fin 3 → α :=
  ![v 1 + Arith.lit (50196078431372549019 / 100000000000000000000) + Arith.lit (1402 / 1000) * v 2,
    v 1 + Arith.lit (50196078431372549019 / 100000000000000000000) - Arith.lit (34413628620102214650 / 100000000000000000000) * v 0 -
      Arith.lit (71413628620102214650 / 100000000000000000000) * v 2,
    v 1 + Arith.lit (50196078431372549019 / 100000000000000000000) + Arith.lit (1772 / 1000) * v 0]

theorem ycbcr_pixel_step (H W : Nat) : PixelStep H W (ycbcrPixel (α := α)) ycbcrStep := by
  intro g y x s hy hx hs
  obtain ⟨h0, h1, h2⟩ := hs.planes
  obtain ⟨p0, p1, p2, e0, e1, e2, r⟩ := set3 hs hy hx (ycbcrPixel (g y x))
  refine ⟨⟨p0, p1, p2⟩, ?_, r⟩
  unfold ycbcrStep
  rw [h0.at2 hy hx, Res.bind_ok, h1.at2 hy hx, Res.bind_ok, h2.at2 hy hx, Res.bind_ok]
  simp only [ycbcrPixel, Matrix.cons_val_zero, Matrix.cons_val_one, Matrix.cons_val] at e0 e1 e2
  rw [e0, Res.bind_ok, e1, Res.bind_ok, e2, Res.bind_ok]

theorem xyb_of {o : Opsin α} {t c0 c1 c2 b0 b1 b2 a b c d e f g h i : α} (hm : o.matrix = [[a, b, c], [d, e, f], [g, h, i]]) (hb : o.bias = [b0, b1, b2])
    (hc : o.cbrtBias = [c0, c1, c2]) : o.xyb t = .ok ⟨Arith.lit 255 / t, (b0, b1, b2), (c0, c1, c2), (a, b, c), (d, e, f), (g, h, i)⟩ := by
  unfold Opsin.xyb
  rw [hm, hb, hc]
  rfl

end

theorem signedCbrt_cube (a : ℝ) : signedCbrt a ^ 3 = a := by
  unfold signedCbrt
  have h : ∀ b : ℝ, 0 ≤ b → (b ^ (1 / 3 : ℝ)) ^ 3 = b := by
    intro b hb
    rw [← Real.rpow_natCast, ← Real.rpow_mul hb]
    norm_num
  split
  · rename_i c
    have := h (-a) (by linarith)
    rw [Odd.neg_pow (by decide), this, neg_neg]
  · rename_i c
    exact h a (by linarith)

section
variable {α : Type} [Arith α]

theorem mulVec3 (a b c d e f g h i x y z : α) : matrixVectorMultiply (some [[a, b, c], [d, e, f], [g, h, i]]) [x, y, z] =
    .ok [Arith.lit 0 + a * x + b * y + c * z, Arith.lit 0 + d * x + e * y + f * z, Arith.lit 0 + g * x + h * y + i * z] := rfl

theorem mulMat3 (a b c d e f g h i a' b' c' d' e' f' g' h' i' : α) :
    matrixMatrixMultiply (some [[a, b, c], [d, e, f], [g, h, i]]) (some [[a', b', c'], [d', e', f'], [g', h', i']]) =
    .ok (some [[Arith.lit 0 + a * a' + b * d' + c * g', Arith.lit 0 + a * b' + b * e' + c * h', Arith.lit 0 + a * c' + b * f' + c * i'],
      [Arith.lit 0 + d * a' + e * d' + f * g', Arith.lit 0 + d * b' + e * e' + f * h', Arith.lit 0 + d * c' + e * f' + f * i'],
      [Arith.lit 0 + g * a' + h * d' + i * g', Arith.lit 0 + g * b' + h * e' + i * h', Arith.lit 0 + g * c' + h * f' + i * i']]) := rfl

theorem invert3 (a b c d e f g h i : α) : invertMatrix3x3 [[a, b, c], [d, e, f], [g, h, i]] =
    if !Arith.lt (det3 a b c d e f g h i) (Arith.lit 0) && !Arith.lt (Arith.lit 0) (det3 a b c d e f g h i) then .ok none
    else .ok (some [[(e * i - f * h) * (Arith.lit 1 / det3 a b c d e f g h i), (c * h - b * i) * (Arith.lit 1 / det3 a b c d e f g h i), (b * f - c * e) * (Arith.lit 1 / det3 a b c d e f g h i)],
      [(f * g - d * i) * (Arith.lit 1 / det3 a b c d e f g h i), (a * i - c * g) * (Arith.lit 1 / det3 a b c d e f g h i), (c * d - a * f) * (Arith.lit 1 / det3 a b c d e f g h i)],
      [(d * h - e * g) * (Arith.lit 1 / det3 a b c d e f g h i), (b * g - a * h) * (Arith.lit 1 / det3 a b c d e f g h i), (a * e - b * d) * (Arith.lit 1 / det3 a b c d e f g h i)]]) := rfl

end

theorem IsMatrix.entries {m : List (List ℝ)} {M : Matrix (Fin 3) (Fin 3) ℝ} (h : IsMatrix m M) :
    m = [[M 0 0, M 0 1, M 0 2], [M 1 0, M 1 1, M 1 2], [M 2 0, M 2 1, M 2 2]] := by
  rw [h]
  rfl

theorem isMatrix_of {m : List (List ℝ)} {M : Matrix (Fin 3) (Fin 3) ℝ}
    (h : m = [[M 0 0, M 0 1, M 0 2], [M 1 0, M 1 1, M 1 2], [M 2 0, M 2 1, M 2 2]]) : IsMatrix m M := h

theorem real_lit (q : ℚ) : (Arith.lit q : ℝ) = (q : ℝ) := rfl

theorem mul_isMatrix {l r : List (List ℝ)} {L R : Matrix (Fin 3) (Fin 3) ℝ} (hl : IsMatrix l L) (hr : IsMatrix r R) :
    ∃ m, matrixMatrixMultiply (some l) (some r) = .ok (some m) ∧ IsMatrix m (L * R) := by
  rw [hl.entries, hr.entries, mulMat3]
  refine ⟨_, rfl, isMatrix_of ?_⟩
  simp only [Matrix.mul_apply, Fin.sum_univ_three, real_lit, Rat.cast_zero, zero_add]

theorem mulVec_isMatrix {l : List (List ℝ)} {L : Matrix (Fin 3) (Fin 3) ℝ} (hl : IsMatrix l L) (v : Fin 3 → ℝ) :
    matrixVectorMultiply (some l) [v 0, v 1, v 2] = .ok [L.mulVec v 0, L.mulVec v 1, L.mulVec v 2] := by
  rw [hl.entries, mulVec3]
  simp only [Matrix.mulVec, dotProduct, Fin.sum_univ_three, real_lit, Rat.cast_zero, zero_add]

theorem det3_real (M : Matrix (Fin 3) (Fin 3) ℝ) :
    det3 (M 0 0) (M 0 1) (M 0 2) (M 1 0) (M 1 1) (M 1 2) (M 2 0) (M 2 1) (M 2 2) = M.det := by
  rw [Matrix.det_fin_three]
  unfold det3
  ring

theorem invert_isMatrix {m : List (List ℝ)} {M : Matrix (Fin 3) (Fin 3) ℝ} (h : IsMatrix m M) (hd : M.det ≠ 0) :
    ∃ k, invertMatrix3x3 m = .ok (some k) ∧ IsMatrix k M⁻¹ := by
  rw [h.entries, invert3, det3_real]
  have c : (!Arith.lt M.det (Arith.lit 0 : ℝ) && !Arith.lt (Arith.lit 0 : ℝ) M.det) = false := by
    rcases lt_or_gt_of_ne hd with c | c
    · have : Arith.lt M.det (Arith.lit 0 : ℝ) = true := by simpa [Arith.lt, real_lit] using c
      rw [this]
      rfl
    · have : Arith.lt (Arith.lit 0 : ℝ) M.det = true := by simpa [Arith.lt, real_lit] using c
      rw [this]
      exact Bool.and_false _
  rw [c, if_neg (by decide)]
  refine ⟨_, rfl, isMatrix_of ?_⟩
  rw [Matrix.inv_def, Ring.inverse_eq_inv', Matrix.adjugate_fin_three]
  simp only [Matrix.smul_apply, Matrix.of_apply, Matrix.cons_val', Matrix.cons_val_zero, Matrix.cons_val_one, Matrix.cons_val, Matrix.cons_val_fin_one,
    smul_eq_mul, real_lit, Rat.cast_one, one_div]
  congr 1
  · congr 1
    · ring
    · congr 1
      · ring
      · congr 1
        ring
  · congr 1
    · congr 1
      · ring
      · congr 1
        · ring
        · congr 1
          ring
    · congr 1
      congr 1
      · ring
      · congr 1
        · ring
        · congr 1
          ring

theorem invert_singular {m : List (List ℝ)} {M : Matrix (Fin 3) (Fin 3) ℝ} (h : IsMatrix m M) (hd : M.det = 0) : invertMatrix3x3 m = .ok none := by
  rw [h.entries, invert3, det3_real, hd]
  have c : Arith.lt (0 : ℝ) (Arith.lit 0 : ℝ) = false := by simp [Arith.lt, real_lit]
  have d : Arith.lt (Arith.lit 0 : ℝ) (0 : ℝ) = false := by simp [Arith.lt, real_lit]
  rw [c, d]
  rfl

end Jxl
