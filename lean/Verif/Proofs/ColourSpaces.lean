import Verif.Proofs.Colour

/-!
# Lemmas about colour spaces
-/
namespace Jxl

theorem real_lt (a b : ℝ) : Arith.lt a b = true ↔ a < b := by simp [Arith.lt]
theorem real_lt_false (a b : ℝ) : Arith.lt a b = false ↔ b ≤ a := by simp [Arith.lt]

theorem valid_iff (p : XY ℝ) : p.valid = true ↔ p.Allowed := by
  unfold XY.valid XY.Allowed
  simp only [Bool.not_eq_true', Bool.or_eq_false_iff, Bool.not_eq_false', real_lt, real_lt_false, real_lit, Rat.cast_zero, Rat.cast_one]
  tauto

theorem getXYZ_ok {p : XY ℝ} (h : p.Allowed) : getXYZ p = .ok [xyzOf p 0, xyzOf p 1, xyzOf p 2] := by
  unfold getXYZ
  rw [if_pos ((valid_iff p).2 h)]
  simp only [real_lit, Rat.cast_one, xyzOf, Matrix.cons_val_zero, Matrix.cons_val_one, Matrix.cons_val]
  rw [mul_one_div, mul_one_div]

theorem getXYZ_err {p : XY ℝ} (h : ¬ p.Allowed) : getXYZ p = .err := by
  unfold getXYZ
  rw [if_neg (fun c => h ((valid_iff p).1 c))]

/-- The matrix whose columns are the primaries. -/
noncomputable def columns (p : Primaries ℝ) : Matrix (Fin 3) (Fin 3) ℝ := Matrix.of fun i j => xyzOf (p.get j) i

theorem transposeRows_eq {a b c d e f g h i : ℝ} : primariesToXYZ.transposeRows [[a, b, c], [d, e, f], [g, h, i]] = .ok [[a, d, g], [b, e, h], [c, f, i]] := rfl

theorem diagonal_isMatrix (d : Fin 3 → ℝ) : IsMatrix (diagonal (d 0) (d 1) (d 2)) (Matrix.diagonal d) := by
  refine isMatrix_of ?_
  simp [diagonal, real_lit, Matrix.diagonal]

theorem primariesToXYZ_step {p : Primaries ℝ} {w : XY ℝ} (hw : w.Allowed) (hp : ∀ j, (p.get j).Allowed) {inv : Option (List (List ℝ))} {v : Fin 3 → ℝ}
    {m : List (List ℝ)} (hm : IsMatrix m (columns p)) (hi : invertMatrix3x3 m = .ok inv)
    (hv : matrixVectorMultiply inv [xyzOf w 0, xyzOf w 1, xyzOf w 2] = .ok [v 0, v 1, v 2]) :
    ∃ m, primariesToXYZ p w = .ok (some m) ∧ IsMatrix m (columns p * Matrix.diagonal v) := by
  obtain ⟨k, ek, hk⟩ := mul_isMatrix hm (diagonal_isMatrix v)
  refine ⟨k, ?_, hk⟩
  unfold primariesToXYZ
  have e0 : getXYZ p.red = .ok [xyzOf p.red 0, xyzOf p.red 1, xyzOf p.red 2] := getXYZ_ok (hp 0)
  have e1 : getXYZ p.green = .ok [xyzOf p.green 0, xyzOf p.green 1, xyzOf p.green 2] := getXYZ_ok (hp 1)
  have e2 : getXYZ p.blue = .ok [xyzOf p.blue 0, xyzOf p.blue 1, xyzOf p.blue 2] := getXYZ_ok (hp 2)
  rw [(valid_iff w).2 hw, if_neg (by decide), e0, e1, e2]
  dsimp only
  have em : m = [[xyzOf p.red 0, xyzOf p.green 0, xyzOf p.blue 0], [xyzOf p.red 1, xyzOf p.green 1, xyzOf p.blue 1], [xyzOf p.red 2, xyzOf p.green 2, xyzOf p.blue 2]] :=
    hm.entries
  rw [transposeRows_eq, Res.bind_ok, ← em, hi, Res.bind_ok, getXYZ_ok hw, Res.bind_ok, hv, Res.bind_ok]
  exact ek

theorem columns_isMatrix (p : Primaries ℝ) : ∃ m, IsMatrix m (columns p) := ⟨_, rfl⟩

theorem primariesToXYZ_ok {p : Primaries ℝ} {w : XY ℝ} (hw : w.Allowed) (hp : ∀ j, (p.get j).Allowed) (hs : p.Span) :
    ∃ m, primariesToXYZ p w = .ok (some m) ∧ IsMatrix m (columns p * Matrix.diagonal ((columns p)⁻¹.mulVec (xyzOf w))) := by
  obtain ⟨m, hm⟩ := columns_isMatrix p
  obtain ⟨k, ek, hk⟩ := invert_isMatrix hm hs
  exact primariesToXYZ_step hw hp hm ek (mulVec_isMatrix hk (xyzOf w))

theorem rgbToXYZ_columns {p : Primaries ℝ} {w : XY ℝ} (hs : p.Span) : IsRGBToXYZ p w (columns p * Matrix.diagonal ((columns p)⁻¹.mulVec (xyzOf w))) := by
  refine ⟨⟨(columns p)⁻¹.mulVec (xyzOf w), fun i j => ?_⟩, ?_⟩
  · rw [Matrix.mul_diagonal, mul_comm]
    rfl
  · have hu : IsUnit (columns p).det := isUnit_iff_ne_zero.2 hs
    have e : (Matrix.diagonal ((columns p)⁻¹.mulVec (xyzOf w))).mulVec 1 = (columns p)⁻¹.mulVec (xyzOf w) := by
      funext i
      rw [Matrix.mulVec_diagonal]
      simp
    rw [← Matrix.mulVec_mulVec, e, Matrix.mulVec_mulVec, Matrix.mul_nonsing_inv _ hu, Matrix.one_mulVec]

/-- There is only one such matrix. -/
theorem rgbToXYZ_unique {p : Primaries ℝ} {w : XY ℝ} (hs : p.Span) {M N : Matrix (Fin 3) (Fin 3) ℝ} (hM : IsRGBToXYZ p w M) (hN : IsRGBToXYZ p w N) : M = N := by
  obtain ⟨⟨s, es⟩, ws⟩ := hM
  obtain ⟨⟨t, et⟩, wt⟩ := hN
  have hu : IsUnit (columns p).det := isUnit_iff_ne_zero.2 hs
  have f : ∀ (K : Matrix (Fin 3) (Fin 3) ℝ) (r : Fin 3 → ℝ), (∀ i j, K i j = r j * xyzOf (p.get j) i) → K.mulVec 1 = (columns p).mulVec r := by
    intro K r h
    funext i
    simp only [Matrix.mulVec, dotProduct, Pi.one_apply, mul_one]
    refine Finset.sum_congr rfl fun j _ => ?_
    rw [h, mul_comm]
    rfl
  have e : (columns p).mulVec s = (columns p).mulVec t := by rw [← f M s es, ← f N t et, ws, wt]
  have h2 : s = t := by
    have := congrArg ((columns p)⁻¹.mulVec) e
    rwa [Matrix.mulVec_mulVec, Matrix.mulVec_mulVec, Matrix.nonsing_inv_mul _ hu, Matrix.one_mulVec, Matrix.one_mulVec] at this
  funext i j
  rw [es, et, h2]

theorem primariesToXYZ_err {p : Primaries ℝ} {w : XY ℝ} (h : ¬ (w.Allowed ∧ ∀ j, (p.get j).Allowed)) : primariesToXYZ p w = .err := by
  unfold primariesToXYZ
  by_cases hw : w.Allowed
  · rw [(valid_iff w).2 hw, if_neg (by decide)]
    by_cases h0 : p.red.Allowed
    · by_cases h1 : p.green.Allowed
      · by_cases h2 : p.blue.Allowed
        · refine absurd ⟨hw, fun j => ?_⟩ h
          match j with
          | 0 => exact h0
          | 1 => exact h1
          | 2 => exact h2
        · rw [getXYZ_ok h0, getXYZ_ok h1, getXYZ_err h2]
      · rw [getXYZ_ok h0, getXYZ_err h1]
    · rw [getXYZ_err h0]
  · have : w.valid = false := by
      cases c : w.valid with
      | false => rfl
      | true => exact absurd ((valid_iff w).1 c) hw
    rw [this]
    rfl

theorem bradford_isMatrix : IsMatrix (bradford : List (List ℝ)) bradfordMatrix := by
  refine isMatrix_of ?_
  simp only [bradford, bradfordMatrix, real_lit, Matrix.of_apply, Matrix.cons_val', Matrix.cons_val_zero, Matrix.cons_val_one, Matrix.cons_val, Matrix.cons_val_fin_one]
  norm_num

theorem bradford_det : bradfordMatrix.det ≠ 0 := by
  rw [Matrix.det_fin_three]
  simp only [bradfordMatrix, Matrix.of_apply, Matrix.cons_val', Matrix.cons_val_zero, Matrix.cons_val_one, Matrix.cons_val, Matrix.cons_val_fin_one]
  norm_num

/-- The cone responses of white. -/
noncomputable def cones (w : XY ℝ) : Fin 3 → ℝ := bradfordMatrix.mulVec (xyzOf w)

theorem lmsValid_iff (v : Fin 3 → ℝ) : lmsValid [v 0, v 1, v 2] = true ↔ ∀ i, 1 / 100000000 ≤ |v i| := by
  simp only [lmsValid, List.all_cons, List.all_nil, Bool.and_true, Bool.and_eq_true, Bool.not_eq_true', real_lt_false, real_lit]
  have e : ((1 / 100000000 : ℚ) : ℝ) = 1 / 100000000 := by norm_num
  rw [e]
  constructor
  · intro ⟨a, b, c⟩ i
    match i with
    | 0 => exact a
    | 1 => exact b
    | 2 => exact c
  · intro h
    exact ⟨h 0, h 1, h 2⟩

/-- The adaptation. -/
noncomputable def adaptation (t c : XY ℝ) : Matrix (Fin 3) (Fin 3) ℝ :=
  bradfordMatrix⁻¹ * Matrix.diagonal (fun i => cones t i / cones c i) * bradfordMatrix

theorem adaptWhitePoint_ok {t c : XY ℝ} (ht : t.Allowed) (hc : c.Allowed) (h : ∀ i, 1 / 100000000 ≤ |cones c i|) :
    ∃ m, adaptWhitePoint t c = .ok (some m) ∧ IsMatrix m (adaptation t c) := by
  obtain ⟨k, ek, hk⟩ := invert_isMatrix bradford_isMatrix bradford_det
  obtain ⟨m1, e1, h1⟩ := mul_isMatrix hk (diagonal_isMatrix (fun i => cones t i / cones c i))
  obtain ⟨m2, e2, h2⟩ := mul_isMatrix h1 bradford_isMatrix
  refine ⟨m2, ?_, h2⟩
  unfold adaptWhitePoint
  rw [getXYZ_ok hc, Res.bind_ok, mulVec_isMatrix bradford_isMatrix, Res.bind_ok, getXYZ_ok ht, Res.bind_ok, mulVec_isMatrix bradford_isMatrix, Res.bind_ok]
  have hv : lmsValid [bradfordMatrix.mulVec (xyzOf c) 0, bradfordMatrix.mulVec (xyzOf c) 1, bradfordMatrix.mulVec (xyzOf c) 2] = true :=
    (lmsValid_iff (cones c)).2 h
  rw [if_pos hv]
  simp only [idx]
  show (do
    let inverse ← invertMatrix3x3 bradford
    matrixMultiply inverse [some (diagonal (cones t 0 / cones c 0) (cones t 1 / cones c 1) (cones t 2 / cones c 2)), some bradford] : Res (Option (List (List ℝ)))) = _
  rw [ek, Res.bind_ok, matrixMultiply, e1, Res.bind_ok, matrixMultiply, e2, Res.bind_ok]
  rfl

theorem isBradford_adaptation {t c : XY ℝ} (h : ∀ i, cones c i ≠ 0) : IsBradford t c (adaptation t c) := by
  have hu : IsUnit bradfordMatrix.det := isUnit_iff_ne_zero.2 bradford_det
  refine ⟨⟨fun i => cones t i / cones c i, ?_⟩, ?_⟩
  · unfold adaptation
    rw [← Matrix.mul_assoc, ← Matrix.mul_assoc, Matrix.mul_nonsing_inv _ hu, Matrix.one_mul]
  · unfold adaptation
    rw [← Matrix.mulVec_mulVec, ← Matrix.mulVec_mulVec]
    have e : (Matrix.diagonal (fun i => cones t i / cones c i)).mulVec (bradfordMatrix.mulVec (xyzOf c)) = bradfordMatrix.mulVec (xyzOf t) := by
      funext i
      rw [Matrix.mulVec_diagonal]
      show cones t i / cones c i * cones c i = cones t i
      rw [div_mul_cancel₀ _ (h i)]
    rw [e, Matrix.mulVec_mulVec, Matrix.nonsing_inv_mul _ hu, Matrix.one_mulVec]

/-! ## No panics, in any arithmetic -/

section
variable {α : Type} [Arith α]

/-- Three rows of three. -/
def Is3 (m : List (List α)) : Prop := ∃ a b c d e f g h i, m = [[a, b, c], [d, e, f], [g, h, i]]

theorem getXYZ_shape (p : XY α) : (∃ a b c, getXYZ p = .ok [a, b, c]) ∨ getXYZ p = .err := by
  unfold getXYZ
  split
  · exact .inl ⟨_, _, _, rfl⟩
  · exact .inr rfl

theorem mul3_shape {l r : List (List α)} (hl : Is3 l) (hr : Is3 r) : ∃ m, matrixMatrixMultiply (some l) (some r) = .ok (some m) ∧ Is3 m := by
  obtain ⟨a, b, c, d, e, f, g, h, i, rfl⟩ := hl
  obtain ⟨a', b', c', d', e', f', g', h', i', rfl⟩ := hr
  exact ⟨_, mulMat3 .., _, _, _, _, _, _, _, _, _, rfl⟩

theorem mulOpt_shape {l : Option (List (List α))} {r : List (List α)} (hl : ∀ m, l = some m → Is3 m) (hr : Is3 r) :
    ∃ m, matrixMatrixMultiply l (some r) = .ok (some m) ∧ Is3 m := by
  cases l with
  | none => exact ⟨r, rfl, hr⟩
  | some l => exact mul3_shape (hl l rfl) hr

theorem mulOptOpt_shape {l r : Option (List (List α))} (hl : ∀ m, l = some m → Is3 m) (hr : ∀ m, r = some m → Is3 m) :
    ∃ p, matrixMatrixMultiply l r = .ok p ∧ ∀ m, p = some m → Is3 m := by
  cases r with
  | none => cases l with
    | none => exact ⟨none, rfl, fun m h => by cases h⟩
    | some l => exact ⟨some l, rfl, hl⟩
  | some r =>
    obtain ⟨m, e, h⟩ := mulOpt_shape hl (hr r rfl)
    exact ⟨some m, e, fun m' h' => by cases h'; exact h⟩

theorem invert_shape {m : List (List α)} (hm : Is3 m) : ∃ k, invertMatrix3x3 m = .ok k ∧ ∀ n, k = some n → Is3 n := by
  obtain ⟨a, b, c, d, e, f, g, h, i, rfl⟩ := hm
  rw [invert3]
  split
  · exact ⟨none, rfl, fun m h => by cases h⟩
  · exact ⟨_, rfl, fun m h => by cases h; exact ⟨_, _, _, _, _, _, _, _, _, rfl⟩⟩

theorem mulVecOpt_shape {l : Option (List (List α))} (hl : ∀ m, l = some m → Is3 m) (x y z : α) : ∃ a b c, matrixVectorMultiply l [x, y, z] = .ok [a, b, c] := by
  cases l with
  | none => exact ⟨x, y, z, rfl⟩
  | some l =>
    obtain ⟨a, b, c, d, e, f, g, h, i, rfl⟩ := hl l rfl
    exact ⟨_, _, _, mulVec3 ..⟩

theorem bradford_shape : Is3 (bradford : List (List α)) := ⟨_, _, _, _, _, _, _, _, _, rfl⟩

theorem adapt_shape (t c : XY α) : (∃ m, adaptWhitePoint t c = .ok (some m) ∧ Is3 m) ∨ adaptWhitePoint t c = .err := by
  unfold adaptWhitePoint
  rcases getXYZ_shape c with ⟨x, y, z, e⟩ | e
  · obtain ⟨l, m, s, e1⟩ := mulVecOpt_shape (l := some (bradford : List (List α))) (fun m h => by cases h; exact bradford_shape) x y z
    rw [e, Res.bind_ok, e1, Res.bind_ok]
    rcases getXYZ_shape t with ⟨x', y', z', e'⟩ | e'
    · obtain ⟨l', m', s', e1'⟩ := mulVecOpt_shape (l := some (bradford : List (List α))) (fun m h => by cases h; exact bradford_shape) x' y' z'
      rw [e', Res.bind_ok, e1', Res.bind_ok]
      split
      · left
        obtain ⟨k, ek, hk⟩ := invert_shape (bradford_shape (α := α))
        obtain ⟨m1, e2, h1⟩ := mulOpt_shape hk (⟨_, _, _, _, _, _, _, _, _, rfl⟩ : Is3 (diagonal (l' / l) (m' / m) (s' / s)))
        obtain ⟨m2, e3, h2⟩ := mul3_shape h1 bradford_shape
        refine ⟨m2, ?_, h2⟩
        show (do
          let inverse ← invertMatrix3x3 bradford
          matrixMultiply inverse [some (diagonal (l' / l) (m' / m) (s' / s)), some bradford] : Res (Option (List (List α)))) = _
        rw [ek, Res.bind_ok, matrixMultiply, e2, Res.bind_ok, matrixMultiply, e3, Res.bind_ok]
        rfl
      · exact .inr rfl
    · rw [e']
      exact .inr rfl
  · rw [e]
    exact .inr rfl

theorem toXYZ_shape (p : Primaries α) (w : XY α) : (∃ m, primariesToXYZ p w = .ok (some m) ∧ Is3 m) ∨ primariesToXYZ p w = .err := by
  unfold primariesToXYZ
  split
  · exact .inr rfl
  · rcases getXYZ_shape p.red with ⟨a, b, c, e0⟩ | e0
    · rcases getXYZ_shape p.green with ⟨d, e, f, e1⟩ | e1
      · rcases getXYZ_shape p.blue with ⟨g, h, i, e2⟩ | e2
        · rcases getXYZ_shape w with ⟨x, y, z, e3⟩ | e3
          · left
            have hm : Is3 [[a, d, g], [b, e, h], [c, f, i]] := ⟨_, _, _, _, _, _, _, _, _, rfl⟩
            obtain ⟨k, ek, hk⟩ := invert_shape hm
            obtain ⟨u, v, t, e4⟩ := mulVecOpt_shape hk x y z
            obtain ⟨m, e5, h5⟩ := mul3_shape hm (⟨_, _, _, _, _, _, _, _, _, rfl⟩ : Is3 (diagonal u v t))
            refine ⟨m, ?_, h5⟩
            rw [e0, e1, e2]
            show (do
              let inverse ← invertMatrix3x3 [[a, d, g], [b, e, h], [c, f, i]]
              let w ← getXYZ w
              let xyz ← matrixVectorMultiply inverse w
              let x ← idx xyz 0
              let y ← idx xyz 1
              let z ← idx xyz 2
              matrixMatrixMultiply (some [[a, d, g], [b, e, h], [c, f, i]]) (some (diagonal x y z)) : Res (Option (List (List α)))) = _
            rw [ek, Res.bind_ok, e3, Res.bind_ok, e4, Res.bind_ok]
            exact e5
          · right
            have hm : Is3 [[a, d, g], [b, e, h], [c, f, i]] := ⟨_, _, _, _, _, _, _, _, _, rfl⟩
            obtain ⟨k, ek, hk⟩ := invert_shape hm
            rw [e0, e1, e2]
            show (do
              let inverse ← invertMatrix3x3 [[a, d, g], [b, e, h], [c, f, i]]
              let w ← getXYZ w
              let xyz ← matrixVectorMultiply inverse w
              let x ← idx xyz 0
              let y ← idx xyz 1
              let z ← idx xyz 2
              matrixMatrixMultiply (some [[a, d, g], [b, e, h], [c, f, i]]) (some (diagonal x y z)) : Res (Option (List (List α)))) = _
            rw [ek, Res.bind_ok, e3]
            rfl
        · rw [e0, e1, e2]
          exact .inr rfl
      · rw [e0, e1]
        exact .inr rfl
    · rw [e0]
      exact .inr rfl

theorem identity_shape : Is3 (matrixIdentity 3 : List (List α)) := ⟨_, _, _, _, _, _, _, _, _, rfl⟩

theorem conversion_shape (tp : Primaries α) (tw : XY α) (cp : Primaries α) (cw : XY α) :
    (∃ m, conversionMatrix tp tw cp cw = .ok (some m) ∧ Is3 m) ∨ conversionMatrix tp tw cp cw = .err := by
  unfold conversionMatrix
  split
  · exact .inl ⟨_, rfl, identity_shape⟩
  · have hw : (∃ w, whitePointConv tw cw = .ok w ∧ ∀ m, w = some m → Is3 m) ∨ whitePointConv tw cw = .err := by
      unfold whitePointConv
      split
      · exact .inl ⟨none, rfl, fun m h => by cases h⟩
      · rcases adapt_shape tw cw with ⟨m, e, h⟩ | e
        · exact .inl ⟨some m, e, fun m' h' => by cases h'; exact h⟩
        · exact .inr e
    rcases hw with ⟨w, e, h⟩ | e
    · rw [e, Res.bind_ok]
      rcases toXYZ_shape cp cw with ⟨f, ef, hf⟩ | ef
      · rw [ef, Res.bind_ok]
        rcases toXYZ_shape tp tw with ⟨t, et, ht⟩ | et
        · rw [et, Res.bind_ok]
          obtain ⟨r, er, hr⟩ := invert_shape ht
          dsimp only
          rw [er, Res.bind_ok, matrixMultiply]
          obtain ⟨p, ep, hp⟩ := mulOptOpt_shape hr h
          obtain ⟨m, em, hm⟩ := mulOpt_shape hp hf
          rw [ep, Res.bind_ok, matrixMultiply, em, Res.bind_ok]
          exact .inl ⟨m, rfl, hm⟩
        · rw [et]
          exact .inr rfl
      · rw [ef]
        exact .inr rfl
    · rw [e]
      exact .inr rfl

end

theorem near_iff (a b : XY ℝ) : a.near b = true ↔ |a.x - b.x| + |a.y - b.y| < 1 / 10000 := by
  unfold XY.near
  rw [real_lt, real_lit]
  norm_num
  rfl

theorem identity_isMatrix : IsMatrix (matrixIdentity 3 : List (List ℝ)) (1 : Matrix (Fin 3) (Fin 3) ℝ) := by
  refine isMatrix_of ?_
  show [[(Arith.lit 1 : ℝ), Arith.lit 0, Arith.lit 0], [Arith.lit 0, Arith.lit 1, Arith.lit 0], [Arith.lit 0, Arith.lit 0, Arith.lit 1]] = _
  simp [real_lit]

/-- The factor for the white points. -/
theorem whiteFactor {tw cw : XY ℝ} (ht : tw.Allowed) (hc : cw.Allowed) (h : ∀ i, 1 / 100000000 ≤ |cones cw i|) :
    (tw.near cw = true ∧ whitePointConv tw cw = .ok none) ∨ (tw.near cw = false ∧ ∃ m, whitePointConv tw cw = .ok (some m) ∧ IsMatrix m (adaptation tw cw)) := by
  unfold whitePointConv
  cases c : tw.near cw with
  | true => exact .inl ⟨rfl, rfl⟩
  | false =>
    obtain ⟨m, e, hm⟩ := adaptWhitePoint_ok ht hc h
    exact .inr ⟨rfl, m, e, hm⟩

/-- The product of up to three matrices of the code. -/
theorem product {tw cw : XY ℝ} (ht : tw.Allowed) (hc : cw.Allowed) (h : ∀ i, 1 / 100000000 ≤ |cones cw i|) {tp cp : Primaries ℝ}
    (hn : ¬ (tp.near cp = true ∧ tw.near cw = true)) {f t : List (List ℝ)} {F : Matrix (Fin 3) (Fin 3) ℝ} (ef : primariesToXYZ cp cw = .ok (some f)) (hf : IsMatrix f F)
    (et : primariesToXYZ tp tw = .ok (some t)) {r : Option (List (List ℝ))} (er : invertMatrix3x3 t = .ok r) {R : Matrix (Fin 3) (Fin 3) ℝ}
    (hr : (r = none ∧ R = 1) ∨ ∃ r', r = some r' ∧ IsMatrix r' R) :
    ∃ m, conversionMatrix tp tw cp cw = .ok (some m) ∧ IsMatrix m (R * ((if tw.near cw then 1 else adaptation tw cw) * F)) := by
  unfold conversionMatrix
  have c : ¬ ((tp.near cp && tw.near cw) = true) := by simpa using hn
  rw [if_neg c]
  rcases whiteFactor ht hc h with ⟨n, e⟩ | ⟨n, m, e, hm⟩
  · rw [e, Res.bind_ok, ef, Res.bind_ok, et, Res.bind_ok, n, if_pos rfl, Matrix.one_mul]
    dsimp only
    rw [er, Res.bind_ok, matrixMultiply]
    rcases hr with ⟨rfl, rfl⟩ | ⟨r', rfl, hr⟩
    · exact ⟨f, rfl, by rwa [Matrix.one_mul]⟩
    · obtain ⟨p, ep, hp⟩ := mul_isMatrix hr hf
      have e1 : matrixMatrixMultiply (some r') none = .ok (some r') := rfl
      rw [e1, Res.bind_ok, matrixMultiply, ep, Res.bind_ok]
      exact ⟨p, rfl, hp⟩
  · rw [e, Res.bind_ok, ef, Res.bind_ok, et, Res.bind_ok, n, if_neg (by decide)]
    dsimp only
    rw [er, Res.bind_ok, matrixMultiply]
    rcases hr with ⟨rfl, rfl⟩ | ⟨r', rfl, hr⟩
    · have e1 : matrixMatrixMultiply none (some m) = .ok (some m) := rfl
      obtain ⟨p, ep, hp⟩ := mul_isMatrix hm hf
      rw [e1, Res.bind_ok, matrixMultiply, ep, Res.bind_ok]
      exact ⟨p, rfl, by rwa [Matrix.one_mul]⟩
    · obtain ⟨p, ep, hp⟩ := mul_isMatrix hr hm
      obtain ⟨q, eq, hq⟩ := mul_isMatrix hp hf
      rw [ep, Res.bind_ok, matrixMultiply, eq, Res.bind_ok]
      exact ⟨q, rfl, by rwa [Matrix.mul_assoc] at hq⟩

end Jxl
