import Verif.Proofs.Compare

/-! # Comparing, clamping and filling (C101, C102) -/
namespace Jxl

/-! ## C101 -/

/-- C101, matrices compared with a function. `CompareMatrix3D` never crashes, and says yes exactly if the matrices have the same
shape and the function says yes to every pair of elements at the same place. -/
theorem C101_compare3 {α : Type} (cmp : α → α → Bool) (a b : List (List (List α))) :
    ∃ v, compareMatrix3D cmp a b = .ok v ∧ (v = true ↔ Alike3 (fun x y => cmp x y = true) a b) := compareMatrix3D_ok cmp a b

/-- The same for `CompareMatrix2D`. -/
theorem C101_compare2 {α : Type} (cmp : α → α → Bool) (a b : List (List α)) :
    compareMatrix2D cmp a b = true ↔ Alike2 (fun x y => cmp x y = true) a b := compareMatrix2D_iff a b

/-- With equality of elements this is equality of matrices. -/
theorem C101_compare3_eq {α : Type} [DecidableEq α] (a b : List (List (List α))) :
    compareMatrix3D (fun x y => decide (x = y)) a b = .ok (decide (a = b)) := by
  obtain ⟨v, hv, hp⟩ := compareMatrix3D_ok (fun x y : α => decide (x = y)) a b
  simp only [decide_eq_true_eq] at hp
  rw [alike3_eq] at hp
  rw [hv]
  congr 1
  rw [Bool.eq_iff_iff, hp, decide_eq_true_eq]

/-- Matrices of ragged shape, equal, different in an element, and different in shape only. -/
example : compareMatrix3D (fun x y : Nat => decide (x = y)) [[[1, 2], [3]], []] [[[1, 2], [3]], []] = .ok true ∧
    compareMatrix3D (fun x y : Nat => decide (x = y)) [[[1, 2], [3]], []] [[[1, 2], [4]], []] = .ok false ∧
    compareMatrix3D (fun x y : Nat => decide (x = y)) [[[1, 2], []], []] [[[1, 2], [4]], []] = .ok false := by decide

/-- C101, in part. `Matrix3Equal` decides equality of matrices of the same shape. Missing, because false: other matrices
(`C101_equal3_fails`, `C101_equal3_panics`). -/
theorem C101_equal3_partial {α : Type} [DecidableEq α] (a b : List (List (List α))) (hs : Alike3 (fun _ _ => True) a b) :
    matrix3Equal a b = .ok (decide (a = b)) := by
  obtain ⟨v, hv, hp⟩ := matrix3Equal_ok a b hs
  rw [hv]
  congr 1
  rw [Bool.eq_iff_iff, hp, decide_eq_true_eq]

/-- Two matrices of the same ragged shape. -/
example : Alike3 (fun _ _ => True) [[[1, 2], [3]], ([] : List (List Nat))] [[[1, 2], [4]], []] := by
  unfold Alike3 Alike2
  simp

/-- C101 is false of `Matrix3Equal`: a matrix whose planes are empty is equal to every matrix with as many planes. -/
theorem C101_equal3_fails {α : Type} [DecidableEq α] (b : List (List (List α))) (x : List (List α)) (hx : x ∈ b) (hne : x ≠ []) :
    matrix3Equal (b.map fun _ => []) b = .ok true ∧ (b.map fun _ => []) ≠ b := by
  refine ⟨matrix3Equal_empty b, fun he => ?_⟩
  rw [← he, List.mem_map] at hx
  obtain ⟨_, _, h⟩ := hx
  exact hne h.symm

/-- Such a matrix, and the crash when the arguments are exchanged. -/
theorem C101_equal3_panics : matrix3Equal [([] : List (List Nat))] [[[1]]] = .ok true ∧ matrix3Equal [[[1]]] [([] : List (List Nat))] = .panic := by
  decide

/-- C101, parameters of a transform: `Equals` says yes exactly if all five fields are equal. -/
theorem C101_params (p q : DCTParam) : p.equals q = true ↔ p = q := by
  have h2 : ∀ a b : List (List ℚ), compareMatrix2D (fun x y => decide (x = y)) a b = true ↔ a = b := by
    intro a b
    rw [compareMatrix2D_iff]
    simp only [decide_eq_true_eq]
    exact alike2_eq
  have hd := h2 p.dct q.dct
  have hp := h2 p.param q.param
  have h4 := h2 p.p44 q.p44
  obtain ⟨d, r, m, n, f⟩ := p
  obtain ⟨d', r', m', n', f'⟩ := q
  simp only [DCTParam.mk.injEq] at hd hp h4 ⊢
  unfold DCTParam.equals
  dsimp only
  by_cases e1 : m = m'
  · by_cases e2 : n = n'
    · by_cases e3 : d = d'
      · by_cases e4 : r = r'
        · by_cases e5 : f = f'
          · rw [if_neg (by simpa using e1), if_neg (by simpa using e2), if_neg (by simp [e3]), if_neg (by simp [e4]), if_neg (by simp [hd.mpr e3]),
              if_neg (by simp [hp.mpr e4]), if_neg (by simp [h4.mpr e5])]
            simp [*]
          · have : compareMatrix2D (fun x y => decide (x = y)) f f' = false := by
              rw [← Bool.not_eq_true, h4]; exact e5
            rw [this]
            simp [e5]
        · have : compareMatrix2D (fun x y => decide (x = y)) r r' = false := by
            rw [← Bool.not_eq_true, hp]; exact e4
          rw [this]
          simp [e4]
      · have : compareMatrix2D (fun x y => decide (x = y)) d d' = false := by
          rw [← Bool.not_eq_true, hd]; exact e3
        rw [this]
        simp [e3]
    · simp [e1, e2]
  · simp [e1]

/-- Two sets of parameters that differ in the last field only. -/
example : (⟨[[1]], [[2]], 6, 1, []⟩ : DCTParam).equals ⟨[[1]], [[2]], 6, 1, []⟩ = true ∧ (⟨[[1]], [[2]], 6, 1, []⟩ : DCTParam).equals ⟨[[1]], [[2]], 6, 1, [[0]]⟩ = false := by
  decide +kernel

theorem OpsinParams.matches_iff (a b : OpsinParams) : a.matches b = true ↔ Alike2 (fun x y => F32.eq x y = true) a.matrix b.matrix ∧ a.opsinBias = b.opsinBias ∧
    a.quantBias = b.quantBias ∧ F32.eq a.quantBiasNumerator b.quantBiasNumerator = true ∧ a.primaries.red.matches b.primaries.red = true ∧
    a.primaries.green.matches b.primaries.green = true ∧ a.primaries.blue.matches b.primaries.blue = true ∧ a.whitePoint.matches b.whitePoint = true := by
  rw [← compareMatrix2D_iff, ← compareFloats_zero, ← compareFloats_zero]
  unfold OpsinParams.matches
  cases compareMatrix2D F32.eq a.matrix b.matrix <;> cases F32.eq a.quantBiasNumerator b.quantBiasNumerator <;>
    cases a.primaries.red.matches b.primaries.red <;> cases a.primaries.green.matches b.primaries.green <;>
    cases a.primaries.blue.matches b.primaries.blue <;> cases a.whitePoint.matches b.whitePoint <;> simp

/-- C101, colour matrices: `Matches` says no if a number differs or a chromaticity is more than 0.00011 away. -/
theorem C101_matches_only (a b : OpsinParams) (h : a.matches b = true) : Alike2 (fun x y => F32.eq x y = true) a.matrix b.matrix ∧
    a.opsinBias = b.opsinBias ∧ a.quantBias = b.quantBias ∧ F32.eq a.quantBiasNumerator b.quantBiasNumerator = true ∧
    PointsWithin (11 / 100000) a.primaries.red b.primaries.red ∧ PointsWithin (11 / 100000) a.primaries.green b.primaries.green ∧
    PointsWithin (11 / 100000) a.primaries.blue b.primaries.blue ∧ PointsWithin (11 / 100000) a.whitePoint b.whitePoint := by
  obtain ⟨h1, h2, h3, h4, h5, h6, h7, h8⟩ := (OpsinParams.matches_iff a b).mp h
  exact ⟨h1, h2, h3, h4, CIEXY.within_of_matches h5, CIEXY.within_of_matches h6, CIEXY.within_of_matches h7, CIEXY.within_of_matches h8⟩

/-- `Matches` says yes if the numbers are equal and the chromaticities at most 0.00009 away. -/
theorem C101_matches_if (a b : OpsinParams) (h1 : Alike2 (fun x y => F32.eq x y = true) a.matrix b.matrix) (h2 : a.opsinBias = b.opsinBias)
    (h3 : a.quantBias = b.quantBias) (h4 : F32.eq a.quantBiasNumerator b.quantBiasNumerator = true)
    (h5 : PointsWithin (9 / 100000) a.primaries.red b.primaries.red) (h6 : PointsWithin (9 / 100000) a.primaries.green b.primaries.green)
    (h7 : PointsWithin (9 / 100000) a.primaries.blue b.primaries.blue) (h8 : PointsWithin (9 / 100000) a.whitePoint b.whitePoint) : a.matches b = true :=
  (OpsinParams.matches_iff a b).mpr ⟨h1, h2, h3, h4, CIEXY.matches_of_within h5, CIEXY.matches_of_within h6, CIEXY.matches_of_within h7, CIEXY.matches_of_within h8⟩

/-- A colour matrix with white point (`x`, 1/2). -/
def sampleOpsin (x m : ℚ) : OpsinParams :=
  ⟨[[.fin m, .fin 0]], [.fin (1 / 2)], [], .fin 1, ⟨⟨.fin 1, .fin 0⟩, ⟨.fin 0, .fin 1⟩, ⟨.fin 0, .fin 0⟩⟩, ⟨.fin x, .fin (1 / 2)⟩⟩

theorem pointsWithin_self (d x y : ℚ) (h : 0 ≤ d) : PointsWithin d ⟨.fin x, .fin y⟩ ⟨.fin x, .fin y⟩ := ⟨x, y, x, y, rfl, rfl, by simpa using h⟩

/-- The hypotheses hold for matrices whose white points are 2^-14 apart; `Matches` says no if a number differs. -/
example : (sampleOpsin (1 / 4) 3).matches (sampleOpsin (1 / 4 + 1 / 16384) 3) = true ∧ (sampleOpsin (1 / 4) 3).matches (sampleOpsin (1 / 4) 4) = false := by
  refine ⟨C101_matches_if _ _ ?_ rfl rfl rfl (pointsWithin_self _ _ _ (by norm_num)) (pointsWithin_self _ _ _ (by norm_num)) (pointsWithin_self _ _ _ (by norm_num)) ?_, ?_⟩
  · unfold Alike2
    simp [sampleOpsin, F32.eq]
  · exact ⟨1 / 4, 1 / 2, 1 / 4 + 1 / 16384, 1 / 2, rfl, rfl, by norm_num⟩
  · simp [OpsinParams.matches, sampleOpsin, compareMatrix2D, compareRows, compareRow, F32.eq]

/-- `Matches` is no equivalence: steps that are too small to be seen add up. And nothing with a NaN in its matrix matches itself. -/
theorem C101_matches_not_transitive : (∃ a b c : OpsinParams, a.matches b = true ∧ b.matches c = true ∧ a.matches c = false) ∧
    ∀ a : OpsinParams, (∃ r ∈ a.matrix, F32.nan ∈ r) → a.matches a = false := by
  refine ⟨⟨sampleOpsin (1 / 4) 3, sampleOpsin (1 / 4 + 1 / 16384) 3, sampleOpsin (1 / 4 + 2 / 16384) 3, ?_, ?_, ?_⟩, ?_⟩
  · refine C101_matches_if _ _ ?_ rfl rfl rfl (pointsWithin_self _ _ _ (by norm_num)) (pointsWithin_self _ _ _ (by norm_num)) (pointsWithin_self _ _ _ (by norm_num)) ?_
    · unfold Alike2
      simp [sampleOpsin, F32.eq]
    · exact ⟨1 / 4, 1 / 2, 1 / 4 + 1 / 16384, 1 / 2, rfl, rfl, by norm_num⟩
  · refine C101_matches_if _ _ ?_ rfl rfl rfl (pointsWithin_self _ _ _ (by norm_num)) (pointsWithin_self _ _ _ (by norm_num)) (pointsWithin_self _ _ _ (by norm_num)) ?_
    · unfold Alike2
      simp [sampleOpsin, F32.eq]
    · exact ⟨1 / 4 + 1 / 16384, 1 / 2, 1 / 4 + 2 / 16384, 1 / 2, rfl, rfl, by norm_num⟩
  · rw [← Bool.not_eq_true]
    intro h
    obtain ⟨_, _, _, _, _, _, _, ax, ay, bx, bY, e1, e2, hd⟩ := C101_matches_only _ _ h
    simp only [sampleOpsin, CIEXY.mk.injEq, F32.fin.injEq] at e1 e2
    obtain ⟨rfl, rfl⟩ := e1
    obtain ⟨rfl, rfl⟩ := e2
    norm_num at hd
  · rintro a ⟨r, hr, hn⟩
    rw [← Bool.not_eq_true]
    intro h
    have h1 := (C101_matches_only _ _ h).1
    have h2 : List.Forall₂ (fun x y => F32.eq x y = true) r r := by
      obtain ⟨i, hi, rfl⟩ := List.getElem_of_mem hr
      simpa using (List.forall₂_iff_get.mp h1).2 i hi hi
    obtain ⟨i, hi, he⟩ := List.getElem_of_mem hn
    have := (List.forall₂_iff_get.mp h2).2 i hi hi
    simp [he, F32.eq] at this

/-! ## C102 -/

/-- C102, clamping: the number nearest to `v` between `a` and `b`, in either order. -/
theorem C102_clamp (v a b : ℚ) : clamp3F32 (.fin v) (.fin a) (.fin b) = .fin (max (min a b) (min v (max a b))) := by
  unfold clamp3F32
  simp only [F32.lt, decide_eq_true_eq]
  by_cases h : a < b
  · simp only [h, if_true, F32.lt, decide_eq_true_eq, min_eq_left h.le, max_eq_right h.le]
    by_cases h1 : v < a
    · rw [if_pos h1, min_eq_left (by linarith), max_eq_left h1.le]
    · rw [if_neg h1]
      push Not at h1
      by_cases h2 : b < v
      · rw [if_pos h2, min_eq_right h2.le, max_eq_right h.le]
      · rw [if_neg h2, min_eq_left (by linarith), max_eq_right h1]
  · simp only [h, if_false, F32.lt, decide_eq_true_eq]
    push Not at h
    rw [min_eq_right h, max_eq_left h]
    by_cases h1 : v < b
    · rw [if_pos h1, min_eq_left (by linarith), max_eq_left h1.le]
    · rw [if_neg h1]
      push Not at h1
      by_cases h2 : a < v
      · rw [if_pos h2, min_eq_right h2.le, max_eq_right h]
      · rw [if_neg h2, min_eq_left (by linarith), max_eq_right h1]

/-- Infinities are clamped to a bound, and a NaN stays what it is, whatever the bounds. -/
theorem C102_clamp_special (a b : ℚ) (x y : F32) : clamp3F32 (.inf true) (.fin a) (.fin b) = .fin (min a b) ∧
    clamp3F32 (.inf false) (.fin a) (.fin b) = .fin (max a b) ∧ clamp3F32 .nan x y = .nan := by
  refine ⟨?_, ?_, ?_⟩
  · unfold clamp3F32
    by_cases h : a < b
    · simp [F32.lt, h, h.le]
    · simp [F32.lt, h, not_lt.mp h]
  · unfold clamp3F32
    by_cases h : a < b
    · simp [F32.lt, h, h.le]
    · simp [F32.lt, h, not_lt.mp h]
  · have h1 : ∀ z : F32, F32.lt .nan z = false := fun z => by cases z <;> rfl
    have h2 : ∀ z : F32, F32.lt z .nan = false := fun z => by cases z <;> rfl
    unfold clamp3F32
    simp [h1, h2]

/-- A number between the bounds, and one above them, with the bounds in either order. -/
example : clamp3F32 (.fin 2) (.fin 3) (.fin 1) = .fin 2 ∧ clamp3F32 (.fin 7) (.fin 3) (.fin 1) = .fin 3 := by
  constructor <;> rw [C102_clamp] <;> norm_num

/-- C102, filling: exactly the elements from `fromIndex` up to but not including `toIndex` are replaced; the length stays. -/
theorem C102_fill {α : Type} (l : List α) (fromIndex toIndex : Nat) (v : α) (h1 : fromIndex ≤ toIndex) (h2 : toIndex ≤ l.length) :
    ∃ r, fillFloat32 l fromIndex toIndex v = .ok r ∧ r.length = l.length ∧ ∀ k, r[k]? = if fromIndex ≤ k ∧ k < toIndex then some v else l[k]? := by
  have := fillFrom_ok v (toIndex - fromIndex) fromIndex l (by omega)
  rwa [show fromIndex + (toIndex - fromIndex) = toIndex by omega] at this

/-- An empty range changes nothing, even if it lies outside; any other range that ends outside crashes. -/
theorem C102_fill_outside {α : Type} (l : List α) (fromIndex toIndex : Nat) (v : α) :
    (toIndex ≤ fromIndex → fillFloat32 l fromIndex toIndex v = .ok l) ∧
    (fromIndex < toIndex → l.length < toIndex → fillFloat32 l fromIndex toIndex v = .panic) := by
  constructor
  · intro h
    unfold fillFloat32
    rw [show toIndex - fromIndex = 0 by omega]
    rfl
  · intro h1 h2
    exact fillFrom_panic v _ _ l (by omega) (by omega)

/-- A range in the middle, an empty one outside, and one that ends outside. -/
example : fillFloat32 [1, 2, 3, 4] 1 3 0 = .ok [1, 0, 0, 4] ∧ fillFloat32 [1, 2] 7 5 0 = .ok [1, 2] ∧ fillFloat32 [1, 2] 1 3 0 = .panic := by decide

end Jxl
