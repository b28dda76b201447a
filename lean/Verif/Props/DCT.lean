import Mathlib.Tactic.IntervalCases
import Verif.Proofs.DCTReal

/-!
# C66: the inverse cosine transform undoes the forward transform

`inverseDCT2D` and `forwardDCT2D` are the code of the repository, written for any arithmetic. The theorems over `ℝ` are about the same code with exact numbers and the exact
cosines in the tables (`realLUT`); the decoder rounds every step to float32. All blocks of the format have sides 2^a with a ≤ 8.
-/
namespace Jxl

section
variable {a b H W S : Nat} (ha : a ≤ 8) (hb : b ≤ 8) {src dest s0 s1 : List (List ℝ)} {y0 x0 yd xd : Nat} {f : Nat → Nat → ℝ}
  (hf : HasBlock y0 x0 (2 ^ a) (2 ^ b) f src) (t0 : Table S S s0) (t1 : Table S S s1) (hS : 2 ^ a ≤ S) (hS' : 2 ^ b ≤ S) (hT : Table H W dest)
include ha hb hf t0 t1 hS hS' hT

/-- C66: the inverse transform of a block is its cosine series, whatever the scratch spaces held; the rest of the target stays. -/
theorem C66_inverse (hH : yd + 2 ^ a ≤ H) (hW : xd + 2 ^ b ≤ W) :
    ∃ dest' s0' s1', inverseDCT2D realLUT src dest (y0, x0) (yd, xd) (2 ^ a, 2 ^ b) s0 s1 false = .ok (dest', s0', s1') ∧ Table S S s0' ∧ Table S S s1' ∧
      Laid H W yd xd (2 ^ a) (2 ^ b) (idct2 (2 ^ a) (2 ^ b) f) dest dest' := by
  obtain ⟨d, u0, u1, e, h0, h1, h2, h3⟩ := inverseDCT2D_ok (by omega) (by omega) (realLUT_has ha) (realLUT_has hb) hf hT hH hW t0 t1 hS hS'
  refine ⟨d, u0, u1, e, h0, h1, h2, fun j k => ?_⟩
  rw [h3]
  by_cases hin : (yd ≤ j ∧ j < yd + 2 ^ a) ∧ (xd ≤ k ∧ k < xd + 2 ^ b)
  · rw [if_pos hin, if_pos hin]
    beta_reduce
    rw [← idct2_cols, idctVal_real (Nat.two_pow_pos b) (fun _ _ _ _ _ => rfl) _ (by omega)]
    rw [idct1_congr fun n _ => idctVal_real (Nat.two_pow_pos a) (fun _ _ _ _ _ => rfl) _ (by omega)]
  · rw [if_neg hin, if_neg hin]

/-- C66: with `transposed` the samples are laid down transposed. -/
theorem C66_inverse_transposed (hH : yd + 2 ^ b ≤ H) (hW : xd + 2 ^ a ≤ W) :
    ∃ dest' s0' s1', inverseDCT2D realLUT src dest (y0, x0) (yd, xd) (2 ^ a, 2 ^ b) s0 s1 true = .ok (dest', s0', s1') ∧ Table S S s0' ∧ Table S S s1' ∧
      Laid H W yd xd (2 ^ b) (2 ^ a) (fun x y => idct2 (2 ^ a) (2 ^ b) f y x) dest dest' := by
  obtain ⟨d, u0, u1, e, h0, h1, h2, h3⟩ := inverseDCT2D_transposed_ok (by omega) (by omega) (realLUT_has ha) (realLUT_has hb) hf hT hH hW t0 t1 hS hS'
  refine ⟨d, u0, u1, e, h0, h1, h2, fun j k => ?_⟩
  rw [h3]
  by_cases hin : (yd ≤ j ∧ j < yd + 2 ^ b) ∧ (xd ≤ k ∧ k < xd + 2 ^ a)
  · rw [if_pos hin, if_pos hin]
    beta_reduce
    rw [← idct2_rows, idctVal_real (Nat.two_pow_pos a) (fun _ _ _ _ _ => rfl) _ (by omega)]
    rw [idct1_congr fun n _ => idctVal_real (Nat.two_pow_pos b) (fun _ _ _ _ _ => rfl) _ (by omega)]
  · rw [if_neg hin, if_neg hin]

/-- C66: the forward transform computes the coefficients of the cosine series. -/
theorem C66_forward (hH : yd + 2 ^ a ≤ H) (hW : xd + 2 ^ b ≤ W) :
    ∃ dest' s0' s1', forwardDCT2D realLUT src dest (y0, x0) (yd, xd) (2 ^ a, 2 ^ b) s0 s1 = .ok (dest', s0', s1') ∧ Table S S s0' ∧ Table S S s1' ∧
      Laid H W yd xd (2 ^ a) (2 ^ b) (fdct2 (2 ^ a) (2 ^ b) f) dest dest' := by
  obtain ⟨d, u0, u1, e, h0, h1, h2, h3⟩ := forwardDCT2D_ok (by omega) (by omega) (realLUT_has ha) (realLUT_has hb) hf hT hH hW t0 t1 hS hS'
  refine ⟨d, u0, u1, e, h0, h1, h2, fun j k => ?_⟩
  rw [h3]
  by_cases hin : (yd ≤ j ∧ j < yd + 2 ^ a) ∧ (xd ≤ k ∧ k < xd + 2 ^ b)
  · rw [if_pos hin, if_pos hin]
    beta_reduce
    rw [← fdct2_rows, fdctVal_real (Nat.two_pow_pos a) (fun _ _ _ _ _ => rfl) _ (by omega)]
    rw [fdct1_congr fun n _ => fdctVal_real (Nat.two_pow_pos b) (fun _ _ _ _ _ => rfl) _ (by omega)]
  · rw [if_neg hin, if_neg hin]

end

/-- C66: transforming a block of samples forwards and back gives the samples, for every block of sides up to 256, wherever it lies in the three matrices. -/
theorem C66_samples_back {a b H W H' W' S : Nat} (ha : a ≤ 8) (hb : b ≤ 8) {src mid dest s0 s1 : List (List ℝ)} {y0 x0 ym xm yd xd : Nat} {f : Nat → Nat → ℝ}
    (hf : HasBlock y0 x0 (2 ^ a) (2 ^ b) f src) (t0 : Table S S s0) (t1 : Table S S s1) (hS : 2 ^ a ≤ S) (hS' : 2 ^ b ≤ S)
    (hM : Table H' W' mid) (hH' : ym + 2 ^ a ≤ H') (hW' : xm + 2 ^ b ≤ W') (hT : Table H W dest) (hH : yd + 2 ^ a ≤ H) (hW : xd + 2 ^ b ≤ W) :
    ∃ mid' u0 u1 dest' v0 v1, forwardDCT2D realLUT src mid (y0, x0) (ym, xm) (2 ^ a, 2 ^ b) s0 s1 = .ok (mid', u0, u1) ∧
      inverseDCT2D realLUT mid' dest (ym, xm) (yd, xd) (2 ^ a, 2 ^ b) u0 u1 false = .ok (dest', v0, v1) ∧ Laid H W yd xd (2 ^ a) (2 ^ b) f dest dest' := by
  obtain ⟨mid', u0, u1, e1, h0, h1, L⟩ := C66_forward ha hb hf t0 t1 hS hS' hM hH' hW'
  obtain ⟨dest', v0, v1, e2, _, _, h2, h3⟩ := C66_inverse ha hb L.block h0 h1 hS hS' hT hH hW
  refine ⟨mid', u0, u1, dest', v0, v1, e1, e2, h2, fun j k => ?_⟩
  rw [h3]
  by_cases hin : (yd ≤ j ∧ j < yd + 2 ^ a) ∧ (xd ≤ k ∧ k < xd + 2 ^ b)
  · rw [if_pos hin, if_pos hin, idct2_fdct2 f (by omega) (by omega)]
  · rw [if_neg hin, if_neg hin]

/-- C66: no two blocks of coefficients give the same samples: the coefficients can be read back. -/
theorem C66_coefficients_back {a b H W H' W' S : Nat} (ha : a ≤ 8) (hb : b ≤ 8) {src mid dest s0 s1 : List (List ℝ)} {y0 x0 ym xm yd xd : Nat} {f : Nat → Nat → ℝ}
    (hf : HasBlock y0 x0 (2 ^ a) (2 ^ b) f src) (t0 : Table S S s0) (t1 : Table S S s1) (hS : 2 ^ a ≤ S) (hS' : 2 ^ b ≤ S)
    (hM : Table H' W' mid) (hH' : ym + 2 ^ a ≤ H') (hW' : xm + 2 ^ b ≤ W') (hT : Table H W dest) (hH : yd + 2 ^ a ≤ H) (hW : xd + 2 ^ b ≤ W) :
    ∃ mid' u0 u1 dest' v0 v1, inverseDCT2D realLUT src mid (y0, x0) (ym, xm) (2 ^ a, 2 ^ b) s0 s1 false = .ok (mid', u0, u1) ∧
      forwardDCT2D realLUT mid' dest (ym, xm) (yd, xd) (2 ^ a, 2 ^ b) u0 u1 = .ok (dest', v0, v1) ∧ Laid H W yd xd (2 ^ a) (2 ^ b) f dest dest' := by
  obtain ⟨mid', u0, u1, e1, h0, h1, L⟩ := C66_inverse ha hb hf t0 t1 hS hS' hM hH' hW'
  obtain ⟨dest', v0, v1, e2, _, _, h2, h3⟩ := C66_forward ha hb L.block h0 h1 hS hS' hT hH hW
  refine ⟨mid', u0, u1, dest', v0, v1, e1, e2, h2, fun j k => ?_⟩
  rw [h3]
  by_cases hin : (yd ≤ j ∧ j < yd + 2 ^ a) ∧ (xd ≤ k ∧ k < xd + 2 ^ b)
  · rw [if_pos hin, if_pos hin, fdct2_idct2 f (by omega) (by omega)]
  · rw [if_neg hin, if_neg hin]

/-- A block of zeros but for one coefficient, at (1, 3) of a matrix, with scratch spaces full of rubbish. -/
example : HasBlock 1 3 (2 ^ 1) (2 ^ 2) (fun y x => if y = 1 ∧ x = 2 then (5 : ℝ) else 0) [[9, 9, 9, 9, 9, 9, 9], [9, 9, 9, 0, 0, 0, 0], [9, 9, 9, 0, 0, 5, 0]] ∧
    Table 4 4 (List.replicate 4 (List.replicate 4 (7 : ℝ))) := by
  refine ⟨?_, rfl, fun r hr => by rw [List.eq_of_mem_replicate hr]; rfl⟩
  intro y x hy hx
  interval_cases y <;> interval_cases x <;> simp [sample]

section
variable {α : Type} [Arith α] {lut : List (List (List α))} {a b : Nat} (ha : a ≤ 31) (hb : b ≤ 31) {ca cb : Nat → Nat → α}
  (la : HasLUT lut a (2 ^ a) ca) (lb : HasLUT lut b (2 ^ b) cb)
include ha hb la lb

/-- C66: in every arithmetic, float32 included, the result of the inverse transform depends on the coefficients only: not on what the scratch spaces or the target held
before, and not on where the block lies. -/
theorem C66_inverse_alone {H W S H' W' S' : Nat} {src dest s0 s1 src' dest' s0' s1' : List (List α)} {y0 x0 yd xd y0' x0' yd' xd' : Nat} {f : Nat → Nat → α}
    (hf : HasBlock y0 x0 (2 ^ a) (2 ^ b) f src) (hT : Table H W dest) (hH : yd + 2 ^ a ≤ H) (hW : xd + 2 ^ b ≤ W)
    (t0 : Table S S s0) (t1 : Table S S s1) (hS : 2 ^ a ≤ S) (hS' : 2 ^ b ≤ S)
    (hf' : HasBlock y0' x0' (2 ^ a) (2 ^ b) f src') (hT' : Table H' W' dest') (hH' : yd' + 2 ^ a ≤ H') (hW' : xd' + 2 ^ b ≤ W')
    (t0' : Table S' S' s0') (t1' : Table S' S' s1') (hS1 : 2 ^ a ≤ S') (hS2 : 2 ^ b ≤ S') :
    ∃ g r u0 u1 r' u0' u1', inverseDCT2D lut src dest (y0, x0) (yd, xd) (2 ^ a, 2 ^ b) s0 s1 false = .ok (r, u0, u1) ∧
      inverseDCT2D lut src' dest' (y0', x0') (yd', xd') (2 ^ a, 2 ^ b) s0' s1' false = .ok (r', u0', u1') ∧
      Laid H W yd xd (2 ^ a) (2 ^ b) g dest r ∧ Laid H' W' yd' xd' (2 ^ a) (2 ^ b) g dest' r' := by
  obtain ⟨d, u0, u1, e, _, _, L⟩ := inverseDCT2D_ok ha hb la lb hf hT hH hW t0 t1 hS hS'
  obtain ⟨d', u0', u1', e', _, _, L'⟩ := inverseDCT2D_ok ha hb la lb hf' hT' hH' hW' t0' t1' hS1 hS2
  exact ⟨_, d, u0, u1, d', u0', u1', e, e', L, L'⟩

/-- C66: the same for the forward transform. -/
theorem C66_forward_alone {H W S H' W' S' : Nat} {src dest s0 s1 src' dest' s0' s1' : List (List α)} {y0 x0 yd xd y0' x0' yd' xd' : Nat} {f : Nat → Nat → α}
    (hf : HasBlock y0 x0 (2 ^ a) (2 ^ b) f src) (hT : Table H W dest) (hH : yd + 2 ^ a ≤ H) (hW : xd + 2 ^ b ≤ W)
    (t0 : Table S S s0) (t1 : Table S S s1) (hS : 2 ^ a ≤ S) (hS' : 2 ^ b ≤ S)
    (hf' : HasBlock y0' x0' (2 ^ a) (2 ^ b) f src') (hT' : Table H' W' dest') (hH' : yd' + 2 ^ a ≤ H') (hW' : xd' + 2 ^ b ≤ W')
    (t0' : Table S' S' s0') (t1' : Table S' S' s1') (hS1 : 2 ^ a ≤ S') (hS2 : 2 ^ b ≤ S') :
    ∃ g r u0 u1 r' u0' u1', forwardDCT2D lut src dest (y0, x0) (yd, xd) (2 ^ a, 2 ^ b) s0 s1 = .ok (r, u0, u1) ∧
      forwardDCT2D lut src' dest' (y0', x0') (yd', xd') (2 ^ a, 2 ^ b) s0' s1' = .ok (r', u0', u1') ∧
      Laid H W yd xd (2 ^ a) (2 ^ b) g dest r ∧ Laid H' W' yd' xd' (2 ^ a) (2 ^ b) g dest' r' := by
  obtain ⟨d, u0, u1, e, _, _, L⟩ := forwardDCT2D_ok ha hb la lb hf hT hH hW t0 t1 hS hS'
  obtain ⟨d', u0', u1', e', _, _, L'⟩ := forwardDCT2D_ok ha hb la lb hf' hT' hH' hW' t0' t1' hS1 hS2
  exact ⟨_, d, u0, u1, d', u0', u1', e, e', L, L'⟩

end

/-- The tables the decoder builds meet the hypothesis, in every arithmetic. -/
theorem C66_tables {α : Type} (cos : Nat → Nat → Nat → α) {a : Nat} (ha : a ≤ 8) : HasLUT (generateCosineLUT cos) a (2 ^ a) (fun n k => cos a (n - 1) k) := by
  unfold generateCosineLUT
  refine ⟨_, by rw [List.getElem?_map, List.getElem?_range (by omega)]; rfl, fun n k h1 h2 h3 => ?_⟩
  unfold sample
  rw [List.getElem?_map, List.getElem?_range (by omega)]
  simp only [Option.map_some, Option.bind_some]
  rw [List.getElem?_map, List.getElem?_range h3]
  rfl

/-- The transform of a block of 2 rows and 1 column over the rationals, with a table that says √2·cos(π/4) = 1: the first column of the target is 3 + 4 and 3 - 4. -/
example : inverseDCT2D (generateCosineLUT fun _ _ k => if k = 0 then (1 : ℚ) else -1) [[3], [4]] [[0, 0], [0, 0]] (0, 0) (0, 1) (2, 1) [[5, 5], [5, 5]] [[6, 6], [6, 6]] false =
    .ok ([[0, 7], [0, -1]], [[7, 4], [-1, 5]], [[7, -1], [6, 6]]) := by decide +kernel

end Jxl
