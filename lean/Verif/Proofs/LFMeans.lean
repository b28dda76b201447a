import Verif.Spec.LFMeans
import Verif.Proofs.DCTReal

/-! # Means of cosine series -/
namespace Jxl
open Finset Spec

theorem lowScale_angle {n a : Nat} (ha : a ≤ 5) (hn : n < 2 ^ a) : Real.pi * ((n * 2 ^ (5 - a) : Nat) : ℝ) / 512 = Real.pi * n / (16 * (2 ^ a : Nat)) := by
  have h : (2 : ℝ) ^ (5 - a) * 2 ^ a = 32 := by
    rw [← pow_add, show 5 - a + a = 5 by omega]
    norm_num
  push_cast
  rw [div_eq_div_iff (by norm_num) (by positivity)]
  calc Real.pi * (n * 2 ^ (5 - a)) * (16 * 2 ^ a) = Real.pi * n * 16 * (2 ^ (5 - a) * 2 ^ a) := by ring
    _ = Real.pi * n * 512 := by rw [h]; ring

/-- The sum of eight neighbouring cosines. -/
theorem sum_eight (θ α : ℝ) : ∑ k ∈ range 8, Real.cos (θ + (2 * (k : ℝ) - 7) * α) = 8 * Real.cos θ * (Real.cos α * Real.cos (2 * α) * Real.cos (4 * α)) := by
  have e1 : Real.cos (θ - 7 * α) + Real.cos (θ + 7 * α) = 2 * Real.cos θ * Real.cos (7 * α) := by rw [Real.cos_add, Real.cos_sub]; ring
  have e2 : Real.cos (θ - 5 * α) + Real.cos (θ + 5 * α) = 2 * Real.cos θ * Real.cos (5 * α) := by rw [Real.cos_add, Real.cos_sub]; ring
  have e3 : Real.cos (θ - 3 * α) + Real.cos (θ + 3 * α) = 2 * Real.cos θ * Real.cos (3 * α) := by rw [Real.cos_add, Real.cos_sub]; ring
  have e4 : Real.cos (θ - α) + Real.cos (θ + α) = 2 * Real.cos θ * Real.cos α := by rw [Real.cos_add, Real.cos_sub]; ring
  have f1 : Real.cos (3 * α) + Real.cos α = 2 * Real.cos (2 * α) * Real.cos α := by
    rw [Real.cos_add_cos]; congr 2
    · congr 1; ring
    · ring
  have f2 : Real.cos (7 * α) + Real.cos (5 * α) = 2 * Real.cos (6 * α) * Real.cos α := by
    rw [Real.cos_add_cos]; congr 2
    · congr 1; ring
    · ring
  have f3 : Real.cos (6 * α) + Real.cos (2 * α) = 2 * Real.cos (4 * α) * Real.cos (2 * α) := by
    rw [Real.cos_add_cos]; congr 2
    · congr 1; ring
    · ring
  have g : ∑ k ∈ range 8, Real.cos (θ + (2 * (k : ℝ) - 7) * α) = Real.cos (θ - 7 * α) + Real.cos (θ - 5 * α) + Real.cos (θ - 3 * α) + Real.cos (θ - α) + Real.cos (θ + α) +
      Real.cos (θ + 3 * α) + Real.cos (θ + 5 * α) + Real.cos (θ + 7 * α) := by
    simp only [sum_range_succ, sum_range_zero, zero_add]
    push_cast
    congr 1
    congr 1
    congr 1
    congr 1
    congr 1
    congr 1
    congr 1
    all_goals (congr 1; ring)
  rw [g]
  linear_combination e1 + e2 + e3 + e4 + 2 * Real.cos θ * f1 + 2 * Real.cos θ * f2 + 4 * Real.cos θ * Real.cos α * f3

/-- The mean of eight neighbouring values of a base function is a value of the base function of an eighth of the length, but for a factor. -/
theorem mean_basis {M : Nat} (hM : 0 < M) (n j : Nat) : (∑ k ∈ range 8, basis (8 * M) n (8 * j + k)) =
    8 * basis M n j * (Real.cos (Real.pi * n / (16 * M)) * Real.cos (2 * (Real.pi * n / (16 * M))) * Real.cos (4 * (Real.pi * n / (16 * M)))) := by
  have hM' : (M : ℝ) ≠ 0 := by exact_mod_cast hM.ne'
  by_cases hn : n = 0
  · subst hn
    simp [basis_zero]
  · have e : ∀ k : Nat, basis (8 * M) n (8 * j + k) = Real.sqrt 2 * Real.cos (Real.pi * n * (j + 1 / 2) / M + (2 * (k : ℝ) - 7) * (Real.pi * n / (16 * M))) := by
      intro k
      rw [basis_pos hn]
      congr 2
      push_cast
      field_simp
      ring
    rw [sum_congr rfl fun k _ => e k, ← mul_sum, sum_eight, basis_pos hn]
    ring

theorem lowScale_mul {n a : Nat} (ha : a ≤ 5) (hn : n < 2 ^ a) : lowScale (n * 2 ^ (5 - a)) *
    (Real.cos (Real.pi * n / (16 * (2 ^ a : Nat))) * Real.cos (2 * (Real.pi * n / (16 * (2 ^ a : Nat)))) * Real.cos (4 * (Real.pi * n / (16 * (2 ^ a : Nat))))) = 1 := by
  unfold lowScale
  rw [lowScale_angle ha hn, one_div]
  refine inv_mul_cancel₀ ?_
  have h0 : (0 : ℝ) ≤ Real.pi * n / (16 * (2 ^ a : Nat)) := by have := Real.pi_pos; positivity
  have h1 : Real.pi * n / (16 * (2 ^ a : Nat)) < Real.pi / 16 := by
    rw [div_lt_div_iff₀ (by positivity) (by norm_num)]
    have : (n : ℝ) < (2 ^ a : Nat) := by exact_mod_cast hn
    have hp := Real.pi_pos
    nlinarith
  have hp := Real.pi_pos
  have hc : ∀ t : ℝ, 0 ≤ t → t < Real.pi / 2 → Real.cos t ≠ 0 := fun t h0 h1 => (Real.cos_pos_of_mem_Ioo ⟨by linarith, h1⟩).ne'
  exact mul_ne_zero (mul_ne_zero (hc _ h0 (by linarith)) (hc _ (by linarith) (by linarith))) (hc _ (by linarith) (by linarith))

theorem sum_basis {N n : Nat} (hn : n < N) : ∑ k ∈ range N, basis N n k = if n = 0 then (N : ℝ) else 0 := by
  have := basis_orth (N := N) (n := n) (m := 0) hn (by omega)
  simpa [basis_zero] using this

/-- The mean of a cosine series is its first coefficient. -/
theorem sum_idct2 (h w : Nat) (hh : 0 < h) (hw : 0 < w) (f : Nat → Nat → ℝ) : ∑ y ∈ range h, ∑ x ∈ range w, idct2 h w f y x = h * w * f 0 0 := by
  have e : ∀ y, ∑ x ∈ range w, idct2 h w f y x = w * ∑ m ∈ range h, f m 0 * basis h m y := by
    intro y
    have e1 : ∀ x, idct2 h w f y x = ∑ n ∈ range w, (∑ m ∈ range h, f m n * basis h m y) * basis w n x := by
      intro x
      rw [← idct2_cols]
      rfl
    rw [sum_congr rfl fun x _ => e1 x, sum_comm]
    have e2 : ∀ n ∈ range w, ∑ x ∈ range w, (∑ m ∈ range h, f m n * basis h m y) * basis w n x = if n = 0 then w * ∑ m ∈ range h, f m 0 * basis h m y else 0 := by
      intro n hn
      rw [← mul_sum, sum_basis (mem_range.1 hn)]
      by_cases h0 : n = 0
      · subst h0
        rw [if_pos rfl, if_pos rfl]
        ring
      · rw [if_neg h0, if_neg h0, mul_zero]
    rw [sum_congr rfl e2, sum_ite_eq' (range w) 0, if_pos (mem_range.2 hw)]
  rw [sum_congr rfl fun y _ => e y, ← mul_sum, sum_comm]
  have e3 : ∀ m ∈ range h, ∑ y ∈ range h, f m 0 * basis h m y = if m = 0 then h * f 0 0 else 0 := by
    intro m hm
    rw [← mul_sum, sum_basis (mem_range.1 hm)]
    by_cases h0 : m = 0
    · subst h0
      rw [if_pos rfl, if_pos rfl]
      ring
    · rw [if_neg h0, if_neg h0, mul_zero]
  rw [sum_congr rfl e3, sum_ite_eq' (range h) 0, if_pos (mem_range.2 hh)]
  ring

end Jxl
