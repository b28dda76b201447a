import Mathlib.LinearAlgebra.Matrix.NonsingularInverse
import Mathlib.Analysis.SpecialFunctions.Trigonometric.Bounds
import Mathlib.Algebra.BigOperators.Field
import Mathlib.Tactic.FieldSimp
import Mathlib.Tactic.Ring
import Mathlib.Tactic.Linarith
import Mathlib.Tactic.Positivity
import Verif.Proofs.DCT

/-! # Cosine transforms: orthogonality -/
namespace Jxl
open Finset

theorem sum_cos (N m : Nat) (h0 : 0 < m) (h1 : m < 2 * N) : ∑ k ∈ range N, Real.cos (Real.pi * m * (k + 1 / 2) / N) = 0 := by
  have hN : (0 : ℝ) < N := by
    have : 0 < N := by omega
    exact_mod_cast this
  have hs : 0 < Real.sin (Real.pi * m / (2 * N)) := by
    apply Real.sin_pos_of_pos_of_lt_pi
    · have : (0 : ℝ) < m := by exact_mod_cast h0
      have := Real.pi_pos
      positivity
    · rw [div_lt_iff₀ (by positivity)]
      have : (m : ℝ) < 2 * N := by exact_mod_cast h1
      exact mul_lt_mul_of_pos_left this Real.pi_pos
  have key : ∀ n : Nat, 2 * Real.sin (Real.pi * m / (2 * N)) * ∑ k ∈ range n, Real.cos (Real.pi * m * (k + 1 / 2) / N) = Real.sin (Real.pi * m * n / N) := by
    intro n
    induction n with
    | zero => simp
    | succ n ih =>
      rw [sum_range_succ, mul_add, ih]
      have e1 : Real.pi * m * ((n + 1 : Nat) : ℝ) / N = Real.pi * m * (n + 1 / 2) / N + Real.pi * m / (2 * N) := by
        push_cast
        field_simp
        ring
      have e2 : Real.pi * m * (n : ℝ) / N = Real.pi * m * (n + 1 / 2) / N - Real.pi * m / (2 * N) := by
        field_simp
        ring
      rw [e1, e2, Real.sin_add, Real.sin_sub]
      ring
  have := key N
  rw [mul_div_assoc (Real.pi * m) (N : ℝ), div_self hN.ne', mul_one, show Real.sin (Real.pi * m) = 0 by rw [mul_comm]; exact Real.sin_nat_mul_pi m] at this
  rcases mul_eq_zero.1 this with h | h
  · rcases mul_eq_zero.1 h with h | h
    · norm_num at h
    · exact absurd h hs.ne'
  · exact h

theorem basis_zero (N k : Nat) : basis N 0 k = 1 := rfl

theorem basis_pos {N n : Nat} (h : n ≠ 0) (k : Nat) : basis N n k = Real.sqrt 2 * Real.cos (Real.pi * n * (k + 1 / 2) / N) := if_neg h

theorem basis_mul {N n m : Nat} (hn : n ≠ 0) (hm : m ≤ n) (hm0 : m ≠ 0) (k : Nat) :
    basis N n k * basis N m k = Real.cos (Real.pi * (n - m : Nat) * (k + 1 / 2) / N) + Real.cos (Real.pi * (n + m : Nat) * (k + 1 / 2) / N) := by
  rw [basis_pos hn, basis_pos hm0]
  have e1 : Real.pi * (n - m : Nat) * (k + 1 / 2) / N = Real.pi * n * (k + 1 / 2) / N - Real.pi * m * (k + 1 / 2) / N := by
    rw [Nat.cast_sub hm]
    ring
  have e2 : Real.pi * (n + m : Nat) * (k + 1 / 2) / N = Real.pi * n * (k + 1 / 2) / N + Real.pi * m * (k + 1 / 2) / N := by
    push_cast
    ring
  rw [e1, e2, Real.cos_sub, Real.cos_add]
  have := Real.mul_self_sqrt (show (0 : ℝ) ≤ 2 by norm_num)
  generalize Real.cos (Real.pi * n * (k + 1 / 2) / N) = p
  generalize Real.cos (Real.pi * m * (k + 1 / 2) / N) = q
  rw [show Real.sqrt 2 * p * (Real.sqrt 2 * q) = Real.sqrt 2 * Real.sqrt 2 * (p * q) by ring, this]
  ring

theorem basis_orth_le {N n m : Nat} (hn : n < N) (hm : m ≤ n) : ∑ k ∈ range N, basis N n k * basis N m k = if n = m then (N : ℝ) else 0 := by
  by_cases hn0 : n = 0
  · subst hn0
    obtain rfl : m = 0 := by omega
    simp [basis_zero]
  by_cases hm0 : m = 0
  · subst hm0
    rw [if_neg hn0]
    simp only [basis_zero, mul_one, basis_pos hn0]
    rw [← mul_sum, sum_cos N n (by omega) (by omega), mul_zero]
  simp only [basis_mul hn0 hm hm0]
  rw [sum_add_distrib, sum_cos N (n + m) (by omega) (by omega), add_zero]
  by_cases h : n = m
  · subst h
    simp
  · rw [if_neg h, sum_cos N (n - m) (by omega) (by omega)]

theorem basis_orth {N n m : Nat} (hn : n < N) (hm : m < N) : ∑ k ∈ range N, basis N n k * basis N m k = if n = m then (N : ℝ) else 0 := by
  rcases Nat.le_total m n with h | h
  · exact basis_orth_le hn h
  · rw [show (∑ k ∈ range N, basis N n k * basis N m k) = ∑ k ∈ range N, basis N m k * basis N n k from sum_congr rfl fun k _ => mul_comm _ _, basis_orth_le hm h]
    by_cases e : n = m
    · rw [if_pos e, if_pos e.symm]
    · rw [if_neg e, if_neg (Ne.symm e)]

/-- The other way round: over all frequencies. -/
theorem basis_orth' {N k j : Nat} (hk : k < N) (hj : j < N) : ∑ n ∈ range N, basis N n k * basis N n j = if k = j then (N : ℝ) else 0 := by
  have hN : (N : ℝ) ≠ 0 := by
    have : N ≠ 0 := by omega
    exact_mod_cast this
  let A : Matrix (Fin N) (Fin N) ℝ := fun n k => basis N n k / N
  let B : Matrix (Fin N) (Fin N) ℝ := fun k n => basis N n k
  have h : A * B = 1 := by
    ext n m
    rw [Matrix.mul_apply, Matrix.one_apply]
    show ∑ k : Fin N, basis N n k / N * basis N m k = _
    rw [Fin.sum_univ_eq_sum_range (fun k => basis N n k / N * basis N m k) N]
    have e : ∀ k ∈ range N, basis N n k / N * basis N m k = basis N n k * basis N m k / N := fun k _ => by ring
    rw [sum_congr rfl e, ← sum_div, basis_orth n.2 m.2]
    by_cases hnm : n = m
    · rw [if_pos hnm, if_pos (by rw [hnm]), div_self hN]
    · rw [if_neg hnm, if_neg (fun h => hnm (Fin.ext h)), zero_div]
  have hBA : B * A = 1 := mul_eq_one_comm.1 h
  have h2 := congrFun (congrFun hBA ⟨k, hk⟩) ⟨j, hj⟩
  rw [Matrix.mul_apply, Matrix.one_apply] at h2
  have h3 : ∑ n : Fin N, basis N n k * (basis N n j / N) = if (⟨k, hk⟩ : Fin N) = ⟨j, hj⟩ then 1 else 0 := h2
  rw [Fin.sum_univ_eq_sum_range (fun n => basis N n k * (basis N n j / N)) N] at h3
  have e : ∀ n ∈ range N, basis N n k * (basis N n j / N) = basis N n k * basis N n j / N := fun k _ => by ring
  rw [sum_congr rfl e, ← sum_div, div_eq_iff hN] at h3
  rw [h3]
  by_cases hkj : k = j
  · subst hkj
    rw [if_pos rfl, if_pos rfl, one_mul]
  · rw [if_neg hkj, if_neg (fun h => hkj (congrArg Fin.val h)), zero_mul]

/-! ## One dimension -/

noncomputable def idct1 (N : Nat) (s : Nat → ℝ) (k : Nat) : ℝ := ∑ n ∈ range N, s n * basis N n k

noncomputable def fdct1 (N : Nat) (s : Nat → ℝ) (n : Nat) : ℝ := (∑ k ∈ range N, s k * basis N n k) / N

theorem fdct1_idct1 {N : Nat} (s : Nat → ℝ) {n : Nat} (hn : n < N) : fdct1 N (idct1 N s) n = s n := by
  have hN : (N : ℝ) ≠ 0 := by
    have : N ≠ 0 := by omega
    exact_mod_cast this
  unfold fdct1 idct1
  simp only [sum_mul]
  rw [sum_comm]
  have e : ∀ m ∈ range N, (∑ k ∈ range N, s m * basis N m k * basis N n k) = if m = n then s n * N else 0 := by
    intro m hm
    rw [show (∑ k ∈ range N, s m * basis N m k * basis N n k) = s m * ∑ k ∈ range N, basis N m k * basis N n k by
      rw [mul_sum]; exact sum_congr rfl fun k _ => by ring, basis_orth (mem_range.1 hm) hn]
    by_cases h : m = n
    · subst h
      rw [if_pos rfl, if_pos rfl]
    · rw [if_neg h, if_neg h, mul_zero]
  rw [sum_congr rfl e, sum_ite_eq' (range N) n, if_pos (mem_range.2 hn), mul_div_assoc, div_self hN, mul_one]

theorem idct1_fdct1 {N : Nat} (s : Nat → ℝ) {k : Nat} (hk : k < N) : idct1 N (fdct1 N s) k = s k := by
  have hN : (N : ℝ) ≠ 0 := by
    have : N ≠ 0 := by omega
    exact_mod_cast this
  unfold fdct1 idct1
  simp only [div_mul_eq_mul_div, sum_mul]
  rw [← sum_div, sum_comm]
  have e : ∀ m ∈ range N, (∑ n ∈ range N, s m * basis N n m * basis N n k) = if m = k then s k * N else 0 := by
    intro m hm
    rw [show (∑ n ∈ range N, s m * basis N n m * basis N n k) = s m * ∑ n ∈ range N, basis N n m * basis N n k by
      rw [mul_sum]; exact sum_congr rfl fun k _ => by ring, basis_orth' (mem_range.1 hm) hk]
    by_cases h : m = k
    · subst h
      rw [if_pos rfl, if_pos rfl]
    · rw [if_neg h, if_neg h, mul_zero]
  rw [sum_congr rfl e, sum_ite_eq' (range N) k, if_pos (mem_range.2 hk), mul_div_assoc, div_self hN, mul_one]

theorem idct1_congr {N : Nat} {s t : Nat → ℝ} (h : ∀ n, n < N → s n = t n) (k : Nat) : idct1 N s k = idct1 N t k :=
  sum_congr rfl fun n hn => by rw [h n (mem_range.1 hn)]

theorem fdct1_congr {N : Nat} {s t : Nat → ℝ} (h : ∀ n, n < N → s n = t n) (k : Nat) : fdct1 N s k = fdct1 N t k := by
  unfold fdct1
  rw [sum_congr rfl fun n hn => by rw [h n (mem_range.1 hn)]]

/-! ## Two dimensions -/

/-- Columns first. -/
theorem idct2_cols (h w : Nat) (f : Nat → Nat → ℝ) (y x : Nat) : idct1 w (fun n => idct1 h (fun m => f m n) y) x = idct2 h w f y x := by
  unfold idct1 idct2
  simp only [sum_mul]
  rw [sum_comm]

/-- Rows first. -/
theorem idct2_rows (h w : Nat) (f : Nat → Nat → ℝ) (y x : Nat) : idct1 h (fun m => idct1 w (fun n => f m n) x) y = idct2 h w f y x := by
  unfold idct1 idct2
  simp only [sum_mul]
  exact sum_congr rfl fun m _ => sum_congr rfl fun n _ => by ring

theorem fdct2_rows (h w : Nat) (f : Nat → Nat → ℝ) (m n : Nat) : fdct1 h (fun y => fdct1 w (fun x => f y x) n) m = fdct2 h w f m n := by
  unfold fdct1 fdct2
  simp only [div_mul_eq_mul_div, sum_mul]
  rw [← sum_div, div_div, mul_comm (w : ℝ)]
  congr 1
  exact sum_congr rfl fun m _ => sum_congr rfl fun n _ => by ring

theorem idct2_fdct2 {h w : Nat} (f : Nat → Nat → ℝ) {y x : Nat} (hy : y < h) (hx : x < w) : idct2 h w (fdct2 h w f) y x = f y x := by
  rw [← idct2_cols]
  rw [idct1_congr (t := fun n => fdct1 w (fun x => f y x) n) (fun n hn => ?_), idct1_fdct1 _ hx]
  rw [idct1_congr (t := fun m => fdct1 h (fun y => fdct1 w (fun x => f y x) n) m) (fun m hm => (fdct2_rows h w f m n).symm)]
  exact idct1_fdct1 (fun y => fdct1 w (fun x => f y x) n) hy

theorem fdct2_idct2 {h w : Nat} (f : Nat → Nat → ℝ) {m n : Nat} (hm : m < h) (hn : n < w) : fdct2 h w (idct2 h w f) m n = f m n := by
  rw [← fdct2_rows]
  rw [fdct1_congr (t := fun y => idct1 h (fun m => f m n) y) (fun y hy => ?_), fdct1_idct1 _ hm]
  rw [fdct1_congr (t := fun x => idct1 w (fun n => idct1 h (fun m => f m n) y) x) (fun x hx => (idct2_cols h w f y x).symm)]
  exact fdct1_idct1 (fun n => idct1 h (fun m => f m n) y) hn

/-! ## The loops over the reals -/

theorem foldl_add_eq_sum (g : Nat → ℝ) (n : Nat) (b : ℝ) : (List.range' 1 n).foldl (fun t i => t + g i) b = b + ∑ i ∈ range n, g (i + 1) := by
  induction n with
  | zero => simp
  | succ n ih => rw [foldl_range'_succ, ih, sum_range_succ]; ring

theorem idctVal_real {N : Nat} (hN : 0 < N) {c : Nat → Nat → ℝ} (hc : ∀ n k, 1 ≤ n → n < N → k < N → c n k = basis N n k) (s : Nat → ℝ) {k : Nat} (hk : k < N) :
    idctVal c N s k = idct1 N s k := by
  obtain ⟨M, rfl⟩ : ∃ M, N = M + 1 := ⟨N - 1, by omega⟩
  have e : idctVal c (M + 1) s k = s 0 + ∑ i ∈ range M, s (i + 1) * c (i + 1) k := foldl_add_eq_sum (fun n => s n * c n k) M (s 0)
  rw [e]
  unfold idct1
  rw [sum_range_succ', basis_zero, mul_one, add_comm]
  congr 1
  exact sum_congr rfl fun i hi => by rw [hc _ _ (by omega) (by have := mem_range.1 hi; omega) hk]

theorem fdctVal_real {N : Nat} (hN : 0 < N) {c : Nat → Nat → ℝ} (hc : ∀ n k, 1 ≤ n → n < N → k < N → c n k = basis N n k) (s : Nat → ℝ) {n : Nat} (hn : n < N) :
    fdctVal c N s n = fdct1 N s n := by
  obtain ⟨M, rfl⟩ : ∃ M, N = M + 1 := ⟨N - 1, by omega⟩
  have e : fdctVal c (M + 1) s n = (if n = 0 then (List.range' 1 M).foldl (fun (t : ℝ) n => t + s n) (s 0) else
      (List.range' 1 M).foldl (fun (t : ℝ) i => t + s i * c n i) (s 0 * c n 0)) * (((1 : ℚ) : ℝ) / (((M + 1 : ℕ) : ℚ) : ℝ)) := rfl
  rw [e]
  unfold fdct1
  rw [Rat.cast_one, Rat.cast_natCast, mul_one_div]
  congr 1
  rw [sum_range_succ']
  by_cases h : n = 0
  · subst h
    rw [if_pos rfl, foldl_add_eq_sum]
    simp only [basis_zero, mul_one]
    rw [add_comm]
  · rw [if_neg h, foldl_add_eq_sum (fun i => s i * c n i), hc n 0 (by omega) hn (by omega), add_comm]
    congr 1
    exact sum_congr rfl fun i hi => by rw [hc _ _ (by omega) hn (by have := mem_range.1 hi; omega)]

/-- The exact tables. -/
noncomputable def realLUT : List (List (List ℝ)) :=
  generateCosineLUT fun l n k => Real.sqrt 2 * Real.cos (Real.pi * (n + 1 : Nat) * (k + 1 / 2) / (2 ^ l : Nat))

theorem realLUT_has {a : Nat} (ha : a ≤ 8) : HasLUT realLUT a (2 ^ a) (basis (2 ^ a)) := by
  unfold realLUT generateCosineLUT
  refine ⟨_, by rw [List.getElem?_map, List.getElem?_range (by omega)]; rfl, fun n k h1 h2 h3 => ?_⟩
  unfold sample
  rw [List.getElem?_map, List.getElem?_range (by omega)]
  simp only [Option.map_some, Option.bind_some]
  rw [List.getElem?_map, List.getElem?_range h3]
  simp only [Option.map_some]
  rw [basis_pos (by omega), show n - 1 + 1 = n by omega]

end Jxl
