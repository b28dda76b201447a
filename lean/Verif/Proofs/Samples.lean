import Verif.Model.Image
import Verif.Spec.Image
import Verif.Proofs.F32

/-! # Conversion of samples between integers and floats -/
namespace Jxl
open F32

/-- Adding one half to a product, with one or two roundings. -/
theorem mulAdd_half (I : FloatImpl) (p m : ℚ) (h0 : 0 ≤ p * m) (h1 : p * m ≤ 4294967296) (ht : p * m = 0 ∨ 1 / 1000000000 ≤ p * m) :
    ∃ r, I.mulAdd (.fin p) (.fin m) (.fin (1 / 2)) = .fin r ∧ |r - (p * m + 1 / 2)| ≤ (p * m) * 3 / 16777216 + 1 / 16777216 := by
  unfold FloatImpl.mulAdd
  have hb : |p * m| ≤ (2 : ℚ) ^ 100 := by rw [abs_of_nonneg h0]; norm_num; linarith
  by_cases hI : I.fused
  · rw [if_pos hI]
    have e : F32.fma (.fin p) (.fin m) (.fin (1 / 2)) = F32.round (p * m + 1 / 2) := rfl
    rw [e, F32.round_fin _ (by rw [abs_of_nonneg (by linarith)]; norm_num; linarith)]
    refine ⟨_, rfl, ?_⟩
    have := F32.near_bounds (x := p * m + 1 / 2) (F32.tiny_le (by linarith))
    rw [abs_le]
    constructor <;> linarith [this.1, this.2]
  · rw [if_neg hI]
    have e : F32.mul (.fin p) (.fin m) = F32.round (p * m) := rfl
    rw [e, F32.round_fin _ hb]
    have e2 : F32.add (.fin (F32.near (p * m))) (.fin (1 / 2)) = F32.round (F32.near (p * m) + 1 / 2) := rfl
    rw [e2]
    have hq : p * m - p * m / 16777216 ≤ F32.near (p * m) ∧ F32.near (p * m) ≤ p * m + p * m / 16777216 := by
      rcases ht with h | h
      · rw [h, F32.near_zero]; constructor <;> norm_num
      · exact F32.near_bounds (F32.tiny_le h)
    generalize F32.near (p * m) = q at hq
    generalize p * m = t at *
    rw [F32.round_fin _ (by rw [abs_of_nonneg (by linarith [hq.1])]; norm_num; linarith [hq.2])]
    refine ⟨_, rfl, ?_⟩
    have := F32.near_bounds (x := q + 1 / 2) (F32.tiny_le (by linarith [hq.1]))
    rw [abs_le]
    constructor <;> linarith [this.1, this.2, hq.1, hq.2]

/-- The float of an integer sample: `v/m` with a relative error of at most 3·2^-24. -/
theorem toFloat_err (v m : ℤ) (h0 : 0 < v) (hv : v ≤ m) (hm : m < 1048576) :
    ∃ p, F32.mul (F32.ofInt v) (F32.div (.fin 1) (F32.ofInt m)) = .fin p ∧ |p - (v : ℚ) / m| ≤ (v : ℚ) / m * 3 / 16777216 := by
  have hmq : (0 : ℚ) < m := by exact_mod_cast (by omega : 0 < m)
  have hvq : (0 : ℚ) < v := by exact_mod_cast h0
  have hv1 : (1 : ℚ) ≤ v := by exact_mod_cast (by omega : 1 ≤ v)
  have hm2 : (m : ℚ) ≤ 1048576 := by exact_mod_cast (by omega : m ≤ 1048576)
  have hvm : (v : ℚ) ≤ m := by exact_mod_cast hv
  rw [F32.ofInt, F32.ofInt, F32.round_int v (by rw [abs_of_pos h0]; omega), F32.round_int m (by rw [abs_of_pos (by omega)]; omega)]
  have e1 : F32.div (.fin 1) (.fin m) = F32.round (1 / m) := by
    show (if (m : ℚ) = 0 then _ else _) = _
    rw [if_neg (ne_of_gt hmq)]
  have hi : (1 : ℚ) / 1048576 ≤ 1 / m := one_div_le_one_div_of_le hmq hm2
  have hi1 : (1 : ℚ) / m ≤ 1 := by
    rw [div_le_one hmq]
    linarith
  rw [e1, F32.round_fin _ (by rw [abs_of_nonneg (by linarith)]; norm_num at *; linarith)]
  have hs := F32.near_bounds (x := (1 : ℚ) / m) (F32.tiny_le (by norm_num at *; linarith))
  have hd : (v : ℚ) / m = v * (1 / m) := by field_simp
  rw [hd]
  generalize (1 : ℚ) / m = i at *
  generalize F32.near i = s at *
  have e2 : F32.mul (.fin v) (.fin s) = F32.round (v * s) := rfl
  have hv2 : (v : ℚ) ≤ 1048576 := le_trans hvm hm2
  have hs0 : (1 : ℚ) / 2097152 ≤ s := by norm_num at *; linarith [hs.1]
  have hvs0 : (1 : ℚ) / 2097152 ≤ v * s := by nlinarith
  have hvs1 : (v : ℚ) * s ≤ v * i + v * i / 16777216 := by nlinarith [hs.2]
  have hvs2 : (v : ℚ) * i - v * i / 16777216 ≤ v * s := by nlinarith [hs.1]
  have hvi : (v : ℚ) * i ≤ 1048576 := by nlinarith
  have hvi0 : 0 < (v : ℚ) * i := by
    have : 0 < i := by norm_num at hi; linarith
    positivity
  rw [e2]
  generalize (v : ℚ) * s = t at *
  generalize (v : ℚ) * i = a at *
  rw [F32.round_fin _ (by rw [abs_of_nonneg (by linarith)]; norm_num; linarith)]
  refine ⟨_, rfl, ?_⟩
  have := F32.near_bounds (x := t) (F32.tiny_le (by linarith))
  rw [abs_le]
  constructor <;> linarith [this.1, this.2]

theorem toFloat_zero (m : ℤ) (h1 : 1 ≤ m) (hm : m < 1048576) :
    F32.mul (F32.ofInt 0) (F32.div (.fin 1) (F32.ofInt m)) = .fin 0 := by
  rw [F32.ofInt, F32.ofInt, F32.round_int 0 (by norm_num), F32.round_int m (by rw [abs_of_pos (by omega)]; omega)]
  have hmq : (0 : ℚ) < m := by exact_mod_cast (by omega : 0 < m)
  have hm1 : (1 : ℚ) ≤ m := by exact_mod_cast h1
  have e1 : F32.div (.fin 1) (.fin m) = F32.round (1 / m) := by
    show (if (m : ℚ) = 0 then _ else _) = _
    rw [if_neg (ne_of_gt hmq)]
  have hi1 : (1 : ℚ) / m ≤ 1 := by
    rw [div_le_one hmq]
    linarith
  have hi0 : (0 : ℚ) < 1 / m := by positivity
  rw [e1, F32.round_fin _ (by rw [abs_of_nonneg (by linarith)]; norm_num at *; linarith)]
  show F32.round _ = _
  simp only [Int.cast_zero, zero_mul]
  rw [F32.round_fin _ (by norm_num), F32.near_zero]

/-- Conversion to another bit depth: the integer obtained from the float of `v` (of `m`) is within 1/2 plus a small error
of `v·n/m`. -/
theorem rescale_err (I : FloatImpl) (v m n : ℤ) (h0 : 0 ≤ v) (hv : v ≤ m) (h1 : 1 ≤ m) (hm : m < 1048576) (hn : 1 ≤ n) (hn' : n < 1048576) :
    ∃ r, I.mulAdd (F32.mul (F32.ofInt v) (F32.div (.fin 1) (F32.ofInt m))) (F32.ofInt n) (.fin (1 / 2)) = .fin r ∧
      |r - ((v : ℚ) * n / m + 1 / 2)| ≤ ((v : ℚ) * n / m) * 7 / 16777216 + 1 / 16777216 := by
  have hmq : (0 : ℚ) < m := by exact_mod_cast (by omega : 0 < m)
  have hnq : (1 : ℚ) ≤ n := by exact_mod_cast hn
  have hnq2 : (n : ℚ) ≤ 1048576 := by exact_mod_cast (by omega : n ≤ 1048576)
  have hof : F32.ofInt n = .fin n := by rw [F32.ofInt, F32.round_int n (by rw [abs_of_pos (by omega)]; omega)]
  rw [hof]
  by_cases hv0 : v = 0
  · subst hv0
    rw [toFloat_zero m h1 hm]
    obtain ⟨r, e, hr⟩ := mulAdd_half I 0 n (by norm_num) (by norm_num) (Or.inl (by norm_num))
    refine ⟨r, e, ?_⟩
    simpa using hr
  · obtain ⟨p, e, hp⟩ := toFloat_err v m (by omega) hv hm
    rw [e]
    have hvq : (1 : ℚ) ≤ v := by exact_mod_cast (by omega : 1 ≤ v)
    have hvm : (v : ℚ) ≤ m := by exact_mod_cast hv
    have hm2 : (m : ℚ) ≤ 1048576 := by exact_mod_cast (by omega : m ≤ 1048576)
    have ha1 : (v : ℚ) / m ≤ 1 := by rw [div_le_one hmq]; exact hvm
    have ha0 : (1 : ℚ) / 1048576 ≤ (v : ℚ) / m := by
      rw [div_le_div_iff₀ (by norm_num) hmq]
      nlinarith
    have ed : (v : ℚ) * n / m = (v : ℚ) / m * n := by field_simp
    rw [ed]
    generalize (v : ℚ) / m = a at *
    rw [abs_le] at hp
    have hp0 : 0 < p := by norm_num at *; linarith [hp.1]
    have hp1 : p ≤ 2 := by linarith [hp.2]
    have hp2 : (1 : ℚ) / 2097152 ≤ p := by norm_num at *; linarith [hp.1]
    have b1 : p * n ≤ a * n + a * n * 3 / 16777216 := by nlinarith [hp.2]
    have b2 : a * n - a * n * 3 / 16777216 ≤ p * n := by nlinarith [hp.1]
    have b3 : (1 : ℚ) / 2097152 ≤ p * n := by nlinarith
    have b4 : p * n ≤ 4294967296 := by nlinarith
    obtain ⟨r, er, hr⟩ := mulAdd_half I p n (by linarith) b4 (Or.inr (by linarith))
    refine ⟨r, er, ?_⟩
    have b5 : 0 ≤ a * n := by nlinarith
    generalize p * (n : ℚ) = t at *
    generalize a * (n : ℚ) = c at *
    rw [abs_le] at hr ⊢
    constructor <;> linarith [hr.1, hr.2]

/-- Truncation of a float near `t + 1/2`. -/
theorem toI32_pos (big : F32 → ℤ) (r : ℚ) (h0 : 0 ≤ r) (h1 : r < 2147483648) : F32.toI32 big (.fin r) = ⌊r⌋ := by
  have a : 0 ≤ ⌊r⌋ := Int.floor_nonneg.2 h0
  have b : ⌊r⌋ < 2147483648 := by rw [Int.floor_lt]; exact_mod_cast h1
  simp only [F32.toI32, if_pos h0]
  rw [if_pos (by omega)]

theorem sampleToInt_fin (I : FloatImpl) (m : ℤ) (f : F32) (r : ℚ) (h : I.mulAdd f (F32.ofInt m) (.fin (1 / 2)) = .fin r) (h0 : 0 ≤ r)
    (h1 : r < 2147483648) : sampleToInt I m f = if m < ⌊r⌋ then m else ⌊r⌋ := by
  have a : 0 ≤ ⌊r⌋ := Int.floor_nonneg.2 h0
  unfold sampleToInt
  rw [h, toI32_pos I.big r h0 h1]
  rw [if_neg (by omega)]

end Jxl
