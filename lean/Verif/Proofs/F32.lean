import Verif.Model.F32
import Mathlib.Tactic.Linarith
import Mathlib.Tactic.Positivity
import Mathlib.Tactic.FieldSimp
import Mathlib.Tactic.Ring
import Mathlib.Tactic.NormNum

/-! # Rounding to `float32` -/
namespace Jxl

theorem roundEven_err (x : ℚ) : |(roundEven x : ℚ) - x| ≤ 1 / 2 := by
  have h1 := Int.floor_le x
  have h2 := Int.lt_floor_add_one x
  unfold roundEven
  dsimp only
  split_ifs <;> rw [abs_le] <;> push_cast <;> constructor <;> linarith

theorem roundEven_int (n : ℤ) : roundEven (n : ℚ) = n := by
  unfold roundEven
  dsimp only
  rw [Int.floor_intCast, if_pos (by simp)]

theorem roundEven_mono {x y : ℚ} (h : x ≤ y) : roundEven x ≤ roundEven y := by
  have hx1 := Int.floor_le x
  have hx2 := Int.lt_floor_add_one x
  have hy1 := Int.floor_le y
  have hy2 := Int.lt_floor_add_one y
  have hf : ⌊x⌋ ≤ ⌊y⌋ := Int.floor_mono h
  by_cases he : ⌊x⌋ = ⌊y⌋
  · unfold roundEven
    dsimp only
    rw [he]
    split_ifs with a b c d e f <;> first | omega | (exfalso; rw [he] at *; linarith)
  · have : ⌊x⌋ + 1 ≤ ⌊y⌋ := by omega
    have u : roundEven x ≤ ⌊x⌋ + 1 := by
      unfold roundEven; dsimp only; split_ifs <;> omega
    have v : ⌊y⌋ ≤ roundEven y := by
      unfold roundEven; dsimp only; split_ifs <;> omega
    omega

namespace F32

theorem two_zpow_pos (e : ℤ) : (0 : ℚ) < (2 : ℚ) ^ e := zpow_pos (by norm_num) e

/-- The rounding error is at most half a unit in the last place. -/
theorem near_err (x : ℚ) : |near x - x| ≤ (2 : ℚ) ^ ulpExp x / 2 := by
  have hp := two_zpow_pos (ulpExp x)
  have h := roundEven_err (x / (2 : ℚ) ^ ulpExp x)
  unfold near
  have e : (roundEven (x / (2 : ℚ) ^ ulpExp x) : ℚ) * (2 : ℚ) ^ ulpExp x - x
      = ((roundEven (x / (2 : ℚ) ^ ulpExp x) : ℚ) - x / (2 : ℚ) ^ ulpExp x) * (2 : ℚ) ^ ulpExp x := by
    field_simp
  rw [e, abs_mul, abs_of_pos hp]
  nlinarith

/-- The relative rounding error of a number that is not tiny. -/
theorem near_rel (x : ℚ) (h : (2 : ℚ) ^ (-126 : ℤ) ≤ |x|) : |near x - x| ≤ |x| / 16777216 := by
  have hx : 0 < |x| := lt_of_lt_of_le (two_zpow_pos _) h
  have hl : -126 ≤ Int.log 2 |x| := by
    rw [← Int.zpow_le_iff_le_log (b := 2) (by norm_num) hx]
    exact_mod_cast h
  have hz : (2 : ℚ) ^ Int.log 2 |x| ≤ |x| := by exact_mod_cast Int.zpow_log_le_self (b := 2) (by norm_num) hx
  refine (near_err x).trans ?_
  have e : ulpExp x = Int.log 2 |x| - 23 := by unfold ulpExp; rw [max_eq_left hl]
  rw [e, zpow_sub₀ (by norm_num)]
  have : ((2 : ℚ) ^ (23 : ℤ)) = 8388608 := by norm_num
  rw [this]
  linarith

theorem near_zero : near 0 = 0 := by
  unfold near
  rw [zero_div]
  have : roundEven (0 : ℚ) = 0 := by exact_mod_cast roundEven_int 0
  rw [this]
  simp

/-- Numbers with a significand of at most 24 bits are not changed. -/
theorem near_exact (x : ℚ) (n : ℤ) (h : x = n * (2 : ℚ) ^ ulpExp x) : near x = x := by
  have hp := two_zpow_pos (ulpExp x)
  unfold near
  have : x / (2 : ℚ) ^ ulpExp x = (n : ℚ) := by
    rw [div_eq_iff (ne_of_gt hp)]
    exact h
  rw [this, roundEven_int]
  exact h.symm

/-- Integers below 2^24 in absolute value are exact. -/
theorem near_int (n : ℤ) (h : |n| < 16777216) : near (n : ℚ) = n := by
  by_cases h0 : n = 0
  · subst h0; simpa using near_zero
  have hn : (0 : ℚ) < |(n : ℚ)| := by
    rw [abs_pos]; exact_mod_cast h0
  have hlog : Int.log 2 |(n : ℚ)| < 24 := by
    rw [← Int.lt_zpow_iff_log_lt (b := 2) (by norm_num) hn]
    have : ((|n| : ℤ) : ℚ) < 16777216 := by exact_mod_cast h
    push_cast at this
    norm_num
    exact this
  have hu : ulpExp (n : ℚ) ≤ 0 := by unfold ulpExp; omega
  refine near_exact _ (n * 2 ^ (-ulpExp (n : ℚ)).toNat) ?_
  have e : ((-ulpExp (n : ℚ)).toNat : ℤ) = -ulpExp (n : ℚ) := by omega
  push_cast
  rw [mul_assoc, ← zpow_natCast, e, ← zpow_add₀ (by norm_num)]
  simp

/-- No overflow below 2^127. -/
theorem round_fin (x : ℚ) (h : |x| ≤ (2 : ℚ) ^ 100) : round x = .fin (near x) := by
  unfold round
  rw [if_neg]
  push Not
  by_cases hs : (2 : ℚ) ^ (-126 : ℤ) ≤ |x|
  · have hr := near_rel x hs
    have := abs_sub_abs_le_abs_sub (near x) x
    norm_num at *
    linarith
  · have he := near_err x
    have hl : ulpExp x ≤ 0 := by
      unfold ulpExp
      by_cases h0 : x = 0
      · subst h0; simp
      have hx : 0 < |x| := abs_pos.2 h0
      have : Int.log 2 |x| < -126 := by
        rw [← Int.lt_zpow_iff_log_lt (b := 2) (by norm_num) hx]
        push Not at hs
        exact_mod_cast hs
      omega
    have hz : (2 : ℚ) ^ ulpExp x ≤ 1 := zpow_le_one_of_nonpos₀ (by norm_num) hl
    have := abs_sub_abs_le_abs_sub (near x) x
    generalize (2 : ℚ) ^ ulpExp x = u at he hz
    norm_num at *
    linarith

end F32
end Jxl

namespace Jxl
namespace F32

theorem round_int (n : ℤ) (h : |n| < 16777216) : round (n : ℚ) = .fin n := by
  have hq : |(n : ℚ)| < 16777216 := by
    have : ((|n| : ℤ) : ℚ) < 16777216 := by exact_mod_cast h
    simpa using this
  rw [round_fin _ (by norm_num; linarith), near_int n h]

/-- A rounding error in a form for linear arithmetic. -/
theorem near_bounds {x : ℚ} (h : (2 : ℚ) ^ (-126 : ℤ) ≤ x) : x - x / 16777216 ≤ near x ∧ near x ≤ x + x / 16777216 := by
  have hx : 0 < x := lt_of_lt_of_le (two_zpow_pos _) h
  have := near_rel x (by rw [abs_of_pos hx]; exact h)
  rw [abs_of_pos hx, abs_le] at this
  constructor <;> linarith [this.1, this.2]

/-- Rounding of a number that may be tiny or negative. -/
theorem near_upper (x : ℚ) (h : x ≤ 0) : near x ≤ 1 / 1000000 := by
  by_cases hs : (2 : ℚ) ^ (-126 : ℤ) ≤ |x|
  · have := near_rel x hs
    rw [abs_of_nonpos h, abs_le] at this
    linarith [this.2]
  · have he := near_err x
    have hl : ulpExp x ≤ -23 := by
      unfold ulpExp
      by_cases h0 : x = 0
      · subst h0; simp
      have hx : 0 < |x| := abs_pos.2 h0
      have : Int.log 2 |x| < -126 := by
        rw [← Int.lt_zpow_iff_log_lt (b := 2) (by norm_num) hx]
        push Not at hs
        exact_mod_cast hs
      omega
    have hz : (2 : ℚ) ^ ulpExp x ≤ (2 : ℚ) ^ (-23 : ℤ) := zpow_le_zpow_right₀ (by norm_num) hl
    rw [abs_le] at he
    have h3 : (2 : ℚ) ^ (-23 : ℤ) ≤ 1 / 1000000 := by norm_num
    generalize (2 : ℚ) ^ ulpExp x = u at he hz
    generalize (2 : ℚ) ^ (-23 : ℤ) = u' at h3 hz
    linarith [he.2]

theorem tiny_le {x : ℚ} (h : 1 / 1000000000 ≤ x) : (2 : ℚ) ^ (-126 : ℤ) ≤ x := by
  refine le_trans ?_ h
  norm_num

/-- The error of rounding a tiny number. -/
theorem near_tiny {x : ℚ} (hs : ¬ (2 : ℚ) ^ (-126 : ℤ) ≤ |x|) : |near x - x| ≤ 1 / 1000000 := by
  have he := near_err x
  push Not at hs
  have hl : ulpExp x ≤ -23 := by
    unfold ulpExp
    by_cases h0 : x = 0
    · subst h0; simp
    have hx : 0 < |x| := abs_pos.2 h0
    have : Int.log 2 |x| < -126 := by
      rw [← Int.lt_zpow_iff_log_lt (b := 2) (by norm_num) hx]
      exact_mod_cast hs
    omega
  have hz : (2 : ℚ) ^ ulpExp x ≤ (2 : ℚ) ^ (-23 : ℤ) := zpow_le_zpow_right₀ (by norm_num) hl
  have h3 : (2 : ℚ) ^ (-23 : ℤ) ≤ 1 / 1000000 := by norm_num
  generalize (2 : ℚ) ^ ulpExp x = u at he hz
  generalize (2 : ℚ) ^ (-23 : ℤ) = u' at h3 hz
  linarith

/-- Rounding of numbers up to one half. -/
theorem near_low (x : ℚ) (hx : x ≤ 1 / 2) (hx' : -1100000000 ≤ x) : near x < 1 ∧ -2147483648 ≤ near x := by
  by_cases hs : (2 : ℚ) ^ (-126 : ℤ) ≤ |x|
  · have := near_rel x hs
    rw [abs_le] at this
    by_cases hx0 : 0 ≤ x
    · rw [abs_of_nonneg hx0] at this
      constructor <;> linarith [this.1, this.2]
    · rw [abs_of_neg (by linarith)] at this
      constructor <;> linarith [this.1, this.2]
  · have he := near_tiny hs
    rw [abs_le] at he
    constructor <;> linarith [he.1, he.2]

theorem near_low' (x : ℚ) (hx : x ≤ 0) (hx' : -1073741824 ≤ x) : -1073741824 - 64 ≤ near x := by
  by_cases hs : (2 : ℚ) ^ (-126 : ℤ) ≤ |x|
  · have := near_rel x hs
    rw [abs_of_nonpos hx, abs_le] at this
    linarith [this.1]
  · have he := near_tiny hs
    rw [abs_le] at he
    linarith [he.1]

end F32
end Jxl
