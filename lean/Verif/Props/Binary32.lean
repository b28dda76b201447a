import Verif.Spec.Binary32
import Verif.Proofs.F32

/-!
# Rounding to `float32` is that of IEEE 754

The arithmetic of `float32` in the model is part of the trusted base; these theorems say that its rounding yields the nearest number of the type, with ties to even.
-/
namespace Jxl
open Spec

theorem roundEven_nearest (t : ℚ) (k : ℤ) : |(roundEven t : ℚ) - t| ≤ |(k : ℚ) - t| := by
  have h := roundEven_err t
  by_cases hk : k = roundEven t
  · rw [hk]
  · have h1 : (1 : ℚ) ≤ |(k : ℚ) - roundEven t| := by
      have : 1 ≤ |k - roundEven t| := Int.one_le_abs (by omega)
      exact_mod_cast this
    have h2 : |(k : ℚ) - roundEven t| ≤ |(k : ℚ) - t| + |(roundEven t : ℚ) - t| := by
      rw [abs_sub_comm (roundEven t : ℚ) t]
      exact abs_sub_le _ _ _
    linarith

theorem roundEven_tie (t : ℚ) (k : ℤ) (hk : k ≠ roundEven t) (h : |(k : ℚ) - t| = |(roundEven t : ℚ) - t|) : roundEven t % 2 = 0 ∧ |k - roundEven t| = 1 := by
  have he := roundEven_err t
  have h1 : 1 ≤ |k - roundEven t| := Int.one_le_abs (by omega)
  have h1' : (1 : ℚ) ≤ |(k : ℚ) - roundEven t| := by exact_mod_cast h1
  have h2 : |(k : ℚ) - roundEven t| ≤ |(k : ℚ) - t| + |(roundEven t : ℚ) - t| := by
    rw [abs_sub_comm (roundEven t : ℚ) t]
    exact abs_sub_le _ _ _
  have e1 : |(k : ℚ) - roundEven t| = 1 := by linarith
  have e2 : |(roundEven t : ℚ) - t| = 1 / 2 := by linarith
  refine ⟨?_, by exact_mod_cast e1⟩
  have f1 := Int.floor_le t
  have f2 := Int.lt_floor_add_one t
  unfold roundEven at e2 ⊢
  dsimp only at e2 ⊢
  by_cases a : t - ⌊t⌋ < 1 / 2
  · exfalso
    rw [if_pos a, abs_sub_comm, abs_of_nonneg (by linarith)] at e2
    linarith
  · by_cases b : 1 / 2 < t - ⌊t⌋
    · exfalso
      rw [if_neg a, if_pos b] at e2
      push_cast at e2
      rw [abs_of_nonneg (by linarith)] at e2
      linarith
    · rw [if_neg a, if_neg b]
      split <;> omega

namespace F32

theorem ulpExp_low (x : ℚ) : -149 ≤ ulpExp x := by
  unfold ulpExp
  omega

theorem quotient_lt (x : ℚ) : |x| < (2 : ℚ) ^ 24 * (2 : ℚ) ^ ulpExp x := by
  have h := Int.lt_zpow_succ_log_self (b := 2) (by norm_num) |x|
  refine lt_of_lt_of_le h ?_
  rw [← zpow_natCast (2 : ℚ) 24, ← zpow_add₀ (by norm_num)]
  push_cast
  exact zpow_le_zpow_right₀ (by norm_num) (by unfold ulpExp; omega)

theorem quotient_ge (x : ℚ) (hx : x ≠ 0) (h : -149 < ulpExp x) : (2 : ℚ) ^ 23 * (2 : ℚ) ^ ulpExp x ≤ |x| := by
  have h1 := Int.zpow_log_le_self (b := 2) (by norm_num) (abs_pos.mpr hx)
  refine le_trans ?_ h1
  rw [← zpow_natCast (2 : ℚ) 23, ← zpow_add₀ (by norm_num)]
  push_cast
  exact zpow_le_zpow_right₀ (by norm_num) (by unfold ulpExp at h ⊢; omega)

theorem near_eq (x : ℚ) : ∃ n : ℤ, near x = n * (2 : ℚ) ^ ulpExp x ∧ n = roundEven (x / (2 : ℚ) ^ ulpExp x) := ⟨_, rfl, rfl⟩

/-- Multiples of the last bit are not nearer. -/
theorem near_multiple (x : ℚ) (k : ℤ) : |x - near x| ≤ |x - k * (2 : ℚ) ^ ulpExp x| := by
  have hu := two_zpow_pos (ulpExp x)
  obtain ⟨n, e, hn⟩ := near_eq x
  have h := roundEven_nearest (x / (2 : ℚ) ^ ulpExp x) k
  rw [← hn] at h
  have scale : ∀ j : ℤ, |x - j * (2 : ℚ) ^ ulpExp x| = |(j : ℚ) - x / (2 : ℚ) ^ ulpExp x| * (2 : ℚ) ^ ulpExp x := by
    intro j
    conv_rhs => rw [← abs_of_pos hu, ← abs_mul, abs_of_pos hu, sub_mul, div_mul_cancel₀ _ (ne_of_gt hu), abs_sub_comm]
  rw [e, scale, scale]
  exact mul_le_mul_of_nonneg_right h (le_of_lt hu)

/-- A number of the type is a multiple of the last bit of `x`, or it is nearer to zero than a multiple of it that is nearer to zero than `x`. -/
theorem multiple_or {x r : ℚ} (hx : x ≠ 0) (hr : Binary32 r) :
    (∃ k : ℤ, r = k * (2 : ℚ) ^ ulpExp x) ∨ (|r| < (2 : ℚ) ^ 23 * (2 : ℚ) ^ ulpExp x ∧ (2 : ℚ) ^ 23 * (2 : ℚ) ^ ulpExp x ≤ |x|) := by
  obtain ⟨m, e, hm, h1, h2, rfl⟩ := hr
  by_cases h : ulpExp x ≤ e
  · refine .inl ⟨m * 2 ^ (e - ulpExp x).toNat, ?_⟩
    push_cast
    rw [mul_assoc, ← zpow_natCast (2 : ℚ), ← zpow_add₀ (by norm_num)]
    congr 2
    omega
  · refine .inr ⟨?_, quotient_ge x hx (by omega)⟩
    rw [abs_mul, abs_of_pos (two_zpow_pos e)]
    have hm' : (|(m : ℚ)|) < 2 ^ 24 := by exact_mod_cast hm
    have he : (2 : ℚ) ^ 24 * (2 : ℚ) ^ e ≤ (2 : ℚ) ^ 23 * (2 : ℚ) ^ ulpExp x := by
      rw [← zpow_natCast (2 : ℚ) 24, ← zpow_natCast (2 : ℚ) 23, ← zpow_add₀ (by norm_num), ← zpow_add₀ (by norm_num)]
      exact zpow_le_zpow_right₀ (by norm_num) (by push_cast; omega)
    exact lt_of_lt_of_le (mul_lt_mul_of_pos_right hm' (two_zpow_pos e)) he

theorem between {x r b : ℚ} (hr : |r| < b) (hb : b ≤ |x|) : |x - b| < |x - r| ∨ |x - -b| < |x - r| := by
  obtain ⟨r1, r2⟩ := abs_lt.mp hr
  rcases le_or_gt 0 x with h | h
  · rw [abs_of_nonneg h] at hb
    left
    rw [abs_of_nonneg (by linarith), abs_of_nonneg (by linarith)]
    linarith
  · rw [abs_of_neg h] at hb
    right
    rw [abs_of_nonpos (by linarith), abs_of_nonpos (by linarith)]
    linarith

theorem farther {x r : ℚ} (hr : |r| < (2 : ℚ) ^ 23 * (2 : ℚ) ^ ulpExp x) (hx : (2 : ℚ) ^ 23 * (2 : ℚ) ^ ulpExp x ≤ |x|) : |x - near x| < |x - r| := by
  rcases between hr hx with h | h
  · refine lt_of_le_of_lt ?_ h
    have := near_multiple x (2 ^ 23)
    push_cast at this
    exact this
  · refine lt_of_le_of_lt ?_ h
    have := near_multiple x (-2 ^ 23)
    push_cast at this
    rw [← neg_mul]
    exact this

/-- No number of the type is nearer than the rounded one. -/
theorem near_nearest (x : ℚ) {r : ℚ} (hr : Binary32 r) : |x - near x| ≤ |x - r| := by
  by_cases hx : x = 0
  · rw [hx, near_zero]
    simp
  · rcases multiple_or hx hr with ⟨k, rfl⟩ | ⟨h1, h2⟩
    · exact near_multiple x k
    · exact le_of_lt (farther h1 h2)

/-- If another number of the type is as near, it is the neighbour of the rounded one, whose last bit is zero. -/
theorem near_even (x : ℚ) {r : ℚ} (hr : Binary32 r) (hne : r ≠ near x) (h : |x - r| = |x - near x|) : ∃ m e : ℤ, near x = (2 * m : ℤ) * (2 : ℚ) ^ e ∧ |r - near x| = (2 : ℚ) ^ e := by
  have hu := two_zpow_pos (ulpExp x)
  by_cases hx : x = 0
  · rw [hx, near_zero] at h hne
    simp at h
    exact absurd h hne
  · rcases multiple_or hx hr with ⟨k, rfl⟩ | ⟨h1, h2⟩
    · obtain ⟨n, e, hn⟩ := near_eq x
      have scale : ∀ j : ℤ, |x - j * (2 : ℚ) ^ ulpExp x| = |(j : ℚ) - x / (2 : ℚ) ^ ulpExp x| * (2 : ℚ) ^ ulpExp x := by
        intro j
        conv_rhs => rw [← abs_of_pos hu, ← abs_mul, abs_of_pos hu, sub_mul, div_mul_cancel₀ _ (ne_of_gt hu), abs_sub_comm]
      rw [e, scale, scale] at h
      have h' := mul_right_cancel₀ (ne_of_gt hu) h
      obtain ⟨t1, t2⟩ := roundEven_tie (x / (2 : ℚ) ^ ulpExp x) k (by rintro rfl; exact hne rfl) (by rw [h', hn])
      rw [← hn] at t1 t2
      refine ⟨n / 2, ulpExp x, ?_, ?_⟩
      · rw [e, show (2 * (n / 2) : ℤ) = n by omega]
      · rw [e, ← sub_mul, abs_mul, abs_of_pos hu]
        have : |(k : ℚ) - n| = 1 := by exact_mod_cast t2
        rw [this, one_mul]
    · exact absurd h (ne_of_gt (farther h1 h2))

/-- A finite result is a number of the type. -/
theorem near_binary32 {x : ℚ} (h : |near x| < (2 : ℚ) ^ 128) : Binary32 (near x) := by
  have hu := two_zpow_pos (ulpExp x)
  by_cases hx : x = 0
  · rw [hx, near_zero]
    exact ⟨0, 0, by norm_num, by norm_num, by norm_num, by norm_num⟩
  obtain ⟨n, e, hn⟩ := near_eq x
  have up : |x / (2 : ℚ) ^ ulpExp x| < 2 ^ 24 := by
    rw [abs_div, abs_of_pos hu, div_lt_iff₀ hu]
    exact quotient_lt x
  have hle : |n| ≤ 2 ^ 24 := by
    obtain ⟨u1, u2⟩ := abs_lt.mp up
    have a1 := roundEven_mono (x := x / (2 : ℚ) ^ ulpExp x) (y := ((2 ^ 24 : ℤ) : ℚ)) (by push_cast; linarith)
    have a2 := roundEven_mono (x := ((-2 ^ 24 : ℤ) : ℚ)) (y := x / (2 : ℚ) ^ ulpExp x) (by push_cast; linarith)
    rw [roundEven_int, ← hn] at a1 a2
    exact abs_le.mpr ⟨a2, a1⟩
  have hlow : -149 < ulpExp x → 2 ^ 23 ≤ |n| := by
    intro hl
    have g := quotient_ge x hx hl
    rcases le_or_gt 0 x with h0 | h0
    · rw [abs_of_nonneg h0] at g
      have a1 := roundEven_mono (x := ((2 ^ 23 : ℤ) : ℚ)) (y := x / (2 : ℚ) ^ ulpExp x) (by rw [le_div_iff₀ hu]; push_cast; exact g)
      rw [roundEven_int, ← hn] at a1
      exact le_trans a1 (le_abs_self n)
    · rw [abs_of_neg h0] at g
      have a1 := roundEven_mono (x := x / (2 : ℚ) ^ ulpExp x) (y := ((-2 ^ 23 : ℤ) : ℚ)) (by rw [div_le_iff₀ hu]; push_cast; linarith)
      rw [roundEven_int, ← hn] at a1
      exact le_trans (by omega) (neg_le_abs n)
  have hq : |near x| = (|n| : ℤ) * (2 : ℚ) ^ ulpExp x := by
    rw [e, abs_mul, abs_of_pos hu]
    push_cast
    rfl
  have big : ∀ a b : ℕ, (2 : ℤ) ^ a ≤ |n| → (b : ℤ) ≤ ulpExp x → a + b < 128 := by
    intro a b ha hb
    by_contra hc
    have g1 : (2 : ℚ) ^ a ≤ (|n| : ℤ) := by exact_mod_cast ha
    have g2 : (2 : ℚ) ^ b ≤ (2 : ℚ) ^ ulpExp x := by
      rw [← zpow_natCast]
      exact zpow_le_zpow_right₀ (by norm_num) hb
    have g3 : (2 : ℚ) ^ 128 ≤ (2 : ℚ) ^ (a + b) := pow_le_pow_right₀ (by norm_num) (by omega)
    have g4 : (2 : ℚ) ^ (a + b) ≤ |near x| := by
      rw [hq, pow_add]
      exact mul_le_mul g1 g2 (by positivity) (le_trans (by positivity) g1)
    linarith
  have hhigh : ulpExp x ≤ 104 := by
    by_contra hc
    exact absurd (big 23 105 (hlow (by omega)) (by push_cast; omega)) (by decide)
  by_cases hn24 : |n| = 2 ^ 24
  · have h103 : ulpExp x ≤ 103 := by
      by_contra hc
      exact absurd (big 24 104 (by omega) (by push_cast; omega)) (by decide)
    refine ⟨n / 2, ulpExp x + 1, ?_, by have := ulpExp_low x; omega, by omega, ?_⟩
    · rcases abs_cases n with ⟨c1, _⟩ | ⟨c1, _⟩ <;> rw [abs_lt] <;> omega
    · rw [e, zpow_add₀ (by norm_num), zpow_one]
      have : (n : ℚ) = ((n / 2 : ℤ) : ℚ) * 2 := by
        have : n = n / 2 * 2 := by rcases abs_cases n with ⟨c1, _⟩ | ⟨c1, _⟩ <;> omega
        exact_mod_cast this
      rw [this]
      push_cast
      ring
  · exact ⟨n, ulpExp x, lt_of_le_of_ne hle hn24, ulpExp_low x, hhigh, e⟩

end F32

/-- Rounding: a finite result is a number of the type, no number of the type is nearer, and of two that are equally near it is the one whose last bit is zero. -/
theorem F32.round_ieee {x q : ℚ} (h : F32.round x = .fin q) :
    Binary32 q ∧ (∀ r, Binary32 r → |x - q| ≤ |x - r|) ∧ ∀ r, Binary32 r → r ≠ q → |x - r| = |x - q| → ∃ m e : ℤ, q = (2 * m : ℤ) * (2 : ℚ) ^ e ∧ |r - q| = (2 : ℚ) ^ e := by
  unfold F32.round at h
  split at h
  · cases h
  · rename_i hs
    cases h
    exact ⟨F32.near_binary32 (by linarith), fun r hr => F32.near_nearest x hr, fun r hr => F32.near_even x hr⟩

/-- A number of the type is rounded to itself. -/
theorem F32.round_self {q : ℚ} (h : Binary32 q) : F32.round q = .fin q := by
  have e : F32.near q = q := by
    have := F32.near_nearest q h
    rw [sub_self, abs_zero] at this
    have := abs_nonpos_iff.mp this
    linarith
  unfold F32.round
  rw [e, if_neg]
  obtain ⟨m, k, hm, h1, h2, rfl⟩ := h
  rw [not_le, abs_mul, abs_of_pos (F32.two_zpow_pos k)]
  have hm' : (|(m : ℚ)|) < 2 ^ 24 := by exact_mod_cast hm
  calc |(m : ℚ)| * (2 : ℚ) ^ k < 2 ^ 24 * (2 : ℚ) ^ k := mul_lt_mul_of_pos_right hm' (F32.two_zpow_pos k)
    _ ≤ 2 ^ 24 * (2 : ℚ) ^ (104 : ℤ) := mul_le_mul_of_nonneg_left (zpow_le_zpow_right₀ (by norm_num) h2) (by norm_num)
    _ = 2 ^ 128 := by norm_num

/-- The result is infinite only for numbers that are not less than the largest number of the type and half of its last bit. -/
theorem F32.round_overflow {x : ℚ} {s : Bool} (h : F32.round x = .inf s) : 2 ^ 128 - 2 ^ 103 ≤ |x| ∧ (s = true ↔ x < 0) := by
  have hm : Binary32 (2 ^ 128 - 2 ^ 104) := ⟨2 ^ 24 - 1, 104, by norm_num, by norm_num, by norm_num, by norm_num⟩
  have hm' : Binary32 (-(2 ^ 128 - 2 ^ 104)) := ⟨-(2 ^ 24 - 1), 104, by norm_num, by norm_num, by norm_num, by norm_num⟩
  unfold F32.round at h
  split at h
  · rename_i hs
    cases h
    refine ⟨?_, by simp⟩
    by_contra hc
    rw [not_le, abs_lt] at hc
    have n1 := F32.near_nearest x hm
    have n2 := F32.near_nearest x hm'
    rcases abs_cases (F32.near x) with ⟨c, _⟩ | ⟨c, _⟩ <;> rw [c] at hs <;> rcases abs_cases (x - F32.near x) with ⟨d, _⟩ | ⟨d, _⟩ <;> rw [d] at n1 n2 <;>
      rcases abs_cases (x - (2 ^ 128 - 2 ^ 104)) with ⟨a, _⟩ | ⟨a, _⟩ <;> rw [a] at n1 <;> rcases abs_cases (x - -(2 ^ 128 - 2 ^ 104)) with ⟨b, _⟩ | ⟨b, _⟩ <;> rw [b] at n2 <;> linarith
  · cases h

theorem Spec.Binary32.bounded {q : ℚ} (h : Binary32 q) : |q| ≤ 2 ^ 128 - 2 ^ 104 := by
  obtain ⟨m, k, hm, h1, h2, rfl⟩ := h
  rw [abs_mul, abs_of_pos (F32.two_zpow_pos k)]
  have hm' : (|(m : ℚ)|) ≤ 2 ^ 24 - 1 := by
    have : |m| ≤ 2 ^ 24 - 1 := by omega
    exact_mod_cast this
  calc |(m : ℚ)| * (2 : ℚ) ^ k ≤ (2 ^ 24 - 1) * (2 : ℚ) ^ (104 : ℤ) :=
        mul_le_mul hm' (zpow_le_zpow_right₀ (by norm_num) h2) (le_of_lt (F32.two_zpow_pos k)) (by norm_num)
    _ = 2 ^ 128 - 2 ^ 104 := by norm_num

/-- All such numbers have an infinite result. -/
theorem F32.round_infinite {x : ℚ} (h : 2 ^ 128 - 2 ^ 103 ≤ |x|) : F32.round x = .inf (decide (x < 0)) := by
  unfold F32.round
  by_cases hs : (2 : ℚ) ^ 128 ≤ |F32.near x|
  · rw [if_pos hs]
  · exfalso
    have hb := F32.near_binary32 (not_le.mp hs)
    have hq := hb.bounded
    have hu := F32.two_zpow_pos (F32.ulpExp x)
    have hx0 : x ≠ 0 := by
      rintro rfl
      rw [abs_zero] at h
      norm_num at h
    have hlog : 127 ≤ Int.log 2 |x| := by
      rw [← Int.zpow_le_iff_le_log (b := 2) (by norm_num) (abs_pos.mpr hx0)]
      refine le_trans ?_ h
      norm_num
    have hexp : F32.ulpExp x = Int.log 2 |x| - 23 := by
      unfold F32.ulpExp
      omega
    have g := F32.quotient_ge x hx0 (by omega)
    obtain ⟨q1, q2⟩ := abs_le.mp hq
    by_cases h104 : F32.ulpExp x = 104
    · have e104 : (2 : ℚ) ^ F32.ulpExp x = 2 ^ 104 := by rw [h104]; norm_num
      have up := F32.quotient_lt x
      rw [e104] at up
      have tie : ∀ k : ℤ, ((k = 2 ^ 24 ∧ 0 ≤ x) ∨ (k = -2 ^ 24 ∧ x < 0)) → False := by
        intro k hk
        have n1 := F32.near_multiple x k
        have hne : (k : ℚ) * 2 ^ 104 ≠ F32.near x := by
          intro e
          rw [← e] at q1 q2
          rcases hk with ⟨rfl, _⟩ | ⟨rfl, _⟩
          · norm_num at q2
          · norm_num at q1
        rw [e104] at n1
        obtain ⟨n, en, hn⟩ := F32.near_eq x
        rw [e104] at en hn
        have eqn : |x - (k : ℚ) * 2 ^ 104| = |x - F32.near x| ∧ |F32.near x| = 2 ^ 128 - 2 ^ 104 := by
          rcases hk with ⟨rfl, h0⟩ | ⟨rfl, h0⟩
          · rw [abs_of_nonneg h0] at h up
            push_cast at n1 ⊢
            rw [abs_of_nonpos (a := x - 16777216 * 2 ^ 104) (by linarith), abs_of_nonneg (a := x - F32.near x) (by linarith)] at n1 ⊢
            have e : F32.near x = 2 ^ 128 - 2 ^ 104 := by linarith
            rw [e] at n1 ⊢
            exact ⟨by linarith, abs_of_nonneg (by norm_num)⟩
          · rw [abs_of_neg h0] at h up
            push_cast at n1 ⊢
            rw [abs_of_nonneg (a := x - -16777216 * 2 ^ 104) (by linarith), abs_of_nonpos (a := x - F32.near x) (by linarith)] at n1 ⊢
            have e : F32.near x = -(2 ^ 128 - 2 ^ 104) := by linarith
            rw [e] at n1 ⊢
            exact ⟨by linarith, by rw [abs_neg]; exact abs_of_nonneg (by norm_num)⟩
        have scale : ∀ j : ℤ, |x - j * (2 : ℚ) ^ 104| = |(j : ℚ) - x / (2 : ℚ) ^ 104| * (2 : ℚ) ^ 104 := by
          intro j
          have hp : (0 : ℚ) < 2 ^ 104 := by norm_num
          conv_rhs => rw [← abs_of_pos hp, ← abs_mul, abs_of_pos hp, sub_mul, div_mul_cancel₀ _ (ne_of_gt hp), abs_sub_comm]
        have h' := eqn.1
        rw [en, scale, scale] at h'
        obtain ⟨t1, -⟩ := roundEven_tie (x / (2 : ℚ) ^ 104) k (by rw [← hn]; rintro rfl; exact hne en.symm) (by rw [← hn]; exact mul_right_cancel₀ (by norm_num) h')
        rw [← hn] at t1
        have a : ((|n| : ℤ) : ℚ) * 2 ^ 104 = (((2 ^ 24 - 1 : ℤ)) : ℚ) * 2 ^ 104 := by
          have := eqn.2
          rw [en, abs_mul, abs_of_pos (by norm_num : (0 : ℚ) < 2 ^ 104)] at this
          push_cast
          rw [this]
          norm_num
        have a' : |n| = 2 ^ 24 - 1 := by exact_mod_cast mul_right_cancel₀ (by norm_num : (2 : ℚ) ^ 104 ≠ 0) a
        rcases abs_cases n with ⟨c, _⟩ | ⟨c, _⟩ <;> omega
      rcases le_or_gt 0 x with h0 | h0
      · exact tie _ (.inl ⟨rfl, h0⟩)
      · exact tie _ (.inr ⟨rfl, h0⟩)
    · have e105 : (2 : ℚ) ^ 105 ≤ (2 : ℚ) ^ F32.ulpExp x := by
        rw [← zpow_natCast]
        exact zpow_le_zpow_right₀ (by norm_num) (by push_cast; omega)
      rcases le_or_gt 0 x with h0 | h0
      · have n1 := F32.near_multiple x (2 ^ 23)
        rw [abs_of_nonneg h0] at g
        push_cast at n1
        rw [abs_of_nonneg (a := x - 8388608 * _) (by linarith), abs_of_nonneg (a := x - F32.near x) (by linarith)] at n1
        linarith
      · have n1 := F32.near_multiple x (-2 ^ 23)
        rw [abs_of_neg h0] at g
        push_cast at n1
        rw [abs_of_nonpos (a := x - -8388608 * _) (by linarith), abs_of_nonpos (a := x - F32.near x) (by linarith)] at n1
        linarith

example : F32.round (2 ^ 128) = .inf false ∧ F32.round (1 / 3) = .fin (11184811 / 33554432) := by decide +kernel

example : Binary32 (3 / 4096) ∧ Binary32 (-16777215) := ⟨⟨3, -12, by norm_num, by norm_num, by norm_num, by norm_num⟩, ⟨-16777215, 0, by norm_num, by norm_num, by norm_num, by norm_num⟩⟩

end Jxl
