import Mathlib.Analysis.Complex.ExponentialBounds
import Mathlib.Tactic.Linarith
import Mathlib.Tactic.NormNum
import Mathlib.Tactic.Positivity
import Verif.Model.TransferFunction
import Verif.Spec.TransferFunction

/-! Powers with exponents that are rounded (C92). -/
namespace Jxl

theorem goPow_nonneg {x : ℝ} (hx : 0 ≤ x) (y : ℝ) : goPow x y = some (x ^ y) := by
  unfold goPow
  rw [if_neg]
  intro h
  linarith [h.1]

/-- A power with an exponent near 1 is near the number. -/
theorem pow_near_one {w e d : ℝ} (h1 : 1 / 1000 ≤ w) (h2 : w ≤ 2) (he : |e - 1| ≤ d) (hd : d ≤ 1 / 1000) : |w ^ e - w| ≤ 4 * d := by
  have hw : 0 < w := by linarith
  have hd0 : 0 ≤ d := (abs_nonneg _).trans he
  have l1 := Real.one_sub_inv_le_log_of_pos hw
  have l2 := Real.log_le_sub_one_of_pos hw
  have hwl : |w * Real.log w| ≤ 2 := by
    have h3 := mul_le_mul_of_nonneg_left l1 hw.le
    have h4 := mul_le_mul_of_nonneg_left l2 hw.le
    rw [mul_sub, mul_inv_cancel₀ hw.ne'] at h3
    rw [abs_le]
    constructor
    · linarith
    · nlinarith
  have hlog : |Real.log w| ≤ 1000 := by
    rw [abs_le]
    constructor
    · have h3 : w⁻¹ ≤ 1000 := by
        rw [inv_le_comm₀ hw (by norm_num)]
        linarith
      linarith
    · linarith
  have e1 : w ^ e = w * Real.exp (Real.log w * (e - 1)) := by
    rw [Real.rpow_def_of_pos hw]
    nth_rw 2 [← Real.exp_log hw]
    rw [← Real.exp_add]
    congr 1
    ring
  have ht : |Real.log w * (e - 1)| ≤ 1 := by
    rw [abs_mul]
    calc |Real.log w| * |e - 1| ≤ 1000 * d := mul_le_mul hlog he (abs_nonneg _) (by norm_num)
      _ ≤ 1 := by linarith
  have h4 := Real.abs_exp_sub_one_le ht
  rw [e1, show w * Real.exp (Real.log w * (e - 1)) - w = w * (Real.exp (Real.log w * (e - 1)) - 1) by ring, abs_mul, abs_of_pos hw]
  calc w * |Real.exp (Real.log w * (e - 1)) - 1| ≤ w * (2 * |Real.log w * (e - 1)|) := mul_le_mul_of_nonneg_left h4 hw.le
    _ = 2 * (|w * Real.log w| * |e - 1|) := by rw [abs_mul, abs_mul, abs_of_pos hw]; ring
    _ ≤ 2 * (2 * d) := by
      have := mul_le_mul hwl he (abs_nonneg _) (by norm_num)
      linarith
    _ = 4 * d := by ring

/-- A power of a number near 1 is near 1. -/
theorem pow_of_near {r p d : ℝ} (hr : |r - 1| ≤ d) (hd : d ≤ 1 / 12) (hp : 0 ≤ p) (hp3 : p ≤ 3) : |r ^ p - 1| ≤ 12 * d := by
  have hd0 : 0 ≤ d := (abs_nonneg _).trans hr
  obtain ⟨r1, r2⟩ := abs_le.mp hr
  have hr0 : 0 < r := by linarith
  have l1 := Real.one_sub_inv_le_log_of_pos hr0
  have l2 := Real.log_le_sub_one_of_pos hr0
  have h3 : 1 - r⁻¹ ≥ - (2 * d) := by
    have : r⁻¹ ≤ 1 + 2 * d := by
      rw [inv_le_iff_one_le_mul₀ hr0]
      nlinarith
    linarith
  have hl : |Real.log r| ≤ 2 * d := abs_le.mpr ⟨by linarith, by linarith⟩
  have ht : |Real.log r * p| ≤ 6 * d := by
    rw [abs_mul, abs_of_nonneg hp]
    calc |Real.log r| * p ≤ (2 * d) * 3 := mul_le_mul hl hp3 hp (by linarith)
      _ = 6 * d := by ring
  rw [Real.rpow_def_of_pos hr0]
  have := Real.abs_exp_sub_one_le (x := Real.log r * p) (by linarith)
  linarith

/-- The numbers of a curve that is a line up to a point and a power from there on, in both directions: they fit together up to rounding. -/
structure Joined (T a b k p L s c e : ℝ) : Prop where
  sa : |s * a - 1| ≤ 1 / 10 ^ 14
  ck : |c * k - 1| ≤ 1 / 10 ^ 14
  pe : |p * e - 1| ≤ 1 / 10 ^ 14
  T0 : 0 < T ∧ T ≤ 1
  a0 : 0 < a ∧ a ≤ 1
  b0 : 0 ≤ b ∧ b ≤ 1 / 5
  k0 : 1 / 2 ≤ k ∧ k ≤ 1
  p0 : 0 < p ∧ p ≤ 3
  L0 : 1 / 1000 ≤ L ∧ L ≤ 1
  s0 : 1 ≤ s ∧ s ≤ 20
  c0 : 1 ≤ c ∧ c ≤ 6 / 5
  e0 : 0 < e
  W0 : 1 / 500 ≤ (T + b) * k
  low : ((T + b) * k - 1 / 10 ^ 11) ^ p ≤ L
  high : L ≤ ((T + b) * k + 1 / 10 ^ 11) ^ p
  high' : a * T ≤ ((T + b) * k + 1 / 10 ^ 11) ^ p
  lowp : L - 1 / 10 ^ 10 ≤ ((T + b) * k - 1 / 10 ^ 11) ^ p
  highp : ((T + b) * k + 1 / 10 ^ 11) ^ p ≤ L + 1 / 10 ^ 10
  sL : |s * L - T| ≤ 1 / 10 ^ 11
  aT : |a * T - L| ≤ 1 / 10 ^ 11

theorem scale_near {u z d M : ℝ} (h : |u - 1| ≤ d) (hz : 0 ≤ z) (hM : z ≤ M) : |u * z - z| ≤ d * M := by
  rw [show u * z - z = (u - 1) * z by ring, abs_mul, abs_of_nonneg hz]
  exact mul_le_mul h hM hz ((abs_nonneg _).trans h)

theorem mul_near {c z m M : ℝ} (hc : 0 ≤ c) (hM : c ≤ M) (hz : |z| ≤ m) : |c * z| ≤ M * m := by
  rw [abs_mul, abs_of_nonneg hc]
  exact mul_le_mul hM hz (abs_nonneg _) (hc.trans hM)

/-- From encoded values to light and back. -/
theorem joined_to_from {T a b k p L s c e : ℝ} (h : Joined T a b k p L s c e) {x : ℝ} (hx : 0 ≤ x) (hx1 : x ≤ 1) :
    |(if (if x < T then x * a else ((x + b) * k) ^ p) < L then (if x < T then x * a else ((x + b) * k) ^ p) * s
      else c * (if x < T then x * a else ((x + b) * k) ^ p) ^ e - b) - x| ≤ 1 / 10 ^ 8 := by
  obtain ⟨aT1, aT2⟩ := abs_le.mp h.aT
  obtain ⟨T1, T2⟩ := h.T0
  obtain ⟨a1, a2⟩ := h.a0
  obtain ⟨b1, b2⟩ := h.b0
  obtain ⟨k1, k2⟩ := h.k0
  obtain ⟨p1, p2⟩ := h.p0
  obtain ⟨s1, s2⟩ := h.s0
  obtain ⟨c1, c2⟩ := h.c0
  have e0 := h.e0
  have W0 := h.W0
  have hW : (T + b) * k ≤ 6 / 5 := by
    calc (T + b) * k ≤ (6 / 5) * 1 := mul_le_mul (by linarith) k2 (by linarith) (by norm_num)
      _ = 6 / 5 := by norm_num
  by_cases hT : x < T
  · rw [if_pos hT]
    by_cases hL : x * a < L
    · rw [if_pos hL, show x * a * s = s * a * x by ring]
      exact (scale_near h.sa hx hx1).trans (by norm_num)
    · rw [if_neg hL]
      push Not at hL
      have m1 : ((T + b) * k - 1 / 10 ^ 11) ^ (p * e) ≤ (x * a) ^ e := by
        rw [Real.rpow_mul (by linarith)]
        exact Real.rpow_le_rpow (Real.rpow_nonneg (by linarith) _) (h.low.trans hL) e0.le
      have m2 : (x * a) ^ e ≤ ((T + b) * k + 1 / 10 ^ 11) ^ (p * e) := by
        rw [Real.rpow_mul (by linarith)]
        refine Real.rpow_le_rpow (by positivity) (le_trans ?_ h.high') e0.le
        rw [mul_comm]
        exact mul_le_mul_of_nonneg_left hT.le a1.le
      obtain ⟨n1, n2⟩ := abs_le.mp (pow_near_one (w := (T + b) * k - 1 / 10 ^ 11) (by linarith) (by linarith) h.pe (by norm_num))
      obtain ⟨n3, n4⟩ := abs_le.mp (pow_near_one (w := (T + b) * k + 1 / 10 ^ 11) (by linarith) (by linarith) h.pe (by norm_num))
      have hxT : T - x ≤ 1 / 10 ^ 9 / 2 := by
        have e1 : |a * (T - x)| ≤ 1 / 10 ^ 11 := by
          have : 0 ≤ a * (T - x) := mul_nonneg a1.le (by linarith)
          rw [abs_of_nonneg this]
          linarith
        obtain ⟨-, e2⟩ := abs_le.mp (mul_near (by linarith) s2 e1)
        obtain ⟨e3, -⟩ := abs_le.mp (scale_near h.sa (z := T - x) (by linarith) (M := 1) (by linarith))
        rw [mul_assoc] at e3
        norm_num at e2 e3 ⊢
        linarith
      obtain ⟨q1, q2⟩ := abs_le.mp (mul_near (c := c) (z := (x * a) ^ e - (T + b) * k) (m := 2 / 10 ^ 11) (by linarith) c2
        (abs_le.mpr ⟨by norm_num at m1 n1 ⊢; linarith, by norm_num at m2 n4 ⊢; linarith⟩))
      obtain ⟨q3, q4⟩ := abs_le.mp (scale_near h.ck (z := T + b) (by linarith) (M := 6 / 5) (by linarith))
      rw [show c * (x * a) ^ e - b - x = c * ((x * a) ^ e - (T + b) * k) + (c * k * (T + b) - (T + b)) + (T - x) by ring, abs_le]
      norm_num at q1 q2 q3 q4 hxT ⊢
      constructor <;> linarith
  · rw [if_neg hT]
    push Not at hT
    have wx : (T + b) * k ≤ (x + b) * k := mul_le_mul_of_nonneg_right (by linarith) (by linarith)
    have wx2 : (x + b) * k ≤ 6 / 5 := by
      calc (x + b) * k ≤ (6 / 5) * 1 := mul_le_mul (by linarith) k2 (by linarith) (by norm_num)
        _ = 6 / 5 := by norm_num
    by_cases hL : ((x + b) * k) ^ p < L
    · rw [if_pos hL]
      have m1 : ((T + b) * k - 1 / 10 ^ 11) ^ p ≤ ((x + b) * k) ^ p := Real.rpow_le_rpow (by linarith) (by linarith) p1.le
      have m2 : (x + b) * k < (T + b) * k + 1 / 10 ^ 11 := by
        by_contra hc
        push Not at hc
        have := Real.rpow_le_rpow (by linarith) hc p1.le
        linarith [h.high]
      have lp := h.lowp
      have hxT : x - T ≤ 2 / 10 ^ 11 := by
        by_contra hc
        push Not at hc
        have : (2 / 10 ^ 11) * (1 / 2) ≤ (x - T) * k := mul_le_mul hc.le k1 (by norm_num) (by linarith)
        norm_num at this m2
        linarith
      obtain ⟨q1, q2⟩ := abs_le.mp (mul_near (c := s) (z := ((x + b) * k) ^ p - L) (m := 1 / 10 ^ 10) (by linarith) s2 (abs_le.mpr ⟨by linarith, by linarith⟩))
      obtain ⟨sL1, sL2⟩ := abs_le.mp h.sL
      rw [show ((x + b) * k) ^ p * s - x = s * (((x + b) * k) ^ p - L) + (s * L - T) + (T - x) by ring, abs_le]
      norm_num at q1 q2 sL1 sL2 hxT ⊢
      constructor <;> linarith
    · rw [if_neg hL, ← Real.rpow_mul (by linarith)]
      have n := pow_near_one (w := (x + b) * k) (by linarith) (by linarith) h.pe (by norm_num)
      obtain ⟨q1, q2⟩ := abs_le.mp (mul_near (c := c) (by linarith) c2 n)
      obtain ⟨q3, q4⟩ := abs_le.mp (scale_near h.ck (z := x + b) (by linarith) (M := 6 / 5) (by linarith))
      rw [show c * ((x + b) * k) ^ (p * e) - b - x = c * (((x + b) * k) ^ (p * e) - (x + b) * k) + (c * k * (x + b) - (x + b)) by ring, abs_le]
      norm_num at q1 q2 q3 q4 ⊢
      constructor <;> linarith

/-- From light to encoded values and back. -/
theorem joined_from_to {T a b k p L s c e : ℝ} (h : Joined T a b k p L s c e) {y : ℝ} (hy : 0 ≤ y) (hy1 : y ≤ 1) :
    |(if (if y < L then y * s else c * y ^ e - b) < T then (if y < L then y * s else c * y ^ e - b) * a
      else (((if y < L then y * s else c * y ^ e - b) + b) * k) ^ p) - y| ≤ 1 / 10 ^ 8 := by
  obtain ⟨sL1, sL2⟩ := abs_le.mp h.sL
  obtain ⟨aT1, aT2⟩ := abs_le.mp h.aT
  obtain ⟨T1, T2⟩ := h.T0
  obtain ⟨a1, a2⟩ := h.a0
  obtain ⟨b1, b2⟩ := h.b0
  obtain ⟨k1, k2⟩ := h.k0
  obtain ⟨p1, p2⟩ := h.p0
  obtain ⟨L1, L2⟩ := h.L0
  obtain ⟨s1, s2⟩ := h.s0
  obtain ⟨c1, c2⟩ := h.c0
  have e0 := h.e0
  have W0 := h.W0
  have lp := h.lowp
  have hp := h.highp
  have hW : (T + b) * k ≤ 6 / 5 := by
    calc (T + b) * k ≤ (6 / 5) * 1 := mul_le_mul (by linarith) k2 (by linarith) (by norm_num)
      _ = 6 / 5 := by norm_num
  by_cases hL : y < L
  · rw [if_pos hL]
    by_cases hT : y * s < T
    · rw [if_pos hT, show y * s * a = s * a * y by ring]
      exact (scale_near h.sa hy hy1).trans (by norm_num)
    · rw [if_neg hT]
      push Not at hT
      have hsy : y * s ≤ s * L := by
        rw [mul_comm]
        exact mul_le_mul_of_nonneg_left hL.le (by linarith)
      have w1 : (T + b) * k ≤ (y * s + b) * k := mul_le_mul_of_nonneg_right (by linarith) (by linarith)
      have w2 : (y * s + b) * k ≤ (T + b) * k + 1 / 10 ^ 11 := by
        have : (y * s - T) * k ≤ (1 / 10 ^ 11) * 1 := mul_le_mul (by linarith) k2 (by linarith) (by norm_num)
        linarith
      have m1 : ((T + b) * k - 1 / 10 ^ 11) ^ p ≤ ((y * s + b) * k) ^ p := Real.rpow_le_rpow (by linarith) (by linarith) p1.le
      have m2 : ((y * s + b) * k) ^ p ≤ ((T + b) * k + 1 / 10 ^ 11) ^ p := Real.rpow_le_rpow (by linarith) w2 p1.le
      have : L - y ≤ 1 / 10 ^ 11 := by
        have : 1 * (L - y) ≤ s * (L - y) := mul_le_mul_of_nonneg_right s1 (by linarith)
        linarith
      rw [abs_le]
      norm_num at *
      constructor <;> linarith
  · rw [if_neg hL]
    push Not at hL
    have hye : 0 ≤ y ^ e := Real.rpow_nonneg hy e
    have n := pow_near_one (w := y) (by linarith) (by linarith) h.pe (by norm_num)
    rw [mul_comm p e, Real.rpow_mul hy] at n
    obtain ⟨n1, n2⟩ := abs_le.mp n
    by_cases hT : c * y ^ e - b < T
    · rw [if_pos hT]
      have m1 : ((T + b) * k - 1 / 10 ^ 11) ^ (p * e) ≤ y ^ e := by
        rw [Real.rpow_mul (by linarith)]
        exact Real.rpow_le_rpow (Real.rpow_nonneg (by linarith) _) (h.low.trans hL) e0.le
      obtain ⟨n3, n4⟩ := abs_le.mp (pow_near_one (w := (T + b) * k - 1 / 10 ^ 11) (by linarith) (by linarith) h.pe (by norm_num))
      have hy2 : y ^ e ≤ 6 / 5 := by
        have : 1 * y ^ e ≤ c * y ^ e := mul_le_mul_of_nonneg_right c1 hye
        linarith
      have u1 : y ^ e ≤ (T + b) * k + 1 / 10 ^ 11 := by
        have e1 : (c * y ^ e) * k ≤ (T + b) * k := mul_le_mul_of_nonneg_right (by linarith) (by linarith)
        obtain ⟨e2, -⟩ := abs_le.mp (scale_near h.ck hye hy2)
        rw [mul_right_comm] at e1
        norm_num at e2 ⊢
        linarith
      have u2 : (y ^ e) ^ p ≤ ((T + b) * k + 1 / 10 ^ 11) ^ p := Real.rpow_le_rpow hye u1 p1.le
      have v1 : T - 1 / 10 ^ 10 ≤ c * y ^ e - b := by
        obtain ⟨q1, -⟩ := abs_le.mp (mul_near (c := c) (z := y ^ e - (T + b) * k) (m := 2 / 10 ^ 11) (by linarith) c2
          (abs_le.mpr ⟨by norm_num at m1 n3 ⊢; linarith, by norm_num at u1 ⊢; linarith⟩))
        obtain ⟨q3, -⟩ := abs_le.mp (scale_near h.ck (z := T + b) (by linarith) (M := 6 / 5) (by linarith))
        have e1 : c * y ^ e = c * (y ^ e - (T + b) * k) + (c * k * (T + b) - (T + b)) + (T + b) := by ring
        norm_num at q1 q3 ⊢
        linarith
      obtain ⟨q1, q2⟩ := abs_le.mp (mul_near (c := a) (z := c * y ^ e - b - T) (m := 1 / 10 ^ 10) a1.le a2 (abs_le.mpr ⟨by linarith, by linarith⟩))
      rw [show (c * y ^ e - b) * a - y = a * (c * y ^ e - b - T) + (a * T - L) + (L - y) by ring, abs_le]
      norm_num at *
      constructor <;> linarith
    · rw [if_neg hT]
      rw [show (c * y ^ e - b + b) * k = c * k * y ^ e by ring, Real.mul_rpow (mul_nonneg (by linarith) (by linarith)) hye]
      have r := pow_of_near h.ck (by norm_num) p1.le p2
      have h0 : 0 ≤ (y ^ e) ^ p := Real.rpow_nonneg hye p
      obtain ⟨q1, q2⟩ := abs_le.mp (scale_near r h0 (M := 2) (by norm_num at n2; linarith))
      rw [abs_le]
      norm_num at n1 n2 q1 q2 ⊢
      constructor <;> linarith

end Jxl
