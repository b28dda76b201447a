import Verif.Proofs.TransferFunction

/-!
# C92: transfer functions
-/
namespace Jxl

/-- The numbers of the sRGB curve fit together. -/
theorem srgb_joined : Joined 0.0404482362771082 0.07739938080495357 0.055 0.9478672985781991 2.4 0.00313066844250063 12.92 1.055 0.4166666666666667 := by
  have key : ∀ {w r : ℝ}, 0 ≤ w → 0 ≤ r → w ^ 12 ≤ r ^ 5 → w ^ (2.4 : ℝ) ≤ r := by
    intro w r hw hr h
    have h1 : w ^ (12 : ℝ) ≤ r ^ (5 : ℝ) := by
      rw [show (12 : ℝ) = ((12 : ℕ) : ℝ) by norm_num, show (5 : ℝ) = ((5 : ℕ) : ℝ) by norm_num, Real.rpow_natCast, Real.rpow_natCast]
      exact h
    have h2 := Real.rpow_le_rpow (Real.rpow_nonneg hw _) h1 (show (0 : ℝ) ≤ 1 / 5 by norm_num)
    rw [← Real.rpow_mul hw, ← Real.rpow_mul hr] at h2
    norm_num at h2 ⊢
    exact h2
  have key' : ∀ {w r : ℝ}, 0 ≤ w → 0 ≤ r → r ^ 5 ≤ w ^ 12 → r ≤ w ^ (2.4 : ℝ) := by
    intro w r hw hr h
    have h1 : r ^ (5 : ℝ) ≤ w ^ (12 : ℝ) := by
      rw [show (12 : ℝ) = ((12 : ℕ) : ℝ) by norm_num, show (5 : ℝ) = ((5 : ℕ) : ℝ) by norm_num, Real.rpow_natCast, Real.rpow_natCast]
      exact h
    have h2 := Real.rpow_le_rpow (Real.rpow_nonneg hr _) h1 (show (0 : ℝ) ≤ 1 / 5 by norm_num)
    rw [← Real.rpow_mul hw, ← Real.rpow_mul hr] at h2
    norm_num at h2 ⊢
    exact h2
  constructor
  case low => exact key (by norm_num) (by norm_num) (by norm_num)
  case high => exact key' (by norm_num) (by norm_num) (by norm_num)
  case high' => exact key' (by norm_num) (by norm_num) (by norm_num)
  case lowp => exact key' (by norm_num) (by norm_num) (by norm_num)
  case highp => exact key (by norm_num) (by norm_num) (by norm_num)
  all_goals first | (rw [abs_le]; norm_num) | norm_num

/-- The numbers of the BT.709 curve fit together. -/
theorem bt709_joined : Joined 0.081242858298635133011 0.22222222222222222222 0.0992968268094429403 0.90967241568627260377 2.2222222222222222222 0.018053968510807807336 4.5
    1.0992968268094429403 0.45 := by
  have near : ∀ {w : ℝ}, 1 / 1000 ≤ w → w ≤ 2 → |w ^ ((2.2222222222222222222 : ℝ) * (9 / 20)) - w| ≤ 1 / 10 ^ 13 := by
    intro w h1 h2
    have := pow_near_one (e := (2.2222222222222222222 : ℝ) * (9 / 20)) (d := 1 / 10 ^ 14) h1 h2 (by rw [abs_le]; norm_num) (by norm_num)
    norm_num at this ⊢
    linarith
  have ex : ∀ {w : ℝ}, 0 ≤ w → w ^ (2.2222222222222222222 : ℝ) = (w ^ ((2.2222222222222222222 : ℝ) * (9 / 20))) ^ (20 / 9 : ℝ) := by
    intro w hw
    rw [← Real.rpow_mul hw]
    congr 1
    norm_num
  have key : ∀ {w r : ℝ}, 1 / 1000 ≤ w → w ≤ 2 → 0 ≤ r → (w + 1 / 10 ^ 13) ^ 20 ≤ r ^ 9 → w ^ (2.2222222222222222222 : ℝ) ≤ r := by
    intro w r hw hw2 hr h
    obtain ⟨-, n⟩ := abs_le.mp (near hw hw2)
    have hw0 : 0 ≤ w := by linarith
    have h1 : (w + 1 / 10 ^ 13) ^ (20 : ℝ) ≤ r ^ (9 : ℝ) := by
      rw [show (20 : ℝ) = ((20 : ℕ) : ℝ) by norm_num, show (9 : ℝ) = ((9 : ℕ) : ℝ) by norm_num, Real.rpow_natCast, Real.rpow_natCast]
      exact h
    have h2 := Real.rpow_le_rpow (Real.rpow_nonneg (by linarith) _) h1 (show (0 : ℝ) ≤ 1 / 9 by norm_num)
    rw [← Real.rpow_mul (by linarith), ← Real.rpow_mul hr, show (9 : ℝ) * (1 / 9) = 1 by norm_num, Real.rpow_one, show (20 : ℝ) * (1 / 9) = 20 / 9 by norm_num] at h2
    rw [ex hw0]
    exact (Real.rpow_le_rpow (Real.rpow_nonneg hw0 _) (by linarith) (by norm_num)).trans h2
  have key' : ∀ {w r : ℝ}, 1 / 1000 ≤ w → w ≤ 2 → 0 ≤ r → r ^ 9 ≤ (w - 1 / 10 ^ 13) ^ 20 → r ≤ w ^ (2.2222222222222222222 : ℝ) := by
    intro w r hw hw2 hr h
    obtain ⟨n, -⟩ := abs_le.mp (near hw hw2)
    have hw0 : 0 ≤ w := by linarith
    have hw1 : 0 ≤ w - 1 / 10 ^ 13 := by norm_num at hw ⊢; linarith
    have h1 : r ^ (9 : ℝ) ≤ (w - 1 / 10 ^ 13) ^ (20 : ℝ) := by
      rw [show (20 : ℝ) = ((20 : ℕ) : ℝ) by norm_num, show (9 : ℝ) = ((9 : ℕ) : ℝ) by norm_num, Real.rpow_natCast, Real.rpow_natCast]
      exact h
    have h2 := Real.rpow_le_rpow (Real.rpow_nonneg hr _) h1 (show (0 : ℝ) ≤ 1 / 9 by norm_num)
    rw [← Real.rpow_mul hr, ← Real.rpow_mul hw1, show (9 : ℝ) * (1 / 9) = 1 by norm_num, Real.rpow_one, show (20 : ℝ) * (1 / 9) = 20 / 9 by norm_num] at h2
    rw [ex hw0]
    exact h2.trans (Real.rpow_le_rpow hw1 (by linarith) (by norm_num))
  constructor
  case low => exact key (by norm_num) (by norm_num) (by norm_num) (by norm_num)
  case high => exact key' (by norm_num) (by norm_num) (by norm_num) (by norm_num)
  case high' => exact key' (by norm_num) (by norm_num) (by norm_num) (by norm_num)
  case lowp => exact key' (by norm_num) (by norm_num) (by norm_num) (by norm_num)
  case highp => exact key (by norm_num) (by norm_num) (by norm_num) (by norm_num)
  all_goals first | (rw [abs_le]; norm_num) | norm_num

/-- C92: there is a curve for every number below 2²⁴, and for the codes 1, 8, 13, 16 and 17 (which are stored with 2²⁴ added). All other numbers are refused. -/
theorem C92_known (transfer : ℤ) : (∃ c, getTransferFunction transfer = .ok c) ↔ transfer < 2 ^ 24 ∨ transfer - 2 ^ 24 ∈ [1, 8, 13, 16, 17] := by
  simp only [List.mem_cons, List.not_mem_nil, or_false]
  unfold getTransferFunction
  constructor
  · rintro ⟨c, h⟩
    split_ifs at h <;> omega
  · intro h
    split_ifs <;> first | exact ⟨_, rfl⟩ | omega

example : ¬ ∃ c, getTransferFunction (2 ^ 24) = .ok c := by rw [C92_known]; decide

/-- C92: a number from 1 to 2²⁴ − 1 is a gamma in units of 10⁻⁷. -/
theorem C92_gamma {transfer : ℤ} (h0 : 0 < transfer) (h1 : transfer < 2 ^ 24) {x : ℝ} (hx : 0 ≤ x) :
    ∃ c, getTransferFunction transfer = .ok c ∧ c.fromLinear x = some (x ^ ((transfer : ℝ) / 10 ^ 7)) ∧ c.toLinear x = some (x ^ (10 ^ 7 / (transfer : ℝ))) := by
  refine ⟨newGamma transfer, ?_, ?_, ?_⟩
  · unfold getTransferFunction
    rw [if_neg (by omega), if_neg (by omega), if_neg (by omega), if_neg (by omega), if_neg (by omega), if_neg (by omega), if_pos h1]
  · refine (goPow_nonneg hx _).trans ?_
    congr 2
    norm_num
    ring
  · refine (goPow_nonneg hx _).trans ?_
    congr 2
    norm_num

example : ∃ c, getTransferFunction 4545455 = .ok c ∧ c.fromLinear (1 / 2) = some ((1 / 2) ^ (((4545455 : ℤ) : ℝ) / 10 ^ 7)) ∧ c.toLinear (1 / 2) = some ((1 / 2) ^ (10 ^ 7 / ((4545455 : ℤ) : ℝ))) :=
  C92_gamma (by decide) (by decide) (by norm_num)

/-- **C92**, in part: encoded values are turned into light and back, and light into encoded values and back, without change, up to 10⁻⁸. For the linear, sRGB, BT.709 and gamma curves. -/
theorem C92_roundtrip_partial {transfer : ℤ} {c : Curve} (h : getTransferFunction transfer = .ok c) (h0 : 0 < transfer) (hpq : transfer ≠ 16 + 2 ^ 24) {x : ℝ} (hx : 0 ≤ x) (hx1 : x ≤ 1) :
    (∃ l v, c.toLinear x = some l ∧ c.fromLinear l = some v ∧ |v - x| ≤ 1 / 10 ^ 8) ∧ ∃ v l, c.fromLinear x = some v ∧ c.toLinear v = some l ∧ |l - x| ≤ 1 / 10 ^ 8 := by
  have gamma : c = newGamma transfer →
      (∃ l v, c.toLinear x = some l ∧ c.fromLinear l = some v ∧ |v - x| ≤ 1 / 10 ^ 8) ∧ ∃ v l, c.fromLinear x = some v ∧ c.toLinear v = some l ∧ |l - x| ≤ 1 / 10 ^ 8 := by
    rintro rfl
    have ht : (transfer : ℝ) ≠ 0 := by exact_mod_cast h0.ne'
    refine ⟨⟨_, _, goPow_nonneg hx _, goPow_nonneg (Real.rpow_nonneg hx _) _, ?_⟩, ⟨_, _, goPow_nonneg hx _, goPow_nonneg (Real.rpow_nonneg hx _) _, ?_⟩⟩
    · rw [← Real.rpow_mul hx, show (1e7 / (transfer : ℝ)) * (1e-7 * transfer) = 1 by field_simp; norm_num, Real.rpow_one, sub_self, abs_zero]
      norm_num
    · rw [← Real.rpow_mul hx, show (1e-7 * (transfer : ℝ)) * (1e7 / transfer) = 1 by field_simp; norm_num, Real.rpow_one, sub_self, abs_zero]
      norm_num
  unfold getTransferFunction at h
  split at h
  · obtain rfl := Res.ok.inj h
    have : |x - x| ≤ 1 / 10 ^ 8 := by rw [sub_self, abs_zero]; norm_num
    exact ⟨⟨x, x, rfl, rfl, this⟩, x, x, rfl, rfl, this⟩
  split at h
  · obtain rfl := Res.ok.inj h
    refine ⟨⟨if x < 0.0404482362771082 then x * 0.07739938080495357 else ((x + 0.055) * 0.9478672985781991) ^ (2.4 : ℝ), _, ?_, ?_, joined_to_from srgb_joined hx hx1⟩,
      ⟨if x < 0.00313066844250063 then x * 12.92 else 1.055 * x ^ (0.4166666666666667 : ℝ) - 0.055, _, ?_, ?_, joined_from_to srgb_joined hx hx1⟩⟩
    · unfold Curve.toLinear
      dsimp only
      rw [goPow_nonneg (by nlinarith)]
      split <;> first | rfl | (split <;> rfl)
    · unfold Curve.fromLinear
      dsimp only
      rw [goPow_nonneg]
      · split <;> first | rfl | (split <;> rfl)
      · split
        · nlinarith
        · exact Real.rpow_nonneg (by nlinarith) _
    · unfold Curve.fromLinear
      dsimp only
      rw [goPow_nonneg hx]
      split <;> first | rfl | (split <;> rfl)
    · have hp := Real.rpow_nonneg hx (0.4166666666666667 : ℝ)
      unfold Curve.toLinear
      dsimp only
      rw [goPow_nonneg]
      · split <;> first | rfl | (split <;> rfl)
      · refine mul_nonneg ?_ (by norm_num)
        split
        · linarith
        · linarith
  split at h
  · obtain rfl := Res.ok.inj h
    refine ⟨⟨if x < 0.081242858298635133011 then x * 0.22222222222222222222 else ((x + 0.0992968268094429403) * 0.90967241568627260377) ^ (2.2222222222222222222 : ℝ), _, ?_, ?_,
        joined_to_from bt709_joined hx hx1⟩,
      ⟨if x < 0.018053968510807807336 then x * 4.5 else 1.0992968268094429403 * x ^ (0.45 : ℝ) - 0.0992968268094429403, _, ?_, ?_, joined_from_to bt709_joined hx hx1⟩⟩
    · unfold Curve.toLinear
      dsimp only
      rw [goPow_nonneg (by nlinarith)]
      split <;> first | rfl | (split <;> rfl)
    · unfold Curve.fromLinear
      dsimp only
      rw [goPow_nonneg, mul_comm 4.5]
      · split <;> first | rfl | (split <;> rfl)
      · split
        · nlinarith
        · exact Real.rpow_nonneg (by nlinarith) _
    · unfold Curve.fromLinear
      dsimp only
      rw [goPow_nonneg hx, mul_comm 4.5]
      split <;> first | rfl | (split <;> rfl)
    · have hp := Real.rpow_nonneg hx (0.45 : ℝ)
      unfold Curve.toLinear
      dsimp only
      rw [goPow_nonneg]
      · split <;> first | rfl | (split <;> rfl)
      · refine mul_nonneg ?_ (by norm_num)
        split
        · linarith
        · linarith
  split at h
  · exact gamma (Res.ok.inj h).symm
  split at h
  · cases h
  split at h
  · exact gamma (Res.ok.inj h).symm
  · cases h

/-- The sRGB curve and a gamma of 1 / 2.2. -/
example : getTransferFunction (13 + 2 ^ 24) = .ok .srgb ∧ getTransferFunction 4545455 = .ok (newGamma 4545455) := ⟨by rfl, by rfl⟩

/-- **C92**, in part: the sRGB curve is the one of the standard, up to 10⁻⁶. -/
theorem C92_srgb_partial {x : ℝ} (hx : 0 ≤ x) (hx1 : x ≤ 1) : ∃ l, Curve.srgb.toLinear x = some l ∧ |l - Spec.srgbToLinear x| ≤ 1 / 10 ^ 6 := by
  have hw : 0 ≤ (x + 0.055) * 0.9478672985781991 := mul_nonneg (by linarith) (by norm_num)
  unfold Curve.toLinear Spec.srgbToLinear
  dsimp only
  rw [goPow_nonneg hw]
  by_cases h1 : x < 0.0404482362771082
  · rw [if_pos h1, if_pos (by norm_num at h1 ⊢; linarith)]
    refine ⟨_, rfl, ?_⟩
    rw [abs_le]
    norm_num
    constructor <;> linarith
  · rw [if_neg h1]
    push Not at h1
    refine ⟨_, rfl, ?_⟩
    by_cases h2 : x ≤ 0.04045
    · rw [if_pos h2]
      have low : (0.00313066 : ℝ) ≤ ((x + 0.055) * 0.9478672985781991) ^ (2.4 : ℝ) := by
        refine le_trans ?_ (Real.rpow_le_rpow (z := 2.4) (by norm_num) (show (0.0404482362771082 + 0.055) * 0.9478672985781991 ≤ (x + 0.055) * 0.9478672985781991 from
          mul_le_mul_of_nonneg_right (by linarith) (by norm_num)) (by norm_num))
        have := srgb_joined.lowp
        have h3 : ((0.0404482362771082 + 0.055) * 0.9478672985781991 - 1 / 10 ^ 11 : ℝ) ^ (2.4 : ℝ) ≤ ((0.0404482362771082 + 0.055) * 0.9478672985781991) ^ (2.4 : ℝ) :=
          Real.rpow_le_rpow (by norm_num) (by norm_num) (by norm_num)
        refine le_trans ?_ (this.trans h3)
        norm_num
      have high : ((x + 0.055) * 0.9478672985781991) ^ (2.4 : ℝ) ≤ 0.0031312 := by
        refine (Real.rpow_le_rpow (z := 2.4) hw (show (x + 0.055) * 0.9478672985781991 ≤ 0.0904741 by norm_num at h2 ⊢; linarith) (by norm_num)).trans ?_
        have h3 := Real.rpow_le_rpow (z := 1 / 5) (by positivity) (show (0.0904741 : ℝ) ^ (12 : ℝ) ≤ (0.0031312 : ℝ) ^ (5 : ℝ) by norm_num) (by norm_num)
        rwa [← Real.rpow_mul (by norm_num), ← Real.rpow_mul (by norm_num), show (5 : ℝ) * (1 / 5) = 1 by norm_num, Real.rpow_one, show (12 : ℝ) * (1 / 5) = 2.4 by norm_num] at h3
      rw [abs_le]
      norm_num at low high h1 h2 ⊢
      constructor <;> linarith
    · rw [if_neg h2, show (x + 0.055) * 0.9478672985781991 = (1.055 * 0.9478672985781991) * ((x + 0.055) / 1.055) by ring,
        Real.mul_rpow (by norm_num) (div_nonneg (by linarith) (by norm_num))]
      refine (scale_near (pow_of_near srgb_joined.ck (by norm_num) (by norm_num) (by norm_num)) (Real.rpow_nonneg (div_nonneg (by linarith) (by norm_num)) _)
        (Real.rpow_le_one (div_nonneg (by linarith) (by norm_num)) ?_ (by norm_num))).trans (by norm_num)
      rw [div_le_one (by norm_num)]
      linarith

/-- **C92**, in part: the BT.709 curve is the one of the standard, up to 1/1000, less than half a step of 8 bits. -/
theorem C92_bt709_partial {x : ℝ} (hx : 0 ≤ x) (hx1 : x ≤ 1) : ∃ v, Curve.bt709.fromLinear x = some v ∧ |v - Spec.bt709FromLinear x| ≤ 1 / 1000 := by
  unfold Curve.fromLinear Spec.bt709FromLinear
  dsimp only
  rw [goPow_nonneg hx]
  have hp := Real.rpow_nonneg hx (0.45 : ℝ)
  have hp1 : x ^ (0.45 : ℝ) ≤ 1 := Real.rpow_le_one hx hx1 (by norm_num)
  by_cases h1 : x < 0.018053968510807807336
  · rw [if_pos h1]
    refine ⟨_, rfl, ?_⟩
    by_cases h2 : x < 0.018
    · rw [if_pos h2, sub_self, abs_zero]
      norm_num
    · rw [if_neg h2]
      push Not at h2
      have low : (0.164 : ℝ) ≤ x ^ (0.45 : ℝ) := by
        refine le_trans ?_ (Real.rpow_le_rpow (z := 0.45) (by norm_num) h2 (by norm_num))
        have h3 := Real.rpow_le_rpow (z := 1 / 20) (by positivity) (show (0.164 : ℝ) ^ (20 : ℝ) ≤ (0.018 : ℝ) ^ (9 : ℝ) by norm_num) (by norm_num)
        rwa [← Real.rpow_mul (by norm_num), ← Real.rpow_mul (by norm_num), show (20 : ℝ) * (1 / 20) = 1 by norm_num, Real.rpow_one, show (9 : ℝ) * (1 / 20) = 0.45 by norm_num] at h3
      have high : x ^ (0.45 : ℝ) ≤ 0.1643 := by
        refine (Real.rpow_le_rpow (z := 0.45) hx (show x ≤ 0.018054 by norm_num at h1 ⊢; linarith) (by norm_num)).trans ?_
        have h3 := Real.rpow_le_rpow (z := 1 / 20) (by positivity) (show (0.018054 : ℝ) ^ (9 : ℝ) ≤ (0.1643 : ℝ) ^ (20 : ℝ) by norm_num) (by norm_num)
        rwa [← Real.rpow_mul (by norm_num), ← Real.rpow_mul (by norm_num), show (20 : ℝ) * (1 / 20) = 1 by norm_num, Real.rpow_one, show (9 : ℝ) * (1 / 20) = 0.45 by norm_num] at h3
      rw [abs_le]
      norm_num at low high h1 h2 ⊢
      constructor <;> linarith
  · rw [if_neg h1, if_neg (by norm_num at h1 ⊢; linarith)]
    refine ⟨_, rfl, ?_⟩
    rw [abs_le]
    norm_num at hp hp1 ⊢
    constructor <;> linarith

/-- **C92** is false for PQ: no encoded value gives light worth mentioning; where the standard has 1, the result is below 10⁻⁹. Below the threshold the results are NaN. (The denominator has a plus where the
standard has a minus.) -/
theorem C92_pq_violated : (∀ x, 0 ≤ x → x ≤ 1 → Curve.pq.toLinear x = none ∨ ∃ l, Curve.pq.toLinear x = some l ∧ 0 ≤ l ∧ l < 1 / 10 ^ 9) ∧ Spec.pqToLinear 1 = 1 ∧ Curve.pq.fromLinear 1 = some 1 := by
  refine ⟨?_, ?_, ?_⟩
  · intro x hx hx1
    have hd := Real.rpow_nonneg hx (0.012683313515655965121 : ℝ)
    have hd1 : x ^ (0.012683313515655965121 : ℝ) ≤ 1 := Real.rpow_le_one hx hx1 (by norm_num)
    unfold Curve.toLinear
    dsimp only
    rw [goPow_nonneg hx]
    generalize x ^ (0.012683313515655965121 : ℝ) = d at hd hd1
    show goPow _ _ = none ∨ ∃ l, goPow _ _ = some l ∧ _
    by_cases hneg : (d - 0.8359375) / (18.8515625 + 18.6875 * d) < 0
    · left
      unfold goPow
      rw [if_pos]
      refine ⟨hneg, fun n hn => ?_⟩
      have h1 : (6 : ℝ) < n := by rw [← hn]; norm_num
      have h2 : (n : ℝ) < 7 := by rw [← hn]; norm_num
      have h1' : (6 : ℤ) < n := by exact_mod_cast h1
      have h2' : n < (7 : ℤ) := by exact_mod_cast h2
      omega
    · right
      push Not at hneg
      refine ⟨_, goPow_nonneg hneg _, Real.rpow_nonneg hneg _, ?_⟩
      have hb : (d - 0.8359375) / (18.8515625 + 18.6875 * d) ≤ 1 / 100 := by
        rw [div_le_div_iff₀ (by linarith) (by norm_num)]
        norm_num
        linarith
      have h3 := Real.rpow_le_rpow (z := 6.2725880551301684533) hneg hb (by norm_num)
      have h4 : (1 / 100 : ℝ) ^ (6.2725880551301684533 : ℝ) ≤ (1 / 100 : ℝ) ^ (6 : ℝ) := Real.rpow_le_rpow_of_exponent_ge (by norm_num) (by norm_num) (by norm_num)
      have h5 : (1 / 100 : ℝ) ^ (6 : ℝ) = 1 / 10 ^ 12 := by
        rw [show (6 : ℝ) = ((6 : ℕ) : ℝ) by norm_num, Real.rpow_natCast]
        norm_num
      rw [h5] at h4
      exact lt_of_le_of_lt (h3.trans h4) (by norm_num)
  · unfold Spec.pqToLinear
    rw [Real.one_rpow, max_eq_left (by norm_num), show ((1 : ℝ) - 0.8359375) / (18.8515625 - 18.6875 * 1) = 1 by norm_num, Real.one_rpow]
  · unfold Curve.fromLinear
    dsimp only
    rw [goPow_nonneg (by norm_num), Real.one_rpow]
    show goPow _ _ = _
    rw [show ((0.8359375 : ℝ) + 18.8515625 * 1) / (1.0 + 18.6875 * 1) = 1 by norm_num, goPow_nonneg (by norm_num), Real.one_rpow]

/-- **C92** is false for PQ in the other direction too: everything but black and full light is darker than in the standard. (The exponent is 2612 / 16384 instead of 2610 / 16384.) -/
theorem C92_pq_from_violated {x : ℝ} (hx : 0 < x) (hx1 : x < 1) : ∃ v, Curve.pq.fromLinear x = some v ∧ v < Spec.pqFromLinear x := by
  have hd := Real.rpow_pos_of_pos hx (0.159423828125 : ℝ)
  have hlt : x ^ (0.159423828125 : ℝ) < x ^ (2610 / 16384 : ℝ) := Real.rpow_lt_rpow_of_exponent_gt hx hx1 (by norm_num)
  unfold Curve.fromLinear Spec.pqFromLinear
  dsimp only
  rw [goPow_nonneg hx.le]
  generalize x ^ (0.159423828125 : ℝ) = d at hd hlt
  generalize x ^ (2610 / 16384 : ℝ) = d' at hlt
  have hpos : 0 ≤ (0.8359375 + 18.8515625 * d) / (1.0 + 18.6875 * d) := div_nonneg (by linarith) (by linarith)
  refine ⟨_, goPow_nonneg hpos _, Real.rpow_lt_rpow hpos ?_ (by norm_num)⟩
  rw [div_lt_div_iff₀ (by linarith) (by linarith)]
  norm_num
  nlinarith

/-- **C92** is false for DCI: the number of the function is taken for a gamma, and everything is darker than linear where the standard has it brighter. -/
theorem C92_dci_violated {x : ℝ} (hx : 0 < x) (hx1 : x < 1) :
    ∃ c v, getTransferFunction (17 + 2 ^ 24) = .ok c ∧ c.fromLinear x = some v ∧ v < x ∧ x < Spec.dciFromLinear x := by
  refine ⟨newGamma (17 + 2 ^ 24), _, rfl, goPow_nonneg hx.le _, ?_, ?_⟩
  · nth_rw 2 [← Real.rpow_one x]
    exact Real.rpow_lt_rpow_of_exponent_gt hx hx1 (by norm_num)
  · unfold Spec.dciFromLinear
    nth_rw 1 [← Real.rpow_one x]
    exact Real.rpow_lt_rpow_of_exponent_gt hx hx1 (by norm_num)

/-- HLG is not implemented: an error. -/
theorem C92_hlg_violated : getTransferFunction (18 + 2 ^ 24) = .err := rfl

/-- C92: the code 8 stands for light itself, 13 for the sRGB curve, and 1 for the BT.709 curve (in part: up to 10⁻⁶ and 10⁻³). -/
theorem C92_codes_partial {x : ℝ} (hx : 0 ≤ x) (hx1 : x ≤ 1) :
    (∃ c, getTransferFunction (8 + 2 ^ 24) = .ok c ∧ c.toLinear x = some x ∧ c.fromLinear x = some x) ∧
    (∃ c l, getTransferFunction (13 + 2 ^ 24) = .ok c ∧ c.toLinear x = some l ∧ |l - Spec.srgbToLinear x| ≤ 1 / 10 ^ 6) ∧
    ∃ c v, getTransferFunction (1 + 2 ^ 24) = .ok c ∧ c.fromLinear x = some v ∧ |v - Spec.bt709FromLinear x| ≤ 1 / 1000 := by
  obtain ⟨l, h1, h2⟩ := C92_srgb_partial hx hx1
  obtain ⟨v, h3, h4⟩ := C92_bt709_partial hx hx1
  exact ⟨⟨_, rfl, rfl, rfl⟩, ⟨_, l, rfl, h1, h2⟩, _, v, rfl, h3, h4⟩

end Jxl
