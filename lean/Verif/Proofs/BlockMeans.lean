import Verif.Proofs.LFMeans
import Verif.Spec.Dequant
import Mathlib.Tactic.IntervalCases

/-! # Sums of the samples of blocks of all types -/
namespace Jxl
open Finset Spec

/-- The exact cosines. -/
noncomputable abbrev Spec.exactCos (l n k : Nat) : ℝ := basis (2 ^ l) n k

theorem dctSamples_real (a b : Nat) (f : Nat → Nat → ℝ) {y x : Nat} (hy : y < 2 ^ a) (hx : x < 2 ^ b) : dctSamples exactCos a b f y x = idct2 (2 ^ a) (2 ^ b) f y x := by
  unfold dctSamples
  rw [idctVal_real (by positivity) (fun _ _ _ _ _ => rfl) _ hx, ← idct2_cols]
  refine idct1_congr (fun n _ => ?_) x
  exact idctVal_real (by positivity) (fun _ _ _ _ _ => rfl) _ hy

theorem dctSamples'_real (a b : Nat) (f : Nat → Nat → ℝ) {y x : Nat} (hy : y < 2 ^ a) (hx : x < 2 ^ b) : dctSamples' exactCos a b f y x = idct2 (2 ^ a) (2 ^ b) f y x := by
  unfold dctSamples'
  rw [idctVal_real (by positivity) (fun _ _ _ _ _ => rfl) _ hy, ← idct2_rows]
  refine idct1_congr (fun n _ => ?_) y
  exact idctVal_real (by positivity) (fun _ _ _ _ _ => rfl) _ hx

theorem lowValue_real (scale : Nat → Nat → ℝ) (a b : Nat) (lf : Nat → Nat → ℝ) {y x : Nat} (hy : y < 2 ^ a) (hx : x < 2 ^ b) :
    lowValue exactCos scale a b lf y x = fdct2 (2 ^ a) (2 ^ b) lf y x * scale (y * 2 ^ (5 - a)) (x * 2 ^ (5 - b)) := by
  unfold lowValue
  rw [fdctVal_real (by positivity) (fun _ _ _ _ _ => rfl) _ hy, ← fdct2_rows]
  congr 1
  refine fdct1_congr (fun n _ => ?_) y
  exact fdctVal_real (by positivity) (fun _ _ _ _ _ => rfl) _ hx

theorem sum_dctSamples (a b : Nat) (f : Nat → Nat → ℝ) : ∑ y ∈ range (2 ^ a), ∑ x ∈ range (2 ^ b), dctSamples exactCos a b f y x = 2 ^ a * 2 ^ b * f 0 0 := by
  rw [sum_congr rfl fun y hy => sum_congr rfl fun x hx => dctSamples_real a b f (mem_range.1 hy) (mem_range.1 hx), sum_idct2 _ _ (by positivity) (by positivity)]
  push_cast
  ring

theorem sum_dctSamples' (a b : Nat) (f : Nat → Nat → ℝ) : ∑ y ∈ range (2 ^ a), ∑ x ∈ range (2 ^ b), dctSamples' exactCos a b f y x = 2 ^ a * 2 ^ b * f 0 0 := by
  rw [sum_congr rfl fun y hy => sum_congr rfl fun x hx => dctSamples'_real a b f (mem_range.1 hy) (mem_range.1 hx), sum_idct2 _ _ (by positivity) (by positivity)]
  push_cast
  ring

/-- Eight rows are four rows and four rows. -/
theorem sum_8 (g : Nat → ℝ) : ∑ y ∈ range 8, g y = ∑ y ∈ range 4, g y + ∑ y ∈ range 4, g (4 + y) := sum_range_add g 4 4

theorem sum_dct48 (f : Nat → Nat → ℝ) : ∑ y ∈ range 8, ∑ x ∈ range 8, dct48Samples exactCos f y x = 64 * f 0 0 := by
  rw [sum_8]
  have e0 : ∀ y ∈ range 4, ∑ x ∈ range 8, dct48Samples exactCos f y x = ∑ x ∈ range 8, dctSamples exactCos 2 3 (halfCoeffs f 0) y x := by
    intro y hy
    have := mem_range.1 hy
    unfold dct48Samples
    rw [show y / 4 = 0 by omega, show y % 4 = y by omega]
  have e1 : ∀ y ∈ range 4, ∑ x ∈ range 8, dct48Samples exactCos f (4 + y) x = ∑ x ∈ range 8, dctSamples exactCos 2 3 (halfCoeffs f 1) y x := by
    intro y hy
    have := mem_range.1 hy
    unfold dct48Samples
    rw [show (4 + y) / 4 = 1 by omega, show (4 + y) % 4 = y by omega]
  rw [sum_congr rfl e0, sum_congr rfl e1]
  have s0 := sum_dctSamples 2 3 (halfCoeffs f 0)
  have s1 := sum_dctSamples 2 3 (halfCoeffs f 1)
  norm_num at s0 s1
  rw [s0, s1]
  simp only [halfCoeffs, and_self, if_true, one_ne_zero, if_false]
  ring

theorem sum_dct84 (f : Nat → Nat → ℝ) : ∑ y ∈ range 8, ∑ x ∈ range 8, dct84Samples exactCos f y x = 64 * f 0 0 := by
  rw [sum_comm, sum_8]
  have e0 : ∀ x ∈ range 4, ∑ y ∈ range 8, dct84Samples exactCos f y x = ∑ y ∈ range 8, dctSamples' exactCos 2 3 (halfCoeffs f 0) x y := by
    intro y hy
    have := mem_range.1 hy
    unfold dct84Samples
    rw [show y / 4 = 0 by omega, show y % 4 = y by omega]
  have e1 : ∀ x ∈ range 4, ∑ y ∈ range 8, dct84Samples exactCos f y (4 + x) = ∑ y ∈ range 8, dctSamples' exactCos 2 3 (halfCoeffs f 1) x y := by
    intro y hy
    have := mem_range.1 hy
    unfold dct84Samples
    rw [show (4 + y) / 4 = 1 by omega, show (4 + y) % 4 = y by omega]
  rw [sum_congr rfl e0, sum_congr rfl e1]
  have s0 := sum_dctSamples' 2 3 (halfCoeffs f 0)
  have s1 := sum_dctSamples' 2 3 (halfCoeffs f 1)
  norm_num at s0 s1
  rw [s0, s1]
  simp only [halfCoeffs, and_self, if_true, one_ne_zero, if_false]
  ring

theorem haar_quad (num : Nat) (f : Nat → Nat → ℝ) {y x : Nat} (hy : y < num) (hx : x < num) :
    haarStep num f (2 * y) (2 * x) + haarStep num f (2 * y) (2 * x + 1) + haarStep num f (2 * y + 1) (2 * x) + haarStep num f (2 * y + 1) (2 * x + 1) = 4 * f y x := by
  unfold haarStep
  have c00 : 2 * y < 2 * num ∧ 2 * x < 2 * num := ⟨by omega, by omega⟩
  have c01 : 2 * y < 2 * num ∧ 2 * x + 1 < 2 * num := ⟨by omega, by omega⟩
  have c10 : 2 * y + 1 < 2 * num ∧ 2 * x < 2 * num := ⟨by omega, by omega⟩
  have c11 : 2 * y + 1 < 2 * num ∧ 2 * x + 1 < 2 * num := ⟨by omega, by omega⟩
  rw [if_pos c00, if_pos c01, if_pos c10, if_pos c11]
  rw [show 2 * y / 2 = y by omega, show 2 * x / 2 = x by omega, show (2 * y + 1) / 2 = y by omega, show (2 * x + 1) / 2 = x by omega]
  simp only [show 2 * y % 2 = 0 by omega, show 2 * x % 2 = 0 by omega, show (2 * y + 1) % 2 = 1 by omega, show (2 * x + 1) % 2 = 1 by omega, if_true, one_ne_zero, if_false]
  ring

theorem sum_double (g : Nat → ℝ) (n : Nat) : ∑ y ∈ range (2 * n), g y = ∑ y ∈ range n, (g (2 * y) + g (2 * y + 1)) := by
  induction n with
  | zero => simp
  | succ n ih => rw [show 2 * (n + 1) = 2 * n + 1 + 1 by ring, sum_range_succ, sum_range_succ, ih, sum_range_succ]; ring

theorem sum_haar (num : Nat) (f : Nat → Nat → ℝ) : ∑ y ∈ range (2 * num), ∑ x ∈ range (2 * num), haarStep num f y x = 4 * ∑ y ∈ range num, ∑ x ∈ range num, f y x := by
  rw [sum_double, mul_sum]
  refine sum_congr rfl fun y hy => ?_
  rw [sum_double, sum_double, ← sum_add_distrib, mul_sum]
  refine sum_congr rfl fun x hx => ?_
  rw [← haar_quad num f (mem_range.1 hy) (mem_range.1 hx)]
  ring

theorem sum_dct2 (f : Nat → Nat → ℝ) : ∑ y ∈ range 8, ∑ x ∈ range 8, dct2Samples f y x = 64 * f 0 0 := by
  have h4 := sum_haar 4 (haarStep 2 (haarStep 1 f))
  have h2 := sum_haar 2 (haarStep 1 f)
  have h1 := sum_haar 1 f
  norm_num at h1 h2 h4
  unfold dct2Samples
  rw [h4, h2, h1]
  ring

theorem sum_quarter (f : Nat → Nat → ℝ) {qy qx : Nat} (hy : qy < 2) (hx : qx < 2) :
    ∑ y ∈ range 4, ∑ x ∈ range 4, hornussSamples f (4 * qy + y) (4 * qx + x) = 16 * haarStep 1 f qy qx := by
  have e : ∀ y ∈ range 4, ∀ x ∈ range 4, hornussSamples f (4 * qy + y) (4 * qx + x) = hornussMid f qy qx +
      (if y = 1 ∧ x = 1 then 0 else if y = 0 ∧ x = 0 then f (qy + 2) (qx + 2) else f (qy + y * 2) (qx + x * 2)) := by
    intro y hy' x hx'
    have := mem_range.1 hy'
    have := mem_range.1 hx'
    unfold hornussSamples
    rw [show (4 * qy + y) / 4 = qy by omega, show (4 * qx + x) / 4 = qx by omega, show (4 * qy + y) % 4 = y by omega, show (4 * qx + x) % 4 = x by omega]
    dsimp only
    by_cases h1 : y = 1 ∧ x = 1
    · rw [if_pos h1, if_pos h1, add_zero]
    · rw [if_neg h1, if_neg h1]
      by_cases h0 : y = 0 ∧ x = 0
      · rw [if_pos h0, if_pos h0, add_comm]
      · rw [if_neg h0, if_neg h0, add_comm]
  rw [sum_congr rfl fun y hy => sum_congr rfl fun x hx => e y hy x hx]
  unfold hornussMid hornussSum
  have hz : (Arith.lit 0 : ℝ) = 0 := Rat.cast_zero
  have h16 : (Arith.lit (1 / 16) : ℝ) = 1 / 16 := by
    show ((1 / 16 : ℚ) : ℝ) = 1 / 16
    norm_num
  rw [hz, h16]
  simp [sum_range_succ, List.range_succ, List.range'_succ]
  ring

theorem sum_hornuss (f : Nat → Nat → ℝ) : ∑ y ∈ range 8, ∑ x ∈ range 8, hornussSamples f y x = 64 * f 0 0 := by
  have q := fun (qy qx : Nat) (hy : qy < 2) (hx : qx < 2) => sum_quarter f hy hx
  have q00 := q 0 0 (by omega) (by omega)
  have q01 := q 0 1 (by omega) (by omega)
  have q10 := q 1 0 (by omega) (by omega)
  have q11 := q 1 1 (by omega) (by omega)
  have h1 := sum_haar 1 f
  simp only [mul_zero, mul_one, zero_add] at q00 q01 q10 q11 h1
  rw [sum_8, sum_congr rfl fun y _ => sum_8 (fun x => hornussSamples f y x), sum_congr rfl fun y _ => sum_8 (fun x => hornussSamples f (4 + y) x), sum_add_distrib, sum_add_distrib,
    q00, q01, q10, q11]
  simp only [sum_range_succ, sum_range_zero, zero_add] at h1
  linarith

theorem sum_mirror (g : Nat → ℝ) (b : Bool) : ∑ y ∈ range 4, g (if b then 3 - y else y) = ∑ y ∈ range 4, g y := by
  cases b
  · simp
  · simp [sum_range_succ]
    ring

/-- What the table of the AFV basis has to do with means: the first function is constant, the others sum to 0. -/
def Spec.AFVExact (B : Nat → Nat → ℝ) : Prop := (∀ k, k < 16 → B 0 k = 1 / 4) ∧ ∀ j, 1 ≤ j → j < 16 → ∑ k ∈ range 16, B j k = 0

theorem sum_corner {B : Nat → Nat → ℝ} (hB : AFVExact B) (f : Nat → Nat → ℝ) : ∑ y ∈ range 4, ∑ x ∈ range 4, afvCornerSamples B f y x = 16 * (f 0 0 + f 1 0 + f 0 1) := by
  have hz : (Arith.lit 0 : ℝ) = 0 := Rat.cast_zero
  have h4 : (Arith.lit 4 : ℝ) = 4 := by
    show ((4 : ℚ) : ℝ) = 4
    norm_num
  have hf : ∀ (n : Nat) (g : Nat → ℝ), (List.range n).foldl (fun s j => s + g j) 0 = ∑ j ∈ range n, g j := by
    intro n g
    induction n with
    | zero => simp
    | succ n ih => rw [List.range_succ, List.foldl_append, ih, sum_range_succ]; rfl
  have e : ∀ y x, afvCornerSamples B f y x = ∑ j ∈ range 16, afvCornerCoeffs f (j / 4) (j % 4) * B j (y * 4 + x) := by
    intro y x
    unfold afvCornerSamples
    rw [hz]
    exact hf 16 _
  have e2 : ∀ j, ∑ y ∈ range 4, ∑ x ∈ range 4, B j (y * 4 + x) = ∑ k ∈ range 16, B j k := by
    intro j
    simp only [sum_range_succ, sum_range_zero, zero_add]
    norm_num
    ring
  have e3 : ∑ y ∈ range 4, ∑ x ∈ range 4, afvCornerSamples B f y x = ∑ j ∈ range 16, afvCornerCoeffs f (j / 4) (j % 4) * ∑ k ∈ range 16, B j k := by
    rw [sum_congr rfl fun y _ => sum_congr rfl fun x _ => e y x, sum_congr rfl fun y _ => sum_comm, sum_comm]
    refine sum_congr rfl fun j _ => ?_
    rw [← e2 j, mul_sum]
    refine sum_congr rfl fun y _ => ?_
    rw [mul_sum]
  rw [e3, sum_range_succ']
  have z : ∑ k ∈ range 15, afvCornerCoeffs f ((k + 1) / 4) ((k + 1) % 4) * ∑ i ∈ range 16, B (k + 1) i = 0 := by
    refine sum_eq_zero fun k hk => ?_
    rw [hB.2 (k + 1) (by omega) (by have := mem_range.1 hk; omega), mul_zero]
  rw [z, sum_congr rfl fun k hk => hB.1 k (mem_range.1 hk)]
  simp only [sum_const, card_range, afvCornerCoeffs, and_self, if_true, Nat.zero_div, Nat.zero_mod, h4]
  norm_num
  ring

theorem sum_afv {B : Nat → Nat → ℝ} (hB : AFVExact B) (bottom right : Bool) (f : Nat → Nat → ℝ) : ∑ y ∈ range 8, ∑ x ∈ range 8, afvSamples exactCos B bottom right f y x = 64 * f 0 0 := by
  have hc := sum_corner hB f
  have hh := sum_dctSamples 2 3 (afvHalfCoeffs f)
  have hs := sum_dctSamples 2 2 (afvSquareCoeffs f)
  norm_num at hh hs
  rw [sum_comm] at hs
  have dc1 : afvHalfCoeffs f 0 0 = f 0 0 - f 1 0 := by simp [afvHalfCoeffs]
  have dc2 : afvSquareCoeffs f 0 0 = f 0 0 + f 1 0 - f 0 1 := by simp [afvSquareCoeffs]
  rw [dc1] at hh
  rw [dc2] at hs
  -- the half
  have eH : ∀ q, q < 2 → q ≠ (if bottom then 1 else 0) → ∑ y ∈ range 4, ∑ x ∈ range 8, afvSamples exactCos B bottom right f (4 * q + y) x = 32 * (f 0 0 - f 1 0) := by
    intro q hq hne
    rw [← hh]
    refine sum_congr rfl fun y hy => sum_congr rfl fun x hx => ?_
    have := mem_range.1 hy
    unfold afvSamples
    rw [show (4 * q + y) / 4 = q by omega, show (4 * q + y) % 4 = y by omega, if_neg hne]
  -- the corner and the square
  have eC : ∀ q, q < 2 → q = (if bottom then 1 else 0) → ∑ y ∈ range 4, ∑ x ∈ range 8, afvSamples exactCos B bottom right f (4 * q + y) x =
      16 * (f 0 0 + f 1 0 + f 0 1) + 16 * (f 0 0 + f 1 0 - f 0 1) := by
    intro q hq he
    have e1 : ∀ p, p < 2 → p = (if right then 1 else 0) → ∑ y ∈ range 4, ∑ x ∈ range 4, afvSamples exactCos B bottom right f (4 * q + y) (4 * p + x) = 16 * (f 0 0 + f 1 0 + f 0 1) := by
      intro p hp hpe
      rw [← hc, ← sum_mirror (fun y => ∑ x ∈ range 4, afvCornerSamples B f y x) bottom]
      refine sum_congr rfl fun y hy => ?_
      rw [← sum_mirror (fun x => afvCornerSamples B f (if bottom then 3 - y else y) x) right]
      refine sum_congr rfl fun x hx => ?_
      have := mem_range.1 hy
      have := mem_range.1 hx
      unfold afvSamples
      rw [show (4 * q + y) / 4 = q by omega, show (4 * q + y) % 4 = y by omega, show (4 * p + x) / 4 = p by omega, show (4 * p + x) % 4 = x by omega, if_pos he, if_pos hpe]
    have e2 : ∀ p, p < 2 → p ≠ (if right then 1 else 0) → ∑ y ∈ range 4, ∑ x ∈ range 4, afvSamples exactCos B bottom right f (4 * q + y) (4 * p + x) = 16 * (f 0 0 + f 1 0 - f 0 1) := by
      intro p hp hpe
      rw [← hs]
      refine sum_congr rfl fun y hy => sum_congr rfl fun x hx => ?_
      have := mem_range.1 hy
      have := mem_range.1 hx
      unfold afvSamples
      rw [show (4 * q + y) / 4 = q by omega, show (4 * q + y) % 4 = y by omega, show (4 * p + x) / 4 = p by omega, show (4 * p + x) % 4 = x by omega, if_pos he, if_neg hpe]
    rw [sum_congr rfl fun y _ => sum_8 (fun x => afvSamples exactCos B bottom right f (4 * q + y) x), sum_add_distrib]
    cases right
    · have a := e1 0 (by omega) rfl
      have b := e2 1 (by omega) (by decide)
      simp only [mul_zero, zero_add, mul_one] at a b
      rw [a, b]
    · have a := e1 1 (by omega) rfl
      have b := e2 0 (by omega) (by decide)
      simp only [mul_zero, zero_add, mul_one] at a b
      rw [a, b]
      ring
  rw [sum_8]
  cases bottom
  · have a := eC 0 (by omega) rfl
    have b := eH 1 (by omega) (by decide)
    simp only [mul_zero, zero_add, mul_one] at a b
    rw [a, b]
    ring
  · have a := eC 1 (by omega) rfl
    have b := eH 0 (by omega) (by decide)
    simp only [mul_zero, zero_add, mul_one] at a b
    rw [a, b]
    ring

/-- The samples of a block sum to its first coefficient, times the number of samples. -/
theorem sum_block {B : Nat → Nat → ℝ} (hB : AFVExact B) {tt : TransformType} (ht : tt ∈ allDCT) (h2 : tt.method ≠ 2) (bottom right : Bool) (f : Nat → Nat → ℝ) :
    ∑ y ∈ range tt.pixelHeight.toNat, ∑ x ∈ range tt.pixelWidth.toNat, blockSamples exactCos B tt bottom right f y x = tt.pixelHeight.toNat * tt.pixelWidth.toNat * f 0 0 := by
  have sz : (tt.method = 0 → 2 ^ Nat.log2 tt.pixelHeight.toNat = tt.pixelHeight.toNat ∧ 2 ^ Nat.log2 tt.pixelWidth.toNat = tt.pixelWidth.toNat) ∧
      (tt.method ≠ 0 → tt.pixelHeight.toNat = 8 ∧ tt.pixelWidth.toNat = 8) := by
    have : ∀ tt ∈ allDCT, (tt.method = 0 → 2 ^ Nat.log2 tt.pixelHeight.toNat = tt.pixelHeight.toNat ∧ 2 ^ Nat.log2 tt.pixelWidth.toNat = tt.pixelWidth.toNat) ∧
      (tt.method ≠ 0 → tt.pixelHeight.toNat = 8 ∧ tt.pixelWidth.toNat = 8) := by decide +kernel
    exact this tt ht
  unfold blockSamples
  by_cases m0 : tt.method = 0
  · obtain ⟨e1, e2⟩ := sz.1 m0
    rw [if_pos m0]
    have := sum_dctSamples (Nat.log2 tt.pixelHeight.toNat) (Nat.log2 tt.pixelWidth.toNat) f
    rw [e1, e2] at this
    rw [this]
    congr 2
    · exact_mod_cast e1
    · exact_mod_cast e2
  · obtain ⟨e1, e2⟩ := sz.2 m0
    rw [if_neg m0, e1, e2]
    have e64 : ((8 : Nat) : ℝ) * ((8 : Nat) : ℝ) * f 0 0 = 64 * f 0 0 := by norm_num
    rw [e64]
    by_cases m1 : tt.method = 1
    · rw [if_pos m1]; exact sum_dct2 f
    rw [if_neg m1]
    by_cases m3 : tt.method = 3
    · rw [if_pos m3]; exact sum_hornuss f
    rw [if_neg m3]
    by_cases m4 : tt.method = 4
    · rw [if_pos m4]; exact sum_dct84 f
    rw [if_neg m4]
    by_cases m5 : tt.method = 5
    · rw [if_pos m5]; exact sum_dct48 f
    rw [if_neg m5]
    exact sum_afv hB bottom right f

/-- The parts of a block that has low frequencies only. -/
theorem sum_part {a b : Nat} (ha : a ≤ 5) (hb : b ≤ 5) (lf : Nat → Nat → ℝ) {f : Nat → Nat → ℝ}
    (hf : ∀ m n, f m n = if m < 2 ^ a ∧ n < 2 ^ b then fdct2 (2 ^ a) (2 ^ b) lf m n * (lowScale (m * 2 ^ (5 - a)) * lowScale (n * 2 ^ (5 - b))) else 0)
    {j i : Nat} (hj : j < 2 ^ a) (hi : i < 2 ^ b) :
    ∑ y ∈ range 8, ∑ x ∈ range 8, idct2 (8 * 2 ^ a) (8 * 2 ^ b) f (8 * j + y) (8 * i + x) = 64 * lf j i := by
  have e : ∀ y x, idct2 (8 * 2 ^ a) (8 * 2 ^ b) f y x = ∑ m ∈ range (2 ^ a), ∑ n ∈ range (2 ^ b), f m n * basis (8 * 2 ^ a) m y * basis (8 * 2 ^ b) n x := by
    intro y x
    unfold idct2
    rw [← sum_subset (s₁ := range (2 ^ a)) (range_subset_range.2 (by omega))]
    · refine sum_congr rfl fun m _ => ?_
      rw [← sum_subset (s₁ := range (2 ^ b)) (range_subset_range.2 (by omega))]
      intro n _ hn
      rw [hf, if_neg (fun h => hn (mem_range.2 h.2)), zero_mul, zero_mul]
    · intro m _ hm
      refine sum_eq_zero fun n _ => ?_
      rw [hf, if_neg (fun h => hm (mem_range.2 h.1)), zero_mul, zero_mul]
  rw [sum_congr rfl fun y _ => sum_congr rfl fun x _ => e _ _]
  have e2 : ∑ y ∈ range 8, ∑ x ∈ range 8, ∑ m ∈ range (2 ^ a), ∑ n ∈ range (2 ^ b), f m n * basis (8 * 2 ^ a) m (8 * j + y) * basis (8 * 2 ^ b) n (8 * i + x) =
      ∑ m ∈ range (2 ^ a), ∑ n ∈ range (2 ^ b), f m n * (∑ y ∈ range 8, basis (8 * 2 ^ a) m (8 * j + y)) * (∑ x ∈ range 8, basis (8 * 2 ^ b) n (8 * i + x)) := by
    rw [sum_congr rfl fun y _ => sum_comm, sum_comm]
    refine sum_congr rfl fun m _ => ?_
    rw [sum_congr rfl fun y _ => sum_comm, sum_comm]
    refine sum_congr rfl fun n _ => ?_
    rw [mul_sum, sum_comm]
    refine sum_congr rfl fun y _ => ?_
    rw [mul_sum, sum_mul]
  rw [e2, ← idct2_fdct2 lf hj hi]
  unfold idct2
  rw [mul_sum]
  refine sum_congr rfl fun m hm => ?_
  rw [mul_sum]
  refine sum_congr rfl fun n hn => ?_
  rw [mean_basis (by positivity), mean_basis (by positivity), hf, if_pos ⟨mem_range.1 hm, mem_range.1 hn⟩]
  have l1 := lowScale_mul ha (mem_range.1 hm)
  have l2 := lowScale_mul hb (mem_range.1 hn)
  revert l1 l2
  generalize (Real.cos (Real.pi * m / (16 * (2 ^ a : Nat))) * Real.cos (2 * (Real.pi * m / (16 * (2 ^ a : Nat)))) * Real.cos (4 * (Real.pi * m / (16 * (2 ^ a : Nat))))) = A
  generalize (Real.cos (Real.pi * n / (16 * (2 ^ b : Nat))) * Real.cos (2 * (Real.pi * n / (16 * (2 ^ b : Nat)))) * Real.cos (4 * (Real.pi * n / (16 * (2 ^ b : Nat))))) = C
  intro l1 l2
  calc fdct2 (2 ^ a) (2 ^ b) lf m n * (lowScale (m * 2 ^ (5 - a)) * lowScale (n * 2 ^ (5 - b))) * (8 * basis (2 ^ a) m j * A) * (8 * basis (2 ^ b) n i * C)
      = 64 * (fdct2 (2 ^ a) (2 ^ b) lf m n * basis (2 ^ a) m j * basis (2 ^ b) n i) * (lowScale (m * 2 ^ (5 - a)) * A) * (lowScale (n * 2 ^ (5 - b)) * C) := by ring
    _ = _ := by rw [l1, l2]; ring

end Jxl
