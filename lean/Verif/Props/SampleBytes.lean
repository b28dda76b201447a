import Verif.Props.Samples
import Verif.Props.Binary32
import Verif.Spec.VarDCTFile

/-! # C36: floats become the nearest integers -/
namespace Jxl

/-- Scaling and adding a half, for all samples from zero on. -/
theorem mulAdd_half_any (I : FloatImpl) (p m : ℚ) (h0 : 0 ≤ p * m) (h1 : p * m ≤ 4294967296) :
    ∃ r, I.mulAdd (.fin p) (.fin m) (.fin (1 / 2)) = .fin r ∧ |r - (p * m + 1 / 2)| ≤ (p * m) * 3 / 16777216 + 2 / 16777216 := by
  by_cases ht : p * m = 0 ∨ 1 / 1000000000 ≤ p * m
  · obtain ⟨r, e, hr⟩ := mulAdd_half I p m h0 h1 ht
    exact ⟨r, e, by linarith⟩
  · push Not at ht
    have hlt := ht.2
    have hb : |p * m| ≤ (2 : ℚ) ^ 100 := by rw [abs_of_nonneg h0]; norm_num; linarith
    unfold FloatImpl.mulAdd
    by_cases hI : I.fused
    · rw [if_pos hI]
      have e : F32.fma (.fin p) (.fin m) (.fin (1 / 2)) = F32.round (p * m + 1 / 2) := rfl
      rw [e, F32.round_fin _ (by rw [abs_of_nonneg (by linarith)]; norm_num; linarith)]
      refine ⟨_, rfl, ?_⟩
      have := F32.near_bounds (x := p * m + 1 / 2) (F32.tiny_le (by linarith))
      rw [abs_le]
      constructor <;> linarith [this.1, this.2]
    · rw [if_neg hI]
      have e : F32.mul (.fin p) (.fin m) = F32.round (p * m) := rfl
      rw [e, F32.round_fin _ hb]
      have e2 : F32.add (.fin (F32.near (p * m))) (.fin (1 / 2)) = F32.round (F32.near (p * m) + 1 / 2) := rfl
      rw [e2]
      have hq := F32.near_multiple (p * m) 0
      rw [Int.cast_zero, zero_mul, sub_zero, abs_of_nonneg h0, abs_le] at hq
      generalize F32.near (p * m) = q at hq
      generalize p * m = t at *
      rw [F32.round_fin _ (by rw [abs_of_nonneg (by linarith [hq.2])]; norm_num; linarith [hq.1])]
      refine ⟨_, rfl, ?_⟩
      have := F32.near_bounds (x := q + 1 / 2) (F32.tiny_le (by linarith [hq.2]))
      rw [abs_le]
      constructor <;> linarith [this.1, this.2, hq.1, hq.2]

/-- C36: a float from 0 to 1 becomes the nearest multiple of `1/m`, up to an error of `(3m+2)/2^24`. Together with `C36_saturates_partial` this says which integer a finite sample becomes. Holds with and
without fused multiply-add. -/
theorem C36_float_nearest (I : FloatImpl) (m : ℤ) (q : ℚ) (h1 : 1 ≤ m) (hm : m < 2 ^ 20) (h0 : 0 ≤ q) (hq : q ≤ 1) :
    |(sampleToInt I m (.fin q) : ℚ) - q * m| ≤ 1 / 2 + (3 * m + 2) / 2 ^ 24 := by
  have hmq : (1 : ℚ) ≤ m := by exact_mod_cast h1
  have hm2 : (m : ℚ) ≤ 1048576 := by exact_mod_cast (by omega : m ≤ 1048576)
  have hof : F32.ofInt m = .fin m := by rw [F32.ofInt, F32.round_int m (by rw [abs_of_pos (by omega)]; omega)]
  have ht0 : 0 ≤ q * m := by nlinarith
  have ht1 : q * m ≤ m := by nlinarith
  obtain ⟨r, e, hr⟩ := mulAdd_half_any I q m ht0 (by linarith)
  rw [abs_le] at hr
  have hr0 : 0 ≤ r := by linarith [hr.1]
  rw [sampleToInt_fin I m _ r (by rw [hof]; exact e) hr0 (by linarith [hr.2])]
  have f1 := Int.floor_le r
  have f2 := Int.lt_floor_add_one r
  generalize q * (m : ℚ) = t at *
  norm_num
  split_ifs with hc
  · have : ((m + 1 : ℤ) : ℚ) ≤ ⌊r⌋ := by exact_mod_cast hc
    push_cast at this
    rw [abs_le]
    constructor <;> linarith [hr.1, hr.2]
  · rw [abs_le]
    constructor <;> linarith [hr.1, hr.2]

/-- The hypotheses are met: a third becomes 85, with and without fused multiply-add. -/
example (fused : Bool) : sampleToInt ⟨fused, fun _ => 0⟩ 255 (.fin (1 / 3)) = 85 ∧ |((85 : ℤ) : ℚ) - 1 / 3 * (255 : ℤ)| ≤ 1 / 2 + (3 * (255 : ℤ) + 2) / 2 ^ 24 := by
  cases fused <;> decide +kernel

example (I : FloatImpl) : |(sampleToInt I 255 (.fin (1 / 1000000000000)) : ℚ) - 1 / 1000000000000 * (255 : ℤ)| ≤ 1 / 2 + (3 * (255 : ℤ) + 2) / 2 ^ 24 :=
  C36_float_nearest I 255 _ (by decide) (by decide) (by norm_num) (by norm_num)

/-- C94, the bytes in `C94_pixels_partial` and the like: a sample whose value behind the curve is from 0 to 1 becomes the nearest of the 256 levels, up to an error of one in 2^14; darker ones become 0
and brighter ones 255, if the scaled value fits into an `int32`. -/
theorem C94_bytes (I : FloatImpl) {h : ImageHeader} {f : F32 → F32} {v : Nat → Nat → F32} {m : List (List Nat)} (hs : PlaneShowsFloats I h f v m) :
    ∃ rs cs, exif h.orientation = some (rs, cs) ∧ ∀ y x q, y < h.size.height → x < h.size.width → f (v y x) = .fin q →
      ∃ o, sample m (shown rs cs h.size.height h.size.width y x).1 (shown rs cs h.size.height h.size.width y x).2 = some o ∧
        (0 ≤ q → q ≤ 1 → |(o : ℚ) - 255 * q| ≤ 1 / 2 + 1 / 2 ^ 14) ∧ (1 ≤ q → q ≤ 2 ^ 22 → o = 255) ∧ (q ≤ 0 → -2 ^ 22 ≤ q → o = 0) := by
  obtain ⟨rs, cs, hex, hp⟩ := hs
  refine ⟨rs, cs, hex, fun y x q hy hx hq => ?_⟩
  obtain ⟨o, e, ho⟩ := hp y x hy hx
  rw [hq] at ho
  have hsat := C36_saturates_partial I 255 q (by decide) (by decide)
  refine ⟨o, e, fun h0 h1 => ?_, fun h1 h2 => ?_, fun h1 h2 => ?_⟩
  · have := C36_float_nearest I 255 q (by decide) (by decide) h0 h1
    rw [← ho] at this
    push_cast at this
    rw [mul_comm 255 q]
    refine this.trans ?_
    norm_num
  · have := hsat.1 h1 (by push_cast; norm_num at h2 ⊢; linarith)
    omega
  · have := hsat.2 h1 (by push_cast; norm_num at h2 ⊢; linarith)
    omega

/-- The hypothesis is met: a plane with one sample of a third. -/
example (fused : Bool) (h : ImageHeader) (ho : h.orientation = 1) (hs : h.size = ⟨1, 1⟩) : PlaneShowsFloats ⟨fused, fun _ => 0⟩ h id (fun _ _ => .fin (1 / 3)) [[85]] := by
  refine ⟨_, _, by rw [ho]; rfl, fun y x hy hx => ?_⟩
  rw [hs] at hy hx ⊢
  have e1 : y = 0 := by dsimp only at hy; omega
  have e2 : x = 0 := by dsimp only at hx; omega
  subst e1 e2
  refine ⟨85, rfl, ?_⟩
  cases fused <;> decide +kernel

end Jxl
