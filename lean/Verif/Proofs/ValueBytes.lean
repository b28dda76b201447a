import Verif.Proofs.Samples
import Verif.Spec.Blend

/-!
# The byte that shows a value between 0 and 1
-/
namespace Jxl
open Spec

/-- The rounding error of a number of moderate size. -/
theorem F32.near_moderate {x : ℚ} (h : |x| ≤ 512) : |F32.near x - x| ≤ 1 / 10000 := by
  by_cases hs : (2 : ℚ) ^ (-126 : ℤ) ≤ |x|
  · have := F32.near_rel x hs
    linarith
  · have := F32.near_tiny hs
    linarith

/-- A value between 0 and 1 becomes the nearest byte, up to the error of `float32` arithmetic. -/
theorem byte_of_float (I : FloatImpl) {q : ℚ} (h0 : 0 ≤ q) (h1 : q ≤ 1) : |(sampleToInt I 255 (.fin q) : ℚ) - 255 * q| ≤ 1 / 2 + 1 / 1000 := by
  have hof : F32.ofInt 255 = .fin 255 := by
    unfold F32.ofInt
    rw [F32.round_int 255 (by norm_num)]
    norm_num
  obtain ⟨r, e, hr⟩ : ∃ r, I.mulAdd (.fin q) (F32.ofInt 255) (.fin (1 / 2)) = .fin r ∧ |r - (255 * q + 1 / 2)| ≤ 1 / 1000 := by
    have hb : ∀ x : ℚ, |x| ≤ 512 → F32.round x = .fin (F32.near x) := fun x hx => F32.round_fin x (hx.trans (by norm_num))
    have a1 : |q * 255| ≤ 512 := by rw [abs_of_nonneg (by linarith)]; linarith
    have n1 := F32.near_moderate a1
    rw [abs_le] at n1
    unfold FloatImpl.mulAdd
    rw [hof]
    by_cases hI : I.fused
    · rw [if_pos hI]
      have a2 : |q * 255 + 1 / 2| ≤ 512 := by rw [abs_of_nonneg (by linarith)]; linarith
      refine ⟨_, hb _ a2, ?_⟩
      have n2 := F32.near_moderate a2
      rw [abs_le] at n2 ⊢
      constructor <;> linarith [n2.1, n2.2]
    · rw [if_neg hI]
      have a2 : |F32.near (q * 255) + 1 / 2| ≤ 512 := by
        rw [abs_le]
        constructor <;> linarith [n1.1, n1.2]
      refine ⟨F32.near (F32.near (q * 255) + 1 / 2), ?_, ?_⟩
      · show F32.add (F32.round (q * 255)) _ = _
        rw [hb _ a1]
        exact hb _ a2
      · have n2 := F32.near_moderate a2
        rw [abs_le] at n2 ⊢
        constructor <;> linarith [n1.1, n1.2, n2.1, n2.2]
  rw [abs_le] at hr
  rw [sampleToInt_fin I 255 _ r e (by linarith [hr.1]) (by linarith [hr.2])]
  have f1 := Int.floor_le r
  have f2 := Int.lt_floor_add_one r
  split_ifs with hc
  · have : ((255 + 1 : ℤ) : ℚ) ≤ ⌊r⌋ := by exact_mod_cast hc
    push_cast at this
    rw [abs_le]
    push_cast
    constructor <;> linarith [hr.1, hr.2]
  · rw [abs_le]
    constructor <;> linarith [hr.1, hr.2]

/-- An integer sample that stands for a value between 0 and 1 is a byte near 255 times the value. -/
theorem byte_of_int {v : Int} {q : ℚ} (h : unit 8 v = .fin q) (h0 : 0 ≤ q) (h1 : q ≤ 1) : 0 ≤ v ∧ v < 256 ∧ |(v : ℚ) - 255 * q| ≤ 1 / 1000 := by
  have hof : F32.ofInt (2 ^ 8 - 1) = .fin 255 := by
    unfold F32.ofInt
    rw [F32.round_int _ (by norm_num)]
    norm_num
  have hdiv : F32.div (.fin 1) (.fin 255) = .fin (F32.near (1 / 255)) := by
    unfold F32.div
    dsimp only
    rw [if_neg (by norm_num), F32.round_fin _ (by rw [abs_of_pos (by norm_num)]; norm_num)]
  have hc := F32.near_bounds (x := 1 / 255) (by norm_num)
  have hround : ∀ {x y : ℚ}, F32.round x = .fin y → y = F32.near x := by
    intro x y hxy
    unfold F32.round at hxy
    split at hxy
    · cases hxy
    · exact (F32.fin.inj hxy).symm
  unfold unit at h
  rw [hof, hdiv] at h
  obtain ⟨a, ha⟩ : ∃ a, F32.ofInt v = .fin a := by
    unfold F32.ofInt F32.round at h ⊢
    split
    · rename_i hb
      rw [if_pos hb] at h
      exfalso
      have : F32.mul (.inf (decide ((v : ℚ) < 0))) (.fin (F32.near (1 / 255))) = if F32.near (1 / 255) = 0 then .nan else .inf (decide ((v : ℚ) < 0) != decide (F32.near (1 / 255) < 0)) := rfl
      rw [this] at h
      split at h <;> cases h
    · exact ⟨_, rfl⟩
  rw [ha] at h
  have hav : a = F32.near (v : ℚ) := hround ha
  have hq : q = F32.near (a * F32.near (1 / 255)) := hround h
  generalize F32.near (1 / 255) = c at hc hq
  rcases lt_trichotomy v 0 with hneg | hz | hpos
  · exfalso
    have hv : (v : ℚ) ≤ -1 := by exact_mod_cast (by omega : v ≤ -1)
    have r1 := F32.near_rel (v : ℚ) (by rw [abs_of_neg (by linarith)]; exact (F32.tiny_le (x := -(v : ℚ)) (by linarith)))
    rw [← hav, abs_of_neg (show (v : ℚ) < 0 by linarith), abs_le] at r1
    have hac : a * c ≤ -(1 / 1000) := by nlinarith [r1.1, r1.2, hc.1, hc.2]
    have r2 := F32.near_rel (a * c) (by rw [abs_of_neg (by linarith)]; exact (F32.tiny_le (x := -(a * c)) (by linarith)))
    rw [← hq, abs_of_neg (show a * c < 0 by linarith), abs_le] at r2
    linarith [r2.2]
  · subst hz
    have e0 : a = 0 := by rw [hav]; simpa using F32.near_zero
    rw [e0, zero_mul, F32.near_zero] at hq
    subst hq
    refine ⟨le_refl _, by norm_num, ?_⟩
    norm_num
  · have hv : (1 : ℚ) ≤ v := by exact_mod_cast (by omega : 1 ≤ v)
    have r1 := F32.near_bounds (x := (v : ℚ)) (F32.tiny_le (by linarith))
    rw [← hav] at r1
    have hac : (1 : ℚ) / 1000 ≤ a * c := by nlinarith [r1.1, r1.2, hc.1, hc.2]
    have r2 := F32.near_bounds (x := a * c) (F32.tiny_le (by linarith))
    rw [← hq] at r2
    have hac1 : a * c ≤ 1 + 1 / 8000000 := by linarith [r2.1]
    have u1 : (v : ℚ) ≤ a + a / 16000000 := by linarith [r1.1]
    have u2 : a ≤ a * c * 255 + a * c / 60000 := by
      have ha0 : 0 ≤ a := by linarith
      have : 1 ≤ c * 255 + c / 60000 := by linarith [hc.1]
      nlinarith
    have l2 : a * c * 255 ≤ a + a / 16777216 := by
      have ha0 : 0 ≤ a := by linarith
      have : c * 255 ≤ 1 + 1 / 16777216 := by linarith [hc.2]
      nlinarith
    have hlt : (v : ℚ) < 256 := by linarith
    have hlt' : v < 256 := by exact_mod_cast hlt
    refine ⟨by omega, hlt', ?_⟩
    rw [abs_le]
    constructor <;> linarith [r1.1, r1.2, r2.1, r2.2]

end Jxl
