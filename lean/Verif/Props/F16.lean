import Verif.Model.F16
import Verif.Spec.F16
import Verif.Proofs.Ints
import Mathlib.Tactic.Ring
import Mathlib.Tactic.FieldSimp
import Mathlib.Tactic.NormNum
/-!
# Property C08: half-precision floats
-/
namespace Jxl
open Spec

theorem f16_total (s e m : Nat) (hs : s < 2) (he : e < 256) (hm : m < 1024) :
    u32 (u64 (s <<< 31)) ||| u32 (e <<< 23) ||| u32 (u64 (m <<< 13)) = s * 2 ^ 31 + e * 2 ^ 23 + m * 2 ^ 13 := by
  have h1 : u32 (u64 (s <<< 31)) = s <<< 31 := by simp only [u32, u64, Nat.shiftLeft_eq]; omega
  have h2 : u32 (e <<< 23) = e <<< 23 := by simp only [u32, Nat.shiftLeft_eq]; omega
  have h3 : u32 (u64 (m <<< 13)) = m <<< 13 := by simp only [u32, u64, Nat.shiftLeft_eq]; omega
  rw [h1, h2, h3]
  have e1 : s <<< 31 ||| e <<< 23 = (s * 2 ^ 8 + e) <<< 23 := by
    rw [← Nat.shiftLeft_add_eq_or_of_lt (by rw [Nat.shiftLeft_eq]; omega)]
    simp only [Nat.shiftLeft_eq]; omega
  rw [e1, ← Nat.shiftLeft_add_eq_or_of_lt (by rw [Nat.shiftLeft_eq]; omega)]
  simp only [Nat.shiftLeft_eq]; omega

/-- C08. `ReadF16` returns exactly the number denoted by the 16-bit pattern, for every finite pattern, and an error for
every infinity and NaN (and at the end of the input). -/
theorem C08_readF16 : Implements readF16 decF16 := by
  unfold readF16 decF16
  refine Implements.bind' (fun v => v < 2 ^ 16) (implements_bits 16 (by decide)) (fun _ _ _ h => decBits_lt h) ?_
  intro b hb
  have hm : b &&& 0x3FF = b % 1024 := by
    rw [show (0x3FF : Nat) = 2 ^ 10 - 1 by decide, Nat.and_two_pow_sub_one_eq_mod]
  have hu : u32 b = b := by simp only [u32]; omega
  have he : (u32 b >>> 10) &&& 0x1F = b / 2 ^ 10 % 32 := by
    rw [hu, show (0x1F : Nat) = 2 ^ 5 - 1 by decide, Nat.and_two_pow_sub_one_eq_mod, Nat.shiftRight_eq_div_pow]
  have hs : (b >>> 15) &&& 1 = b / 2 ^ 15 % 2 := by
    rw [Nat.and_one_is_mod, Nat.shiftRight_eq_div_pow]
  simp only [hm, he, hs]
  refine Implements.ite (fun _ => Implements.fail) (fun h31 => ?_)
  generalize hE : b / 2 ^ 10 % 32 = e at *
  generalize hM : b % 1024 = m at *
  generalize hS : b / 2 ^ 15 % 2 = s at *
  have hE' : e < 32 := by omega
  have hM' : m < 1024 := by omega
  have hS' : s < 2 := by omega
  have hval : halfValue b = (if e = 0 then (if s = 1 then -1 else 1) * ((m : ℚ) / 2 ^ 24) else
      (if s = 1 then -1 else 1) * (1 + (m : ℚ) / 2 ^ 10) * (2 : ℚ) ^ ((e : ℤ) - 15)) := by
    unfold halfValue
    simp only [hE, hS, show b % 2 ^ 10 = m from hM]
  by_cases h0 : e = 0
  · simp only [h0, if_true]
    rw [hval]
    simp only [h0, if_true]
    have : (1 - 2 * (s : ℚ)) * m / 16777216 = (if s = 1 then -1 else 1) * ((m : ℚ) / 2 ^ 24) := by
      have : s = 0 ∨ s = 1 := by omega
      rcases this with rfl | rfl <;> norm_num
      ring
    rw [this]; exact Implements.pure _
  · simp only [h0, if_false]
    have hu2 : u32 (e + (127 - 15)) = e + 112 := by simp only [u32]; omega
    rw [hu2, f16_total s (e + 112) m hS' (by omega) hM']
    have : f32Value (s * 2 ^ 31 + (e + 112) * 2 ^ 23 + m * 2 ^ 13) = halfValue b := by
      rw [hval]
      unfold f32Value
      have e1 : (s * 2 ^ 31 + (e + 112) * 2 ^ 23 + m * 2 ^ 13) / 2 ^ 31 % 2 = s := by omega
      have e2 : (s * 2 ^ 31 + (e + 112) * 2 ^ 23 + m * 2 ^ 13) / 2 ^ 23 % 256 = e + 112 := by omega
      have e3 : (s * 2 ^ 31 + (e + 112) * 2 ^ 23 + m * 2 ^ 13) % 2 ^ 23 = m * 2 ^ 13 := by omega
      simp only [e1, e2, e3, h0, if_false, show ¬ (e + 112 = 0) by omega]
      have x1 : (((m * 2 ^ 13 : Nat) : ℚ)) / 2 ^ 23 = (m : ℚ) / 2 ^ 10 := by
        push_cast; ring
      have x2 : (((e + 112 : Nat) : ℤ)) - 127 = (e : ℤ) - 15 := by push_cast; ring
      rw [x1, x2]
    rw [this]; exact Implements.pure _

/-- Non-vacuity: `0x3C00` denotes 1, `0x0001` denotes 2^-24, `0x7C00` (infinity) is rejected. -/
example : halfValue 0x3C00 = 1 ∧ halfValue 1 = 1 / 2 ^ 24 ∧ decF16 (bitsOf 16 0x7C00) = none := by
  refine ⟨by norm_num [halfValue], by norm_num [halfValue], rfl⟩

/-- C08. Finite patterns are accepted: a pattern is rejected only for exponent 31. -/
theorem C08_total (b : Nat) (hb : b < 2 ^ 16) (h : b / 2 ^ 10 % 32 ≠ 31) :
    Reads readF16 (bitsOf 16 b) (halfValue b) := by
  refine C08_readF16.reads fun r => ?_
  unfold decF16
  rw [Dec.bind_eq, decBits_append 16 b hb]
  simp only [h, if_false, Dec.pure_eq]

example : (0xC200 : Nat) < 2 ^ 16 ∧ (0xC200 : Nat) / 2 ^ 10 % 32 ≠ 31 := by decide

end Jxl
