import Verif.Props.Dequant
import Verif.Proofs.F32

/-!
# C69: the factors of the channels

The X and B channels have factors `0.8 ^ (scale - 2)`, where `scale` is 0 to 7. The code subtracts in unsigned numbers: for 0 and 1 the factor becomes 0.
-/
namespace Jxl

/-- The factor of a channel of the format. -/
def Spec.channelScale (globalScale : Int) (qm : Nat) : ℚ := 65536 / (globalScale : ℚ) * (4 / 5 : ℚ) ^ ((qm : ℤ) - 2)

/-- **C69**: for scales from 2 on the factors are the ones of the format. -/
theorem C69_scale_partial (globalScale : Int) (xqm bqm : Nat) (hx : 2 ≤ xqm) (hx' : xqm < 2 ^ 32) (hb : 2 ≤ bqm) (hb' : bqm < 2 ^ 32) :
    scaleFactors (fun e => (4 / 5 : ℚ) ^ e) globalScale xqm bqm = [Spec.channelScale globalScale xqm, Spec.channelScale globalScale 2, Spec.channelScale globalScale bqm] := by
  have key : ∀ q : Nat, 2 ≤ q → q < 2 ^ 32 → (4 / 5 : ℚ) ^ ((q + 2 ^ 32 - 2) % 2 ^ 32) = (4 / 5 : ℚ) ^ ((q : ℤ) - 2) := by
    intro q h1 h2
    rw [show (q + 2 ^ 32 - 2) % 2 ^ 32 = q - 2 by omega, ← zpow_natCast]
    congr 1
    omega
  unfold scaleFactors
  dsimp only
  rw [key xqm hx hx', key bqm hb hb']
  unfold Spec.channelScale
  have h0 : (4 / 5 : ℚ) ^ (((2 : Nat) : ℤ) - 2) = 1 := by norm_num
  rw [h0, mul_one]
  rfl

example : Spec.channelScale 65536 3 = 4 / 5 ∧ Spec.channelScale 65536 0 = 25 / 16 := by
  constructor <;> norm_num [Spec.channelScale]

theorem near_underflow {x : ℚ} (h0 : 0 < x) (h : x < (2 : ℚ) ^ (-150 : ℤ)) : F32.near x = 0 := by
  have hl : Int.log 2 |x| < -126 := by
    rw [abs_of_pos h0]
    have : Int.log 2 x < -150 := (Int.lt_zpow_iff_log_lt (by norm_num) h0).1 (by exact_mod_cast h)
    omega
  have hu : F32.ulpExp x = -149 := by unfold F32.ulpExp; omega
  unfold F32.near
  rw [hu]
  have hd : x / (2 : ℚ) ^ (-149 : ℤ) < 1 / 2 := by
    rw [div_lt_iff₀ (by positivity)]
    calc x < (2 : ℚ) ^ (-150 : ℤ) := h
      _ = 1 / 2 * (2 : ℚ) ^ (-149 : ℤ) := by norm_num
  have hp : 0 < x / (2 : ℚ) ^ (-149 : ℤ) := by positivity
  have hf : ⌊x / (2 : ℚ) ^ (-149 : ℤ)⌋ = 0 := by
    rw [Int.floor_eq_zero_iff]
    exact ⟨le_of_lt hp, by linarith⟩
  have hr : roundEven (x / (2 : ℚ) ^ (-149 : ℤ)) = 0 := by
    unfold roundEven
    rw [hf]
    dsimp only
    rw [if_pos (by push_cast; linarith)]
  rw [hr]
  simp

theorem pow_underflow {e : Nat} (h : 510 ≤ e) : F32.round ((4 / 5 : ℚ) ^ e) = .fin 0 := by
  have h1 : (4 / 5 : ℚ) ^ e ≤ (4 / 5 : ℚ) ^ (10 * 51) := pow_le_pow_of_le_one (by norm_num) (by norm_num) h
  have h2 : (4 / 5 : ℚ) ^ (10 * 51) < (2 : ℚ) ^ (-150 : ℤ) := by
    rw [pow_mul]
    have h5 : ((4 / 5 : ℚ) ^ 10) ^ 51 ≤ (1 / 8 : ℚ) ^ 51 := pow_le_pow_left₀ (by norm_num) (by norm_num) 51
    exact lt_of_le_of_lt h5 (by norm_num)
  have h3 : (0 : ℚ) < (4 / 5 : ℚ) ^ e := by positivity
  have h4 : |(4 / 5 : ℚ) ^ e| ≤ (2 : ℚ) ^ 100 := by
    rw [abs_of_pos h3]
    have : (4 / 5 : ℚ) ^ e ≤ 1 := pow_le_one₀ (by norm_num) (by norm_num)
    exact this.trans (by norm_num)
  rw [F32.round_fin _ h4, near_underflow h3 (lt_of_le_of_lt h1 h2)]

/-- C69 does not hold for scales 0 and 1: for every global scale the factor of the channel is 0, so that all of its high frequencies are lost. In the format the factors are
25/16 and 5/4 times the one of luma. -/
theorem C69_scale_fails (globalScale : Int) (h0 : 0 < globalScale) (h1 : globalScale < 16777216) (xqm bqm : Nat) (hx : xqm < 2) :
    (scaleFactors (fun e => F32.round ((4 / 5 : ℚ) ^ e)) globalScale xqm bqm)[0]? = some (.fin 0) ∧ (scaleFactors (fun e => F32.round ((4 / 5 : ℚ) ^ e)) globalScale bqm xqm)[2]? = some (.fin 0) ∧
      0 < Spec.channelScale globalScale xqm := by
  have hp : F32.round ((4 / 5 : ℚ) ^ ((xqm + 2 ^ 32 - 2) % 2 ^ 32)) = .fin 0 := pow_underflow (by omega)
  have hq : (0 : ℚ) < (globalScale : ℚ) := by exact_mod_cast h0
  have hq1 : (1 : ℚ) ≤ (globalScale : ℚ) := by exact_mod_cast h0
  have hg : ∃ v, (Arith.lit 65536 / Arith.lit (globalScale : ℚ) : F32) = .fin v := by
    have e1 : F32.round (65536 : ℚ) = .fin 65536 := by
      have := F32.round_int 65536 (by norm_num)
      simpa using this
    have e2 := F32.round_int globalScale (by rw [abs_of_pos h0]; exact h1)
    refine ⟨F32.near (65536 / (globalScale : ℚ)), ?_⟩
    show F32.div (F32.round 65536) (F32.round (globalScale : ℚ)) = _
    rw [e1, e2]
    unfold F32.div
    dsimp only
    rw [if_neg (ne_of_gt hq), F32.round_fin]
    rw [abs_of_pos (by positivity)]
    rw [div_le_iff₀ hq]
    nlinarith
  obtain ⟨v, hv⟩ := hg
  have hm : F32.mul (.fin v) (.fin 0) = .fin 0 := by
    unfold F32.mul
    dsimp only
    rw [mul_zero]
    have := F32.round_int 0 (by norm_num)
    simpa using this
  refine ⟨?_, ?_, ?_⟩
  · unfold scaleFactors
    dsimp only
    rw [hv, hp]
    exact congrArg some hm
  · unfold scaleFactors
    dsimp only
    rw [hv, hp]
    exact congrArg some hm
  · unfold Spec.channelScale
    positivity

end Jxl
