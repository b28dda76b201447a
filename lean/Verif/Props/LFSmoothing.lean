import Verif.Props.LFCoefficients

/-!
# C72: adaptive smoothing of the low frequencies
-/
namespace Jxl

section
variable {α : Type} [Arith α]

/-- C72, for every arithmetic: the LF samples of a group with smoothing are what smoothing makes of the samples of C71; the theorems below say what that is. -/
theorem C72_stream_partial (I : Spec.LFGroup α) (p : LFParams α) (hup : p.ups = [(0, 0), (0, 0), (0, 0)]) (hh : 0 < p.height) (hst : ∀ c, c < 3 → p.steps[c]? = some (I.step c))
    (hx : 128 ≤ p.xFactorLF ∧ p.xFactorLF < 256) (hb : 128 ≤ p.bFactorLF ∧ p.bFactorLF < 256) (hkX : I.kX = Spec.lfLuma p.baseX p.xFactorLF p.colorFactor)
    (hkB : I.kB = Spec.lfLuma p.baseB p.bFactorLF p.colorFactor) (hsk : p.skipSmoothing = false) (hlf : p.useLFFrame = false) (lfBuffer : List (List (List α)))
    (decode : Rd (List (List (List Int)))) (s s1 s2 : BR) (lfQuant : List (List (List Int)))
    (hr : readBits 2 s = (.ok I.extra, s1)) (hd : decode s1 = (.ok lfQuant, s2)) (hq : Spec.Planes (fun _ => p.height) (fun _ => p.width) (fun k => I.q (Spec.lfChannel k)) lfQuant) :
    ∃ before planes, Spec.Planes (fun _ => p.height) (fun _ => p.width) I.sample before ∧ adaptiveSmooth before p.steps = .ok planes ∧
      newLFCoefficients p lfBuffer decode s = (.ok (planes, lfQuant), s2) := by
  obtain ⟨planes, e, h⟩ := unsmoothed_ok I p (fun _ => (0, 0)) hup hst hx hb hkX hkB (fun _ => ⟨rfl, rfl, rfl⟩) lfBuffer (fun _ => 0) (fun _ => 0) (fun _ _ _ => Arith.lit 0)
    (fun h => by rw [hlf] at h; cases h) decode s s1 s2 lfQuant hr hd (by simpa using hq)
  rw [if_pos ⟨rfl, rfl, rfl⟩] at h
  simp only [pow_zero, Nat.div_one] at h
  obtain ⟨ps, e2, h2⟩ := adaptiveSmooth_ok hh h hst
  refine ⟨planes, ps, holds3_iff.2 h, e2, ?_⟩
  rw [e, if_pos (by rw [hsk, hlf]; rfl), e2]
  rfl

/-- C72, for every arithmetic: smoothing succeeds, keeps the size and does not change samples of the first and the last row and column. -/
theorem C72_borders (h w : Nat) (hh : 0 < h) (f : Nat → Nat → Nat → α) (step : Nat → α) (planes : List (List (List α))) (steps : List α)
    (hp : Spec.Planes (fun _ => h) (fun _ => w) f planes) (hst : ∀ c, c < 3 → steps[c]? = some (step c)) :
    ∃ g planes', adaptiveSmooth planes steps = .ok planes' ∧ Spec.Planes (fun _ => h) (fun _ => w) g planes' ∧
      ∀ c y x, (y = 0 ∨ y + 1 = h ∨ x = 0 ∨ x + 1 = w) → g c y x = f c y x := by
  obtain ⟨ps, e, h2⟩ := adaptiveSmooth_ok hh (holds3_iff.1 hp) hst
  refine ⟨_, ps, e, holds3_iff.2 h2, fun c y x hb => if_neg ?_⟩
  unfold Spec.inner
  omega

end

/-! ## With exact arithmetic -/

/-- C72: a smoothed sample lies in the range of the sample and its eight neighbours: smoothing adds no new extremes and leaves flat areas as they are. -/
theorem C72_range (h w : Nat) (hh : 0 < h) (f : Nat → Nat → Nat → ℚ) (step : Nat → ℚ) (planes : List (List (List ℚ))) (steps : List ℚ)
    (hp : Spec.Planes (fun _ => h) (fun _ => w) f planes) (hst : ∀ c, c < 3 → steps[c]? = some (step c)) :
    ∃ g planes', adaptiveSmooth planes steps = .ok planes' ∧ Spec.Planes (fun _ => h) (fun _ => w) g planes' ∧
      ∀ c y x lo hi, (∀ j k, (j = y - 1 ∨ j = y ∨ j = y + 1) → (k = x - 1 ∨ k = x ∨ k = x + 1) → lo ≤ f c j k ∧ f c j k ≤ hi) → lo ≤ g c y x ∧ g c y x ≤ hi := by
  obtain ⟨ps, e, h2⟩ := adaptiveSmooth_ok hh (holds3_iff.1 hp) hst
  refine ⟨_, ps, e, holds3_iff.2 h2, fun c y x lo hi hn => ?_⟩
  have hf := hn y x (Or.inr (Or.inl rfl)) (Or.inr (Or.inl rfl))
  have hm := lfMean_between hn
  unfold codeSmoothed
  by_cases hi' : Spec.inner h w y x
  · rw [if_pos hi', lfStrength_eq]
    have hg := (codeGap_ge f step y x).1
    generalize Spec.lfMean (f c) y x = m at hm
    generalize codeGap f step y x = g at hg
    have s0 : (0 : ℚ) ≤ max 0 (3 - 4 * g) := le_max_left _ _
    have s1 : max (0 : ℚ) (3 - 4 * g) ≤ 1 := max_le (by norm_num) (by linarith)
    generalize max (0 : ℚ) (3 - 4 * g) = t at s0 s1
    constructor
    · nlinarith [mul_nonneg s0 (sub_nonneg.2 hf.1), mul_nonneg (sub_nonneg.2 s1) (sub_nonneg.2 hm.1)]
    · nlinarith [mul_nonneg s0 (sub_nonneg.2 hf.2), mul_nonneg (sub_nonneg.2 s1) (sub_nonneg.2 hm.2)]
  · rw [if_neg hi']
    exact hf

/-- The smoothing of the format keeps the promise of C72: it moves a sample by half a quantization step at most. -/
theorem C72_format (h w : Nat) (f : Nat → Nat → Nat → ℚ) (step : Nat → ℚ) (hstep : ∀ c, c < 3 → 0 < step c) (c y x : Nat) (hc : c < 3) :
    |Spec.lfSmoothed h w f step c y x - f c y x| ≤ step c / 2 := by
  unfold Spec.lfSmoothed
  have hs := hstep c hc
  by_cases hi : Spec.inner h w y x
  · rw [if_pos hi, add_sub_cancel_left, abs_mul, abs_sub_comm]
    have hg : 1 / 2 ≤ Spec.lfGap f step y x := le_max_left _ _
    have hg2 : |f c y x - Spec.lfMean (f c) y x| / step c ≤ Spec.lfGap f step y x := by
      unfold Spec.lfGap
      rcases c with _ | _ | _ | c
      · exact le_max_of_le_right (le_max_left _ _)
      · exact le_max_of_le_right (le_max_of_le_right (le_max_left _ _))
      · exact le_max_of_le_right (le_max_of_le_right (le_max_right _ _))
      · omega
    rw [div_le_iff₀ hs] at hg2
    have h0 := abs_nonneg (f c y x - Spec.lfMean (f c) y x)
    generalize |f c y x - Spec.lfMean (f c) y x| = d at *
    generalize Spec.lfGap f step y x = g at *
    rw [abs_of_nonneg (le_max_left _ _)]
    rcases le_total (3 - 4 * g) 0 with hn | hn
    · rw [max_eq_left hn]
      nlinarith
    · rw [max_eq_right hn]
      have : g * (3 - 4 * g) ≤ 1 / 2 := by nlinarith [mul_nonneg (sub_nonneg.2 hg) (sub_nonneg.2 hg)]
      calc d * (3 - 4 * g) ≤ (g * step c) * (3 - 4 * g) := mul_le_mul_of_nonneg_right hg2 hn
        _ = step c * (g * (3 - 4 * g)) := by ring
        _ ≤ step c * (1 / 2) := mul_le_mul_of_nonneg_left this hs.le
        _ = step c / 2 := by ring
  · rw [if_neg hi, sub_self, abs_zero]
    linarith

/-- What the code does instead, with differences multiplied by the steps: samples that differ little are left alone, and if one channel differs much, all of them are replaced by the means. -/
theorem C72_code (h w : Nat) (hh : 0 < h) (f : Nat → Nat → Nat → ℚ) (step : Nat → ℚ) (planes : List (List (List ℚ))) (steps : List ℚ)
    (hp : Spec.Planes (fun _ => h) (fun _ => w) f planes) (hst : ∀ c, c < 3 → steps[c]? = some (step c)) :
    ∃ g planes', adaptiveSmooth planes steps = .ok planes' ∧ Spec.Planes (fun _ => h) (fun _ => w) g planes' ∧ ∀ y x, (0 < y ∧ y + 1 < h) ∧ (0 < x ∧ x + 1 < w) →
      ((∀ c, c < 3 → |f c y x - Spec.lfMean (f c) y x| * step c ≤ 1 / 2) → ∀ c, g c y x = f c y x) ∧
      ((∃ c, c < 3 ∧ 3 / 4 ≤ |f c y x - Spec.lfMean (f c) y x| * step c) → ∀ c, g c y x = Spec.lfMean (f c) y x) := by
  obtain ⟨ps, e, h2⟩ := adaptiveSmooth_ok hh (holds3_iff.1 hp) hst
  refine ⟨_, ps, e, holds3_iff.2 h2, fun y x hi => ⟨fun hs c => ?_, fun ⟨k, hk, hs⟩ c => ?_⟩⟩
  · unfold codeSmoothed
    rw [if_pos (show Spec.inner h w y x from hi), lfStrength_eq, le_antisymm (codeGap_le (le_refl _) hs) (codeGap_ge f step y x).1]
    norm_num
  · unfold codeSmoothed
    have := (codeGap_ge f step y x).2 k hk
    rw [if_pos (show Spec.inner h w y x from hi), lfStrength_eq, max_eq_left (by linarith)]
    ring

/-- C72 fails: with steps of 1, a sample of 4 among zeros. The format leaves it alone, for it differs from the mean by more than 3/4 of a step; the code replaces it by the mean, which is
less by more than three steps. -/
theorem C72_fails : ∃ g : ℚ, adaptiveSmooth [[[0, 0, 0], [0, 4, 0], [0, 0, 0]], [[0, 0, 0], [0, 0, 0], [0, 0, 0]], [[0, 0, 0], [0, 0, 0], [0, 0, 0]]] [1, 1, 1] =
      .ok [[[0, 0, 0], [0, g, 0], [0, 0, 0]], [[0, 0, 0], [0, 0, 0], [0, 0, 0]], [[0, 0, 0], [0, 0, 0], [0, 0, 0]]] ∧ g < 1 / 4 ∧
    Spec.lfSmoothed 3 3 (fun c y x => if c = 0 ∧ y = 1 ∧ x = 1 then 4 else 0) (fun _ => 1) 0 1 1 = 4 := by
  refine ⟨4 * (5226273532324128 / 10 ^ 17), ?_, ?_, ?_⟩
  · decide +kernel
  · norm_num
  · decide +kernel

/-- The hypotheses of the theorems above can be met for all samples. -/
example (h w : Nat) (f : Nat → Nat → Nat → ℚ) (step : Nat → ℚ) : ∃ (planes : List (List (List ℚ))) (steps : List ℚ), Spec.Planes (fun _ => h) (fun _ => w) f planes ∧ ∀ c, c < 3 → steps[c]? = some (step c) := by
  refine ⟨[tableOf h w (f 0), tableOf h w (f 1), tableOf h w (f 2)], [step 0, step 1, step 2], holds3_iff.2 ⟨_, _, _, rfl, tableOf_holds _ _ _, tableOf_holds _ _ _, tableOf_holds _ _ _⟩, ?_⟩
  intro c hc
  rcases c with _ | _ | _ | c
  · rfl
  · rfl
  · rfl
  · omega

end Jxl
