import Verif.Proofs.LFSmoothing
import Verif.Proofs.ImageHeader
import Verif.Props.GroupSamples
import Verif.Proofs.BlendLoops
import Verif.Spec.Bits

/-!
# C71, C73: the samples of the low frequencies
-/
namespace Jxl

/-- C71: the correlation of the channels is read as written. -/
theorem C71_correlation : Implements readLFCorrelation Spec.decLFCorrelation := by
  unfold readLFCorrelation Spec.decLFCorrelation
  refine Implements.bind implements_bool (fun d => ?_)
  refine Implements.ite (fun _ => Implements.pure _) (fun _ => ?_)
  refine Implements.bind (implements_u32 (fun k => match k with | 0 => (84, 0) | 1 => (256, 0) | 2 => (2, 8) | 3 => (258, 16)) (by decide)) (fun cf => ?_)
  refine Implements.bind C08_readF16 (fun x => Implements.bind C08_readF16 (fun b => ?_))
  refine Implements.bind (implements_bits 8 (by decide)) (fun i => Implements.bind (implements_bits 8 (by decide)) (fun j => Implements.pure _))

/-- C71: the factors of the channels are read as written. -/
theorem C71_dequant : Implements readLFDequant Spec.decLFDequant := by
  unfold readLFDequant Spec.decLFDequant
  refine Implements.bind implements_bool (fun d => ?_)
  refine Implements.ite (fun _ => Implements.pure _) (fun _ => ?_)
  refine Implements.bind C08_readF16 (fun x => Implements.bind C08_readF16 (fun y => Implements.bind C08_readF16 (fun b => ?_)))
  simp only [mul_one_div]
  exact Implements.pure _

/-- C71: the global scale and the quantizer are read as written. -/
theorem C71_quantizer : Implements readLFQuantizer Spec.decQuantizer := by
  unfold readLFQuantizer Spec.decQuantizer
  refine Implements.bind' (fun g => g < 2 ^ 17) (implements_u32 (fun k => match k with | 0 => (1, 11) | 1 => (2049, 11) | 2 => (4097, 12) | 3 => (8193, 16)) (by decide))
    (fun l a r h => decU32_lt h (by decide)) (fun g hg => ?_)
  refine Implements.bind' (fun g => g < 2 ^ 17) (implements_u32 (fun k => match k with | 0 => (16, 0) | 1 => (1, 5) | 2 => (1, 8) | 3 => (1, 16)) (by decide))
    (fun l a r h => decU32_lt h (by decide)) (fun q hq => ?_)
  have e1 : i32 (g : Int) = g := i32_in (by omega) (by omega)
  have e2 : i32 (q : Int) = q := i32_in (by omega) (by omega)
  show Implements (Pure.pure (i32 (g : Int), i32 (q : Int))) _
  rw [e1, e2]
  exact Implements.pure _

section
variable {α : Type} [Arith α]

/-- C71, for every arithmetic: the quantization steps are those of the format if the product of the global scale and the quantizer is less than 2^31. -/
theorem C71_steps_partial (globalScale quantLF : Int) (dequant : List ℚ) (h0 : 0 < globalScale * quantLF) (h1 : globalScale * quantLF < 2147483648) :
    (scaledDequant globalScale quantLF dequant : List α) = Spec.lfSteps globalScale quantLF dequant := by
  unfold scaledDequant Spec.lfSteps
  have e : i32 (globalScale * quantLF) = globalScale * quantLF := i32_in (by omega) (by omega)
  rw [e, Int.cast_mul]

/-- The product of the smallest values is in range; default values in an image of good quality too. -/
example : (0 : Int) < 1 * 1 ∧ (1 : Int) * 1 < 2147483648 ∧ (0 : Int) < 32768 * 64 ∧ (32768 : Int) * 64 < 2147483648 := by decide

/-- Not so for larger products, which the format allows: the steps become negative. -/
theorem C71_steps_fails : Spec.decQuantizer (Spec.bitsOf 2 3 ++ Spec.bitsOf 16 65535 ++ Spec.bitsOf 2 3 ++ Spec.bitsOf 16 32767) = some ((73728, 32768), []) ∧
    (scaledDequant 73728 32768 [1 / 4096, 1 / 512, 1 / 256] : List ℚ) ≠ Spec.lfSteps 73728 32768 [1 / 4096, 1 / 512, 1 / 256] ∧
    ∀ s ∈ (scaledDequant 73728 32768 [1 / 4096, 1 / 512, 1 / 256] : List ℚ), s < 0 := by
  decide +kernel

theorem lfFactor_ok {base : α} {factor colorFactor : Nat} (h : 128 ≤ factor ∧ factor < 256) : lfFactor base factor colorFactor = Spec.lfLuma base factor colorFactor := by
  unfold lfFactor Spec.lfLuma
  have e : (factor + 2 ^ 32 - 128) % 2 ^ 32 = factor - 128 := by omega
  rw [e, Nat.cast_sub h.1]
  rfl

theorem empty_ok (p : LFParams α) (up : Nat → Nat × Nat) (hup : p.ups = [up 0, up 1, up 2]) :
    Holds3 (fun c => p.height / 2 ^ (up c).1) (fun c => p.width / 2 ^ (up c).2) (fun _ _ _ => (Arith.lit 0 : α)) p.empty := by
  unfold LFParams.empty
  rw [hup]
  refine ⟨_, _, _, rfl, ?_, ?_, ?_⟩
  all_goals
    beta_reduce
    rw [Nat.shiftRight_eq_div_pow, Nat.shiftRight_eq_div_pow]
    exact holds_const _

theorem subsampled_iff (p : LFParams α) (up : Nat → Nat × Nat) (hup : p.ups = [up 0, up 1, up 2]) : p.subsampled = false ↔ up 0 = (0, 0) ∧ up 1 = (0, 0) ∧ up 2 = (0, 0) := by
  have one : ∀ u : Nat × Nat, (u.1 != 0 || u.2 != 0) = false ↔ u = (0, 0) := by
    rintro ⟨a, b⟩
    simp
  unfold LFParams.subsampled
  rw [hup]
  simp only [List.any_cons, List.any_nil, Bool.or_false, Bool.or_eq_false_iff]
  rw [← Bool.or_eq_false_iff, ← Bool.or_eq_false_iff, ← Bool.or_eq_false_iff, one, one, one]

/-- The samples before smoothing. -/
theorem unsmoothed_ok (I : Spec.LFGroup α) (p : LFParams α) (up : Nat → Nat × Nat) (hup : p.ups = [up 0, up 1, up 2]) (hst : ∀ c, c < 3 → p.steps[c]? = some (I.step c))
    (hx : 128 ≤ p.xFactorLF ∧ p.xFactorLF < 256) (hb : 128 ≤ p.bFactorLF ∧ p.bFactorLF < 256) (hkX : I.kX = Spec.lfLuma p.baseX p.xFactorLF p.colorFactor)
    (hkB : I.kB = Spec.lfLuma p.baseB p.bFactorLF p.colorFactor) (hsk : (!p.skipSmoothing && !p.useLFFrame) = true → up 0 = (0, 0) ∧ up 1 = (0, 0) ∧ up 2 = (0, 0))
    (lfBuffer : List (List (List α))) (LH LW : Nat → Nat) (lf : Nat → Nat → Nat → α)
    (hlf : p.useLFFrame = true → Spec.Planes LH LW lf lfBuffer ∧ ∀ c, c < 3 → p.pY + p.height / 2 ^ (up c).1 ≤ LH c ∧ p.pX + p.width / 2 ^ (up c).2 ≤ LW c)
    (decode : Rd (List (List (List Int)))) (s s1 s2 : BR) (lfQuant : List (List (List Int)))
    (hr : readBits 2 s = (.ok I.extra, s1)) (hd : decode s1 = (.ok lfQuant, s2))
    (hq : Spec.Planes (fun k => p.height / 2 ^ (up (Spec.lfChannel k)).1) (fun k => p.width / 2 ^ (up (Spec.lfChannel k)).2) (fun k => I.q (Spec.lfChannel k)) lfQuant) :
    ∃ planes, newLFCoefficients p lfBuffer decode s = (Rd.lift (if (!p.skipSmoothing && !p.useLFFrame) = true then adaptiveSmooth planes p.steps else .ok planes) >>= fun r => pure (r, lfQuant)) s2 ∧
      Holds3 (fun c => p.height / 2 ^ (up c).1) (fun c => p.width / 2 ^ (up c).2) (if up 0 = (0, 0) ∧ up 1 = (0, 0) ∧ up 2 = (0, 0) then I.sample else I.value) planes := by
  have hcopy : ∃ ps g, (if p.useLFFrame = true then copyLFFrame p.pY p.pX lfBuffer p.empty else .ok p.empty) = .ok ps ∧
      Holds3 (fun c => p.height / 2 ^ (up c).1) (fun c => p.width / 2 ^ (up c).2) g ps := by
    by_cases hu : p.useLFFrame = true
    · rw [if_pos hu]
      obtain ⟨hl, hs⟩ := hlf hu
      obtain ⟨ps', e, h'⟩ := copyLFFrame_ok (holds3_iff.1 hl) (fun c hc => (hs c hc).1) (fun c hc => (hs c hc).2) (empty_ok p up hup)
      exact ⟨ps', _, e, h'⟩
    · rw [if_neg hu]
      exact ⟨_, _, rfl, empty_ok p up hup⟩
  obtain ⟨ps, g, ec, hps⟩ := hcopy
  obtain ⟨qa, qb, qc, rfl, hqa, hqb, hqc⟩ := holds3_iff.1 hq
  obtain ⟨ps2, ed, hps2⟩ := dequantLF_ok (I := I) hst (qs := [qa, qb, qc]) ⟨qa, qb, qc, rfl, hqa, hqb, hqc⟩ hps
  have hguard : ((!p.skipSmoothing && !p.useLFFrame) && p.subsampled) = false := by
    by_cases h : (!p.skipSmoothing && !p.useLFFrame) = true
    · rw [(subsampled_iff p up hup).2 (hsk h), Bool.and_false]
    · rw [Bool.eq_false_iff.2 h, Bool.false_and]
  have hfin : ∃ planes, (if (!p.subsampled) = true then correlateLF (lfFactor p.baseX p.xFactorLF p.colorFactor) (lfFactor p.baseB p.bFactorLF p.colorFactor) ps2 else .ok ps2) = .ok planes ∧
      Holds3 (fun c => p.height / 2 ^ (up c).1) (fun c => p.width / 2 ^ (up c).2) (if up 0 = (0, 0) ∧ up 1 = (0, 0) ∧ up 2 = (0, 0) then I.sample else I.value) planes := by
    by_cases hz : up 0 = (0, 0) ∧ up 1 = (0, 0) ∧ up 2 = (0, 0)
    · rw [if_pos hz, if_pos (by rw [(subsampled_iff p up hup).2 hz]; rfl), lfFactor_ok hx, lfFactor_ok hb, ← hkX, ← hkB]
      obtain ⟨a, b, c, rfl, ha, hb, hc⟩ := hps2
      have n0 : ∀ n, n / 2 ^ (0 : Nat) = n := fun n => by simp
      simp only [hz.1, n0] at ha
      simp only [hz.2.1, n0] at hb
      simp only [hz.2.2, n0] at hc
      obtain ⟨ps3, e3, a', b', c', rfl, ha', hb', hc'⟩ := correlateLF_ok (h := p.height) (w := p.width) I.kX I.kB (f := I.value) (ps := [a, b, c]) ⟨a, b, c, rfl, ha, hb, hc⟩
      refine ⟨_, e3, a', b', c', rfl, ?_, ?_, ?_⟩
      · simp only [hz.1, n0]
        exact ha'
      · simp only [hz.2.1, n0]
        exact hb'
      · simp only [hz.2.2, n0]
        exact hc'
    · rw [if_neg hz, if_neg (by
        intro h
        exact hz ((subsampled_iff p up hup).1 (by simpa using h)))]
      exact ⟨ps2, rfl, hps2⟩
  obtain ⟨planes, ep, hpl⟩ := hfin
  refine ⟨planes, ?_, hpl⟩
  unfold newLFCoefficients
  simp only [hguard]
  rw [if_neg (by simp), Rd.bind_ok (show Rd.lift _ s = (.ok ps, s) from by rw [ec]; rfl), Rd.bind_ok hr, Rd.bind_ok hd, Rd.bind_ok (show Rd.lift _ s2 = (.ok ps2, s2) from by rw [ed]; rfl),
    Rd.bind_ok (show Rd.lift _ s2 = (.ok planes, s2) from by rw [ep]; rfl)]

/-- C71, for every arithmetic: the samples of an LF group without smoothing. `up` are the subsamplings of the channels. The samples are the quantized numbers times the steps; without
subsampling luma is added to the other channels. Whatever an LF frame says, see C73. Missing: factors below 128, see `C71_factor_fails`. -/
theorem C71_samples_partial (I : Spec.LFGroup α) (p : LFParams α) (up : Nat → Nat × Nat) (hup : p.ups = [up 0, up 1, up 2]) (hst : ∀ c, c < 3 → p.steps[c]? = some (I.step c))
    (hx : 128 ≤ p.xFactorLF ∧ p.xFactorLF < 256) (hb : 128 ≤ p.bFactorLF ∧ p.bFactorLF < 256) (hkX : I.kX = Spec.lfLuma p.baseX p.xFactorLF p.colorFactor)
    (hkB : I.kB = Spec.lfLuma p.baseB p.bFactorLF p.colorFactor) (hsk : p.skipSmoothing = true) (hlf : p.useLFFrame = false) (lfBuffer : List (List (List α)))
    (decode : Rd (List (List (List Int)))) (s s1 s2 : BR) (lfQuant : List (List (List Int)))
    (hr : readBits 2 s = (.ok I.extra, s1)) (hd : decode s1 = (.ok lfQuant, s2))
    (hq : Spec.Planes (fun k => p.height / 2 ^ (up (Spec.lfChannel k)).1) (fun k => p.width / 2 ^ (up (Spec.lfChannel k)).2) (fun k => I.q (Spec.lfChannel k)) lfQuant) :
    ∃ planes, newLFCoefficients p lfBuffer decode s = (.ok (planes, lfQuant), s2) ∧
      Spec.Planes (fun c => p.height / 2 ^ (up c).1) (fun c => p.width / 2 ^ (up c).2) (if up 0 = (0, 0) ∧ up 1 = (0, 0) ∧ up 2 = (0, 0) then I.sample else I.value) planes := by
  obtain ⟨planes, e, h⟩ := unsmoothed_ok I p up hup hst hx hb hkX hkB (fun h => by rw [hsk] at h; simp at h) lfBuffer (fun _ => 0) (fun _ => 0) (fun _ _ _ => Arith.lit 0)
    (fun h => by rw [hlf] at h; cases h) decode s s1 s2 lfQuant hr hd hq
  refine ⟨planes, ?_, holds3_iff.2 h⟩
  rw [e, if_neg (by rw [hsk]; simp)]
  rfl

/-- A group of one sample with the numbers 3 (Y), 5 (X), 7 (B) and a step of 1/2: the samples are 5/2 + 3/2·2, 3/2 and 7/2 + 3/2·1. -/
example : let p : LFParams ℚ := ⟨true, false, [(0, 0), (0, 0), (0, 0)], 1, 1, [1 / 2, 1 / 2, 1 / 2], 0, 1, 84, 128 + 84, 128, 0, 0⟩
    (newLFCoefficients p [] (pure [[[3]], [[5]], [[7]]]) (BR.new [0])).1 = .ok ([[[5 / 2 + 3 / 2]], [[3 / 2]], [[7 / 2 + 3 / 2]]], [[[3]], [[5]], [[7]]]) := by
  decide +kernel

/-- Not so for factors below 128, which the format allows: the difference is of an unsigned type. -/
theorem C71_factor_fails (base : ℚ) (factor colorFactor : Nat) (hc : 0 < colorFactor) (hf : factor < 128) :
    lfFactor base factor colorFactor = Spec.lfLuma base factor colorFactor + 4294967296 / colorFactor := by
  unfold lfFactor Spec.lfLuma
  have e : (factor + 2 ^ 32 - 128) % 2 ^ 32 = factor + 4294967168 := by omega
  rw [e]
  have hc' : (colorFactor : ℚ) ≠ 0 := by positivity
  show base + ((factor + 4294967168 : Nat) : ℚ) / colorFactor = base + ((factor : ℚ) - 128) / colorFactor + 4294967296 / colorFactor
  push_cast
  field_simp
  ring

example : (lfFactor 0 127 84 : ℚ) = 4294967295 / 84 ∧ (Spec.lfLuma 0 127 84 : ℚ) = -1 / 84 := by decide +kernel

/-- C73, for every arithmetic: if the frame says that its low frequencies are those of an LF frame, they are read from the stream all the same, and the LF frame has no influence. -/
theorem C73_ignored (I : Spec.LFGroup α) (p : LFParams α) (up : Nat → Nat × Nat) (hup : p.ups = [up 0, up 1, up 2]) (hst : ∀ c, c < 3 → p.steps[c]? = some (I.step c))
    (hx : 128 ≤ p.xFactorLF ∧ p.xFactorLF < 256) (hb : 128 ≤ p.bFactorLF ∧ p.bFactorLF < 256) (hkX : I.kX = Spec.lfLuma p.baseX p.xFactorLF p.colorFactor)
    (hkB : I.kB = Spec.lfLuma p.baseB p.bFactorLF p.colorFactor) (hu : p.useLFFrame = true)
    (lfBuffer : List (List (List α))) (LH LW : Nat → Nat) (lf : Nat → Nat → Nat → α)
    (hlf : Spec.Planes LH LW lf lfBuffer) (hsz : ∀ c, c < 3 → p.pY + p.height / 2 ^ (up c).1 ≤ LH c ∧ p.pX + p.width / 2 ^ (up c).2 ≤ LW c)
    (decode : Rd (List (List (List Int)))) (s s1 s2 : BR) (lfQuant : List (List (List Int)))
    (hr : readBits 2 s = (.ok I.extra, s1)) (hd : decode s1 = (.ok lfQuant, s2))
    (hq : Spec.Planes (fun k => p.height / 2 ^ (up (Spec.lfChannel k)).1) (fun k => p.width / 2 ^ (up (Spec.lfChannel k)).2) (fun k => I.q (Spec.lfChannel k)) lfQuant) :
    ∃ planes, newLFCoefficients p lfBuffer decode s = (.ok (planes, lfQuant), s2) ∧
      Spec.Planes (fun c => p.height / 2 ^ (up c).1) (fun c => p.width / 2 ^ (up c).2) (if up 0 = (0, 0) ∧ up 1 = (0, 0) ∧ up 2 = (0, 0) then I.sample else I.value) planes := by
  obtain ⟨planes, e, h⟩ := unsmoothed_ok I p up hup hst hx hb hkX hkB (fun h => by rw [hu] at h; simp at h) lfBuffer LH LW lf
    (fun _ => ⟨hlf, hsz⟩) decode s s1 s2 lfQuant hr hd hq
  refine ⟨planes, ?_, holds3_iff.2 h⟩
  rw [e, if_neg (by rw [hu]; simp)]
  rfl

/-- C73, the part that holds: the samples of the LF frame at the place of the LF group are copied before they are overwritten. -/
theorem C73_copy_partial (pY pX : Nat) (H W LH LW : Nat → Nat) (lf g : Nat → Nat → Nat → α) (lfBuffer planes : List (List (List α)))
    (hlf : Spec.Planes LH LW lf lfBuffer) (hp : Spec.Planes H W g planes) (hsz : ∀ c, c < 3 → pY + H c ≤ LH c ∧ pX + W c ≤ LW c) :
    ∃ planes', copyLFFrame pY pX lfBuffer planes = .ok planes' ∧ Spec.Planes H W (fun c y x => lf c (pY + y) (pX + x)) planes' := by
  obtain ⟨ps, e, h⟩ := copyLFFrame_ok (holds3_iff.1 hlf) (fun c hc => (hsz c hc).1) (fun c hc => (hsz c hc).2) (holds3_iff.1 hp)
  exact ⟨ps, e, holds3_iff.2 h⟩

/-- C73 fails: an LF frame of samples 1, and a stream of numbers 0. The format says that the samples are 1 and that the stream has no such numbers; the code gives 0. Without the numbers in the
stream it gives an error. -/
theorem C73_fails : let p : LFParams ℚ := ⟨false, true, [(0, 0), (0, 0), (0, 0)], 1, 1, [1 / 2, 1 / 2, 1 / 2], 0, 1, 84, 128, 128, 0, 0⟩
    (newLFCoefficients p [[[1]], [[1]], [[1]]] (pure [[[0]], [[0]], [[0]]]) (BR.new [0])).1 = .ok ([[[0]], [[0]], [[0]]], [[[0]], [[0]], [[0]]]) ∧
    ∀ decode, (newLFCoefficients p [[[1]], [[1]], [[1]]] decode (BR.new [])).1 = .err := by
  refine ⟨by decide +kernel, fun decode => ?_⟩
  have e1 : copyLFFrame 0 0 [[[(1 : ℚ)]], [[1]], [[1]]] [[[0]], [[0]], [[0]]] = .ok [[[1]], [[1]], [[1]]] := by decide +kernel
  have e2 : (readBits 2 (BR.new [])).1 = .err := by decide +kernel
  unfold newLFCoefficients
  dsimp only
  rw [if_neg (by decide), Rd.bind_ok (a := [[[(1 : ℚ)]], [[1]], [[1]]]) (s' := BR.new []) (by
    rw [if_pos rfl]
    show Rd.lift (copyLFFrame 0 0 [[[(1 : ℚ)]], [[1]], [[1]]] [[[0]], [[0]], [[0]]]) _ = _
    rw [e1]
    rfl), Rd.bind_eq]
  generalize readBits 2 (BR.new []) = r at e2
  obtain ⟨a, s⟩ := r
  dsimp only at e2
  rw [e2]

end

end Jxl
