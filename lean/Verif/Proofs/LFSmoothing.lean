import Verif.Proofs.LFCoefficients

/-!
# Adaptive smoothing of the LF samples (helper lemmas for C72)
-/
namespace Jxl

section
variable {α : Type} [Arith α]

theorem lfWeighted_ok {h w : Nat} {f : Nat → Nat → α} {co : List (List α)} (hc : HoldsMat h w f co) {y x : Nat} (hi : Spec.inner h w y x) :
    lfWeighted co y x = .ok (Spec.lfMean f y x) := by
  obtain ⟨⟨hy1, hy2⟩, hx1, hx2⟩ := hi
  unfold lfWeighted
  have ex : (x : Int) - 1 = ((x - 1 : Nat) : Int) := by omega
  have ey : (y : Int) - 1 = ((y - 1 : Nat) : Int) := by omega
  have ex' : (x : Int) + 1 = ((x + 1 : Nat) : Int) := by omega
  have ey' : (y : Int) + 1 = ((y + 1 : Nat) : Int) := by omega
  rw [ex, ey, ex', ey', hc.at2 (by omega) (by omega), Res.bind_ok, hc.at2 (by omega) (by omega), Res.bind_ok, hc.at2 (by omega) (by omega), Res.bind_ok,
    hc.at2 (by omega) (by omega), Res.bind_ok, hc.at2 (by omega) (by omega), Res.bind_ok, hc.at2 (by omega) (by omega), Res.bind_ok,
    hc.at2 (by omega) (by omega), Res.bind_ok, hc.at2 (by omega) (by omega), Res.bind_ok, hc.at2 (by omega) (by omega), Res.bind_ok]
  rfl

theorem lfGapPlane_ok {h w : Nat} {f : Nat → Nat → α} {co : List (List α)} (hc : HoldsMat h w f co) (sd : α) {u g : Nat → Nat → α} {s : List (List α) × List (List α)}
    (hu : HoldsMat h w u s.1) (hg : HoldsMat h w g s.2) :
    ∃ s', lfGapPlane co sd s = .ok s' ∧ HoldsMat h w (fun y x => if Spec.inner h w y x then Spec.lfMean f y x else u y x) s'.1 ∧
      HoldsMat h w (fun y x => if Spec.inner h w y x then gapStep f sd y x (g y x) else g y x) s'.2 := by
  unfold lfGapPlane
  rw [hc.1.1, forFrom_congr (g := fun y s => forFrom (fun x s => do
      let w ← lfWeighted co y x
      let weighted ← set2 s.1 (y : Int) (x : Int) w
      let sample ← at2 co (y : Int) (x : Int)
      let g := Arith.abs (sample - w) * sd
      let old ← at2 s.2 (y : Int) (x : Int)
      if Arith.lt old g then do
        let gap ← set2 s.2 (y : Int) (x : Int) g
        .ok (weighted, gap)
      else .ok (weighted, s.2)) (w - 2) 1 s)]
  · obtain ⟨s', e, r1, r2⟩ := cell_loop (β := α × α) (f := fun y x (s : List (List α) × List (List α)) => do
      let w ← lfWeighted co y x
      let weighted ← set2 s.1 (y : Int) (x : Int) w
      let sample ← at2 co (y : Int) (x : Int)
      let g := Arith.abs (sample - w) * sd
      let old ← at2 s.2 (y : Int) (x : Int)
      if Arith.lt old g then do
        let gap ← set2 s.2 (y : Int) (x : Int) g
        .ok (weighted, gap)
      else .ok (weighted, s.2)) (fun v s => HoldsMat h w (fun j k => (v j k).1) s.1 ∧ HoldsMat h w (fun j k => (v j k).2) s.2) (old := fun y x => (u y x, g y x))
      (new := fun y x => (Spec.lfMean f y x, gapStep f sd y x (g y x))) 1 1 (h - 2) (w - 2) s ⟨hu, hg⟩ (by
        rintro v y x s hy hx hv ⟨h1, h2⟩
        have hi : Spec.inner h w y x := ⟨by omega, by omega⟩
        obtain ⟨m1, e1, g1⟩ := h1.set (show y < h by omega) (show x < w by omega) (Spec.lfMean f y x)
        rw [lfWeighted_ok hc hi, Res.bind_ok, e1, Res.bind_ok, hc.at2 (by omega) (by omega), Res.bind_ok, h2.at2 (by omega) (by omega), Res.bind_ok, hv]
        dsimp only
        have r1 : HoldsMat h w (fun j k => ((fun j k => if j = y ∧ k = x then (Spec.lfMean f y x, gapStep f sd y x (g y x)) else v j k) j k).1) m1 :=
          g1.congr (fun j k _ _ => by
            beta_reduce
            by_cases hjk : j = y ∧ k = x
            · rw [if_pos hjk, if_pos hjk]
            · rw [if_neg hjk, if_neg hjk])
        by_cases hl : Arith.lt (g y x) (Arith.abs (f y x - Spec.lfMean f y x) * sd) = true
        · obtain ⟨m2, e2, g2⟩ := h2.set (show y < h by omega) (show x < w by omega) (Arith.abs (f y x - Spec.lfMean f y x) * sd)
          rw [if_pos hl, e2, Res.bind_ok]
          refine ⟨(m1, m2), rfl, r1, g2.congr (fun j k _ _ => ?_)⟩
          beta_reduce
          by_cases hjk : j = y ∧ k = x
          · rw [if_pos hjk, if_pos hjk]
            exact (if_pos hl).symm
          · rw [if_neg hjk, if_neg hjk]
        · rw [if_neg hl]
          refine ⟨(m1, s.2), rfl, r1, h2.congr (fun j k _ _ => ?_)⟩
          beta_reduce
          by_cases hjk : j = y ∧ k = x
          · rw [if_pos hjk, hjk.1, hjk.2, hv]
            exact (if_neg hl).symm
          · rw [if_neg hjk])
    have hcond : ∀ j k, ((1 ≤ j ∧ j < 1 + (h - 2)) ∧ 1 ≤ k ∧ k < 1 + (w - 2)) ↔ Spec.inner h w j k := by
      intro j k
      unfold Spec.inner
      omega
    refine ⟨s', e, r1.congr (fun j k _ _ => ?_), r2.congr (fun j k _ _ => ?_)⟩
    all_goals
      beta_reduce
      by_cases hi : Spec.inner h w j k
      · rw [if_pos hi, if_pos ((hcond j k).2 hi)]
      · rw [if_neg hi, if_neg (fun hh => hi ((hcond j k).1 hh))]
  · intro y s h1 hy
    obtain ⟨r, e, hl, _⟩ := hc.row (show y < h by omega)
    rw [e, Res.bind_ok, hl]

theorem lfStrengths_ok {h w : Nat} {g : Nat → Nat → α} {m : List (List α)} (hm : HoldsMat h w g m) :
    ∃ m', lfStrengths h w m = .ok m' ∧ HoldsMat h w (fun y x => if 0 < y ∧ y + 1 < h then lfStrength (g y x) else g y x) m' := by
  unfold lfStrengths
  obtain ⟨m', e, r⟩ := cell_loop (f := fun y x (gap : List (List α)) => do
    let g ← at2 gap (y : Int) (x : Int)
    set2 gap (y : Int) (x : Int) (lfStrength g)) (fun v m => HoldsMat h w v m) (old := g) (new := fun y x => lfStrength (g y x)) 1 0 (h - 2) w m hm (by
      intro v y x m hy hx hv hm
      obtain ⟨m', e, h'⟩ := hm.set (show y < h by omega) (show x < w by omega) (lfStrength (g y x))
      refine ⟨m', ?_, h'⟩
      rw [hm.at2 (by omega) (by omega), Res.bind_ok, hv, e])
  refine ⟨m', e, r.congr (fun j k _ hk => ?_)⟩
  beta_reduce
  by_cases hi : 0 < j ∧ j + 1 < h
  · rw [if_pos hi, if_pos (by omega)]
  · rw [if_neg hi, if_neg (by omega)]

theorem lfSmoothPlane_ok {h w : Nat} {f u g o : Nat → Nat → α} {co weighted gap out : List (List α)} (hc : HoldsMat h w f co)
    (hu : HoldsMat h w u weighted) (hg : HoldsMat h w g gap) (ho : HoldsMat h w o out) :
    ∃ m', lfSmoothPlane co weighted gap out = .ok m' ∧ HoldsMat h w (fun y x => if Spec.inner h w y x then (f y x - u y x) * g y x + u y x else f y x) m' := by
  unfold lfSmoothPlane
  rw [hc.1.1, forFrom_congr (g := fun y out => forFrom (fun x out =>
      if y = 0 ∨ y + 1 = h ∨ x = 0 ∨ x + 1 = w then set2 out (y : Int) (x : Int) (f y x)
      else set2 out (y : Int) (x : Int) ((f y x - u y x) * g y x + u y x)) w 0 out)]
  · obtain ⟨m', e, r⟩ := cell_loop (f := fun y x (out : List (List α)) =>
      if y = 0 ∨ y + 1 = h ∨ x = 0 ∨ x + 1 = w then set2 out (y : Int) (x : Int) (f y x)
      else set2 out (y : Int) (x : Int) ((f y x - u y x) * g y x + u y x)) (fun v m => HoldsMat h w v m) (old := o)
      (new := fun y x => if Spec.inner h w y x then (f y x - u y x) * g y x + u y x else f y x) 0 0 h w out ho (by
        intro v y x m hy hx hv hm
        by_cases hi : Spec.inner h w y x
        · obtain ⟨m', e, h'⟩ := hm.set (show y < h by omega) (show x < w by omega) ((f y x - u y x) * g y x + u y x)
          refine ⟨m', ?_, h'.congr (fun j k _ _ => ?_)⟩
          · unfold Spec.inner at hi
            rw [if_neg (by omega), e]
          · rw [if_pos hi]
        · obtain ⟨m', e, h'⟩ := hm.set (show y < h by omega) (show x < w by omega) (f y x)
          refine ⟨m', ?_, h'.congr (fun j k _ _ => ?_)⟩
          · unfold Spec.inner at hi
            rw [if_pos (by omega), e]
          · rw [if_neg hi])
    refine ⟨m', e, r.congr (fun j k hj hk => ?_)⟩
    beta_reduce
    rw [if_pos (by omega)]
  · intro y s _ hy
    obtain ⟨r, e, hl, hv⟩ := hc.row (show y < h by omega)
    rw [e, Res.bind_ok, hl]
    refine forFrom_congr _ _ _ (fun x s _ hx => ?_)
    rw [hv x (by omega), Res.bind_ok]
    by_cases hb : y = 0 ∨ y + 1 = h ∨ x = 0 ∨ x + 1 = w
    · rw [if_pos hb, if_pos hb]
    · rw [if_neg hb, if_neg hb, hu.at2 (by omega) (by omega), Res.bind_ok, hg.at2 (by omega) (by omega), Res.bind_ok]

theorem holds_const {h w : Nat} (v : α) : HoldsMat h w (fun _ _ => v) (List.replicate h (List.replicate w v)) := by
  refine ⟨⟨by simp, fun r hr => ?_⟩, fun y x hy hx => ?_⟩
  · rw [(List.mem_replicate.1 hr).2]
    simp
  · simp [sample, hy, hx]

theorem holds_rows {h w : Nat} (v : Nat → α) : HoldsMat h w (fun y _ => v y) ((List.range h).map fun (y : Nat) => List.replicate w (v y)) := by
  refine ⟨⟨by simp, fun r hr => ?_⟩, fun y x hy hx => ?_⟩
  · obtain ⟨y, _, rfl⟩ := List.mem_map.1 hr
    simp
  · simp [sample, hy, hx]

omit [Arith α] in
theorem holds3_iff {H W : Nat → Nat} {f : Nat → Nat → Nat → α} {ps : List (List (List α))} : Spec.Planes H W f ps ↔ Holds3 H W f ps := by
  constructor
  · rintro ⟨hl, h⟩
    match ps, hl with
    | [a, b, c], _ => exact ⟨a, b, c, rfl, h 0 a rfl, h 1 b rfl, h 2 c rfl⟩
  · rintro ⟨a, b, c, rfl, ha, hb, hc⟩
    refine ⟨rfl, fun i m hm => ?_⟩
    rcases i with _ | _ | _ | i
    · rcases Option.some.inj hm with rfl
      exact ha
    · rcases Option.some.inj hm with rfl
      exact hb
    · rcases Option.some.inj hm with rfl
      exact hc
    · simp at hm

theorem adaptiveSmooth_ok {h w : Nat} (hh : 0 < h) {f : Nat → Nat → Nat → α} {ps : List (List (List α))} (hp : Holds3 (fun _ => h) (fun _ => w) f ps) {steps : List α} {step : Nat → α}
    (hst : ∀ c, c < 3 → steps[c]? = some (step c)) :
    ∃ ps', adaptiveSmooth ps steps = .ok ps' ∧ Holds3 (fun _ => h) (fun _ => w) (codeSmoothed h w f step) ps' := by
  obtain ⟨a, b, c, rfl, ha, hb, hc⟩ := hp
  change HoldsMat h w (f 0) a at ha
  change HoldsMat h w (f 1) b at hb
  change HoldsMat h w (f 2) c at hc
  have s0 : idx steps 0 = .ok (step 0) := by simp [idx, hst 0 (by omega)]
  have s1 : idx steps 1 = .ok (step 1) := by simp [idx, hst 1 (by omega)]
  have s2 : idx steps 2 = .ok (step 2) := by simp [idx, hst 2 (by omega)]
  have i0 : idx [a, b, c] 0 = .ok a := rfl
  have i1 : idx [a, b, c] 1 = .ok b := rfl
  have i2 : idx [a, b, c] 2 = .ok c := rfl
  obtain ⟨r, er, hl, _⟩ := ha.row hh
  have er : idx a 0 = .ok r := er
  have hz : HoldsMat h w (fun _ _ => (Arith.lit 0 : α)) (List.replicate h (List.replicate w (Arith.lit 0))) := holds_const _
  have hg := holds_rows (h := h) (w := w) (fun y => if 0 < y ∧ y + 1 < h then (Arith.lit (1 / 2) : α) else Arith.lit 0)
  obtain ⟨t0, e0, u0, g0⟩ := lfGapPlane_ok ha (step 0) (s := (_, _)) hz hg
  obtain ⟨t1, e1, u1, g1⟩ := lfGapPlane_ok hb (step 1) (s := (_, t0.2)) hz g0
  obtain ⟨t2, e2, u2, g2⟩ := lfGapPlane_ok hc (step 2) (s := (_, t1.2)) hz g1
  obtain ⟨gap, eg, hgap⟩ := lfStrengths_ok g2
  obtain ⟨q0, k0, v0⟩ := lfSmoothPlane_ok ha u0 hgap hz
  obtain ⟨q1, k1, v1⟩ := lfSmoothPlane_ok hb u1 hgap hz
  obtain ⟨q2, k2, v2⟩ := lfSmoothPlane_ok hc u2 hgap hz
  refine ⟨[q0, q1, q2], ?_, q0, q1, q2, rfl, v0.congr ?_, v1.congr ?_, v2.congr ?_⟩
  · unfold adaptiveSmooth
    rw [i0, i1, i2, s0, s1, s2]
    simp only [Res.bind_ok]
    rw [ha.1.1, er]
    simp only [Res.bind_ok]
    rw [hl, e0]
    simp only [Res.bind_ok]
    rw [e1]
    simp only [Res.bind_ok]
    rw [e2]
    simp only [Res.bind_ok]
    rw [eg]
    simp only [Res.bind_ok]
    rw [k0, Res.bind_ok, k1, Res.bind_ok, k2, Res.bind_ok]
  all_goals
    intro y x hy hx
    unfold codeSmoothed
    beta_reduce
    by_cases hi : Spec.inner h w y x
    · rw [if_pos hi, if_pos hi, if_pos hi, if_pos hi.1, if_pos hi, if_pos hi, if_pos hi, if_pos hi.1]
      rfl
    · rw [if_neg hi, if_neg hi]

end

section
/-! ## With exact arithmetic -/

theorem lfMean_between {f : Nat → Nat → ℚ} {y x : Nat} {lo hi : ℚ} (h : ∀ j k, (j = y - 1 ∨ j = y ∨ j = y + 1) → (k = x - 1 ∨ k = x ∨ k = x + 1) → lo ≤ f j k ∧ f j k ≤ hi) :
    lo ≤ Spec.lfMean f y x ∧ Spec.lfMean f y x ≤ hi := by
  have a1 := h (y - 1) (x - 1) (by simp) (by simp)
  have a2 := h (y - 1) x (by simp) (by simp)
  have a3 := h (y - 1) (x + 1) (by simp) (by simp)
  have a4 := h y (x - 1) (by simp) (by simp)
  have a5 := h y x (by simp) (by simp)
  have a6 := h y (x + 1) (by simp) (by simp)
  have a7 := h (y + 1) (x - 1) (by simp) (by simp)
  have a8 := h (y + 1) x (by simp) (by simp)
  have a9 := h (y + 1) (x + 1) (by simp) (by simp)
  unfold Spec.lfMean
  simp only [Arith.lit]
  constructor
  · norm_num
    linarith [a1.1, a2.1, a3.1, a4.1, a5.1, a6.1, a7.1, a8.1, a9.1]
  · norm_num
    linarith [a1.2, a2.2, a3.2, a4.2, a5.2, a6.2, a7.2, a8.2, a9.2]

theorem gapStep_eq (f : Nat → Nat → ℚ) (sd : ℚ) (y x : Nat) (old : ℚ) : gapStep f sd y x old = max old (|f y x - Spec.lfMean f y x| * sd) := by
  unfold gapStep
  simp only [Arith.lt, Arith.abs, decide_eq_true_eq]
  rw [max_def]
  by_cases h : old < |f y x - Spec.lfMean f y x| * sd
  · rw [if_pos h, if_pos h.le]
  · rw [if_neg h]
    by_cases h' : old ≤ |f y x - Spec.lfMean f y x| * sd
    · rw [if_pos h']
      exact le_antisymm h' (not_lt.1 h)
    · rw [if_neg h']

theorem lfStrength_eq (g : ℚ) : codeStrength g = max 0 (3 - 4 * g) := by
  unfold codeStrength
  simp only [Arith.lt, Arith.lit, decide_eq_true_eq]
  rw [max_def]
  by_cases h : (0 : ℚ) < 3 - 4 * g
  · rw [if_pos h, if_pos h.le]
  · rw [if_neg h]
    by_cases h' : (0 : ℚ) ≤ 3 - 4 * g
    · rw [if_pos h']
      exact le_antisymm h' (not_lt.1 h)
    · rw [if_neg h']

theorem codeGap_ge (f : Nat → Nat → Nat → ℚ) (step : Nat → ℚ) (y x : Nat) :
    1 / 2 ≤ codeGap f step y x ∧ ∀ c, c < 3 → |f c y x - Spec.lfMean (f c) y x| * step c ≤ codeGap f step y x := by
  unfold codeGap
  simp only [gapStep_eq]
  refine ⟨le_max_of_le_left (le_max_of_le_left (le_max_left _ _)), fun c hc => ?_⟩
  rcases c with _ | _ | _ | c
  · exact le_max_of_le_left (le_max_of_le_left (le_max_right _ _))
  · exact le_max_of_le_left (le_max_right _ _)
  · exact le_max_right _ _
  · omega

theorem codeGap_le {f : Nat → Nat → Nat → ℚ} {step : Nat → ℚ} {y x : Nat} {g : ℚ} (hg : 1 / 2 ≤ g) (h : ∀ c, c < 3 → |f c y x - Spec.lfMean (f c) y x| * step c ≤ g) :
    codeGap f step y x ≤ g := by
  unfold codeGap
  simp only [gapStep_eq]
  exact max_le (max_le (max_le hg (h 0 (by omega))) (h 1 (by omega))) (h 2 (by omega))

end

end Jxl
