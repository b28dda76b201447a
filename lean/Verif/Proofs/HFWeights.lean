import Verif.Props.HFGlobal

/-! # Quantization matrices in exact arithmetic -/
namespace Jxl

theorem lt_real (a b : ℝ) : Arith.lt a b = true ↔ a < b := by
  show @decide (a < b) (Classical.propDecidable _) = true ↔ _
  exact decide_eq_true_iff

theorem lit_real (q : ℚ) : (Arith.lit q : ℝ) = (q : ℝ) := rfl

theorem diag_pos : 0 < Real.sqrt 2 + 1 / 10 ^ 6 := by positivity

theorem trunc_exact {x : ℝ} (h : 0 ≤ x) : Spec.exactQuant.trunc x = ⌊x⌋ := if_pos h

/-- The place of a cell is its distance from the corner times the number of steps. -/
theorem bandPos_exact (n h w y x : Nat) (hn : 1 ≤ n) (hh : 2 ≤ h) (hw : 2 ≤ w) : bandPos Spec.exactQuant n h w y x = ((n - 1 : Nat) : ℝ) * Spec.distance h w y x := by
  have hs : (0 : ℝ) < Real.sqrt 2 + 1 / 10 ^ 6 := diag_pos
  unfold bandPos Spec.distance
  simp only [lit_real]
  show Real.sqrt _ = _
  change Real.sqrt (_ * (_ / (Real.sqrt 2 + 1 / 10 ^ 6)) / _ * (_ * (_ / (Real.sqrt 2 + 1 / 10 ^ 6)) / _) + _ * (_ / (Real.sqrt 2 + 1 / 10 ^ 6)) / _ * (_ * (_ / (Real.sqrt 2 + 1 / 10 ^ 6)) / _)) = _
  have e1 : ((((n : Int) - 1 : Int) : ℚ) : ℝ) = ((n - 1 : Nat) : ℝ) := by
    rw [Nat.cast_sub hn]
    push_cast
    ring
  have e2 : ((((h : Int) - 1 : Int) : ℚ) : ℝ) = (h : ℝ) - 1 := by push_cast; ring
  have e3 : ((((w : Int) - 1 : Int) : ℚ) : ℝ) = (w : ℝ) - 1 := by push_cast; ring
  rw [e1, e2, e3]
  have e4 : (((y : ℚ)) : ℝ) = (y : ℝ) := by push_cast; ring
  have e5 : (((x : ℚ)) : ℝ) = (x : ℝ) := by push_cast; ring
  rw [e4, e5]
  have hN : (0 : ℝ) ≤ ((n - 1 : Nat) : ℝ) := Nat.cast_nonneg _
  generalize ((n - 1 : Nat) : ℝ) = N at *
  generalize Real.sqrt 2 + 1 / 10 ^ 6 = D at *
  have e6 : (x : ℝ) * (N / D) / ((w : ℝ) - 1) * ((x : ℝ) * (N / D) / ((w : ℝ) - 1)) + (y : ℝ) * (N / D) / ((h : ℝ) - 1) * ((y : ℝ) * (N / D) / ((h : ℝ) - 1)) =
      (N / D) ^ 2 * (((x : ℝ) / (w - 1)) ^ 2 + ((y : ℝ) / (h - 1)) ^ 2) := by ring
  rw [e6, Real.sqrt_mul (sq_nonneg _), Real.sqrt_sq (div_nonneg hN (le_of_lt hs))]
  ring

theorem distance_nonneg (h w y x : Nat) : 0 ≤ Spec.distance h w y x := by
  unfold Spec.distance
  exact div_nonneg (Real.sqrt_nonneg _) (le_of_lt diag_pos)

theorem grounded_exact : Spec.Grounded Spec.exactQuant := by
  constructor
  · intro n h w y x hn _ hh _ hw _ _ _
    have : (0 : ℝ) ≤ bandPos Spec.exactQuant n h w y x := by
      rw [bandPos_exact n h w y x hn hh hw]
      exact mul_nonneg (Nat.cast_nonneg _) (distance_nonneg _ _ _ _)
    rw [trunc_exact this]
    exact Int.floor_nonneg.2 this
  · intro q hq _
    have : (0 : ℝ) ≤ (Arith.lit q : ℝ) := by
      rw [lit_real]
      exact_mod_cast hq
    rw [trunc_exact this]
    exact Int.floor_nonneg.2 this

theorem quantMult_exact (v : ℝ) : quantMult v = Spec.growth v := by
  unfold quantMult Spec.growth
  have e0 : (Arith.lit 0 : ℝ) = 0 := by rw [lit_real]; norm_num
  have e1 : (Arith.lit 1 : ℝ) = 1 := by rw [lit_real]; norm_num
  rw [e0, e1]
  by_cases h : v < 0
  · rw [if_pos ((lt_real _ _).2 h), if_pos h]
  · rw [if_neg (fun hc => h ((lt_real _ _).1 hc)), if_neg h]

theorem growth_pos (v : ℝ) : 0 < Spec.growth v := by
  unfold Spec.growth
  by_cases h : v < 0
  · rw [if_pos h]
    exact div_pos one_pos (by linarith)
  · rw [if_neg h]
    linarith [not_lt.1 h]

theorem bandsFrom_exact : ∀ (ps : List ℚ) (b : ℝ) (i : Nat), i ≤ ps.length → (bandsFrom b ps)[i]? = some (b * ∏ k ∈ Finset.range i, Spec.growth (ps.getD k 0 : ℚ))
  | ps, b, 0, _ => by
    rcases ps with _ | ⟨p, ps⟩ <;> simp [bandsFrom]
  | [], b, i + 1, h => by simp at h
  | p :: ps, b, i + 1, h => by
    rw [bandsFrom, List.getElem?_cons_succ, bandsFrom_exact ps _ i (by simpa using h), Finset.prod_range_succ', quantMult_exact, lit_real]
    simp only [List.getD_cons_succ, List.getD_cons_zero]
    congr 1
    ring

theorem bandsOf_exact {ps : List ℚ} {bands : List ℝ} (hb : bandsOf ps = .ok bands) {i : Nat} (hi : i < ps.length) : bands[i]? = some (Spec.band ps i) := by
  rcases ps with _ | ⟨p, ps⟩
  · simp at hi
  · cases hb
    rw [bandsFrom_exact ps _ i (by simp at hi; omega)]
    unfold Spec.band
    rw [lit_real, List.getD_cons_zero]
    simp only [List.getD_cons_succ]

/-- A place between bands is on the curve. -/
theorem interpolate_exact {ps : List ℚ} {bands : List ℝ} (hb : bandsOf ps = .ok bands) (hl : bands.length = ps.length) (hp : ps ≠ []) {t : ℝ} (ht : 0 ≤ t) :
    interpolate Spec.exactQuant t bands = .ok (Spec.curve ps t) := by
  have h0 : 0 < ps.length := List.length_pos_iff.2 hp
  have key : ∀ i : Nat, i < ps.length → idx bands (i : Int) = .ok (Spec.band ps i) := fun i hi => idx_nat (bandsOf_exact hb hi)
  unfold interpolate Spec.curve
  rw [trunc_exact ht, hl]
  dsimp only
  have hf : ⌊t⌋ = ((⌊t⌋₊ : Nat) : Int) := (Int.natCast_floor_eq_floor ht).symm
  have hlt : ((ps.length - 1 : Nat) : ℝ) ≤ t ↔ ps.length - 1 ≤ ⌊t⌋₊ := (Nat.le_floor_iff ht).symm
  rw [hf]
  generalize ⌊t⌋₊ = k at *
  by_cases h1 : (ps.length : Int) - 1 = 0
  · rw [if_pos h1, if_pos (hlt.2 (by omega)), show ps.length - 1 = 0 by omega]
    exact key 0 h0
  · rw [if_neg h1]
    by_cases h2 : (ps.length : Int) - 1 < (k : Int) + 1
    · rw [if_pos h2, if_pos (hlt.2 (by omega)), show (ps.length : Int) - 1 = ((ps.length - 1 : Nat) : Int) by omega]
      exact key _ (by omega)
    · rw [if_neg h2, if_neg (fun h => h2 (by have := hlt.1 h; omega)), key k (by omega), Res.bind_ok, show (k : Int) + 1 = ((k + 1 : Nat) : Int) by omega, key (k + 1) (by omega), Res.bind_ok]
      have e : (Arith.lit (((k : Nat) : Int) : Rat) : ℝ) = (k : ℝ) := by
        rw [lit_real]
        norm_num
      rw [e]
      rfl

/-- The matrix of a curve. -/
theorem dctQuantWeights_exact {h w : Nat} (hh : 2 ≤ h ∧ h ≤ 256) (hw : 2 ≤ w ∧ w ≤ 256) {ps : List ℚ} (hp : ps ≠ [] ∧ ps.length ≤ 16) :
    ∃ m, dctQuantWeights Spec.exactQuant h w ps = .ok m ∧ HoldsMat h w (Spec.curveCell ps h w) m := by
  obtain ⟨bands, m, g, eb, hl, e, hm, hg⟩ := dctQuantWeights_ok grounded_exact hh hw hp
  refine ⟨m, e, hm.congr fun y x hy hx => ?_⟩
  have h0 : 0 < ps.length := List.length_pos_iff.2 hp.1
  have := hg y x hy hx
  rw [bandPos_exact _ _ _ _ _ h0 hh.1 hw.1, interpolate_exact eb hl hp.1 (mul_nonneg (Nat.cast_nonneg _) (distance_nonneg _ _ _ _))] at this
  exact (Res.ok.inj this).symm

theorem band_pos {ps : List ℚ} (h : 0 < ps.headD 0) (i : Nat) : 0 < Spec.band ps i := by
  unfold Spec.band
  refine mul_pos ?_ (Finset.prod_pos fun k _ => growth_pos _)
  rcases ps with _ | ⟨p, ps⟩
  · simp at h
  · have h' : 0 < p := h
    rw [List.getD_cons_zero]
    exact_mod_cast h'

theorem curve_pos {ps : List ℚ} (h : 0 < ps.headD 0) (t : ℝ) : 0 < Spec.curve ps t := by
  unfold Spec.curve
  split
  · exact band_pos h _
  · exact mul_pos (band_pos h _) (Real.rpow_pos_of_pos (div_pos (band_pos h _) (band_pos h _)) _)

theorem channel_get {m : List (List ℚ)} {c : Nat} {r : List ℚ} (h : m[c]? = some r) (i : Nat) : Spec.channel m c i = r.getD i 0 := by
  unfold Spec.channel
  rw [show m.getD c [] = r by rw [List.getD_eq_getElem?_getD, h]; rfl]

theorem getD_of {β : Type} {m : List β} {c : Nat} {r d : β} (h : m[c]? = some r) : m.getD c d = r := by
  rw [List.getD_eq_getElem?_getD, h]
  rfl

attribute [local irreducible] assign

/-- The numbers before they are inverted. -/
theorem channel_exact {i h w : Nat} {p : DCTParam} (hs : Spec.matrixSize[i]? = some (h, w)) (hp : Spec.ParamShape i p) {tt : TransformType} (hth : tt.matrixHeight = h) (htw : tt.matrixWidth = w)
    (hh : 2 ≤ h ∧ h ≤ 256) (hw : 2 ≤ w ∧ w ≤ 256) {c : Nat} (hc : c < 3) (h5 : p.mode ≠ 5) (h7 : p.mode ≠ 7) :
    ∃ m, channelWeights Spec.exactQuant tt p c = .ok m ∧ HoldsMat h w (Spec.coarseness p h w c) m := by
  obtain ⟨h', w', hs', hp⟩ := hp
  rw [hs] at hs'
  cases hs'
  unfold channelWeights
  have l1 : (Arith.lit 1 : ℝ) = 1 := by rw [lit_real]; norm_num
  rcases hp with ⟨hm, hsz, hp⟩ | ⟨hm, hsz, hp⟩ | ⟨hm, hsz, hp, hd⟩ | ⟨hm, hsz, hp, hd⟩ | ⟨hm, hsz, hp, hd, h4⟩ | ⟨hm, hd⟩ | ⟨hm, hp⟩
  · cases hsz
    obtain ⟨r, er, e, l⟩ := rows_get hp hc
    obtain ⟨a, b, d, rfl⟩ := length3 l
    rw [if_neg (by omega), if_neg (by omega), if_neg (by omega), if_pos hm, e, Res.bind_ok]
    refine (weightsHornuss_ok (α := ℝ) a b d).elim fun m hm' => ⟨m, hm'.1, hm'.2.congr fun y x hy hx => ?_⟩
    unfold Spec.coarseness
    rw [if_neg (show ¬p.mode = 6 by omega), if_pos hm, l1]
    simp only [channel_get er]
    rfl
  · cases hsz
    obtain ⟨r, er, e, l⟩ := rows_get hp hc
    obtain ⟨a, b, d, a', b', d', rfl⟩ := length6 l
    rw [if_neg (by omega), if_neg (by omega), if_pos hm, e, Res.bind_ok]
    refine (weightsDCT2_ok (α := ℝ) a b d a' b' d').elim fun m hm' => ⟨m, hm'.1, hm'.2.congr fun y x hy hx => ?_⟩
    unfold Spec.coarseness
    rw [if_neg (show ¬p.mode = 6 by omega), if_neg (show ¬p.mode = 1 by omega), if_pos hm, l1]
    simp only [channel_get er, lit_real]
    have hch : ∀ (P : Prop) [Decidable P] (j k : Nat), ((if P then [a, b, d, a', b', d'].getD j 0 else [a, b, d, a', b', d'].getD k 0 : ℚ) : ℝ) =
        (([a, b, d, a', b', d'].getD (if P then j else k) 0 : ℚ) : ℝ) := by
      intro P _ j k
      split <;> rfl
    rw [← hch, ← hch, ← hch]
    rfl
  · cases hsz
    obtain ⟨r, er, e, l⟩ := rows_get hp hc
    obtain ⟨a, b, rfl⟩ := length2 l
    obtain ⟨d, ed', ed, ld⟩ := curves_get hd hc
    obtain ⟨m0, e0, h0⟩ := dctQuantWeights_exact (h := 4) (w := 4) (by omega) (by omega) ld
    rw [if_neg (by omega), if_pos hm, ed, Res.bind_ok, e, Res.bind_ok]
    refine (weightsDCT4_ok e0 h0 a b).elim fun m hm' => ⟨m, hm'.1, hm'.2.congr fun y x hy hx => ?_⟩
    unfold Spec.coarseness
    rw [if_neg (show ¬p.mode = 6 by omega), if_neg (show ¬p.mode = 1 by omega), if_neg (show ¬p.mode = 2 by omega), if_pos hm, getD_of ed']
    simp only [channel_get er]
    by_cases h1 : y = 1 ∧ x = 1
    · rw [if_pos h1, if_pos h1, h1.1, h1.2]
      rfl
    · rw [if_neg h1, if_neg h1]
      by_cases h2 : y + x = 1
      · rw [if_pos h2, if_pos h2, show y / 2 = 0 by omega, show x / 2 = 0 by omega]
        rfl
      · rw [if_neg h2, if_neg h2]
        norm_num
  · cases hsz
    obtain ⟨r, er, e, l⟩ := rows_get hp hc
    obtain ⟨a, rfl⟩ := length1 l
    obtain ⟨d, ed', ed, ld⟩ := curves_get hd hc
    obtain ⟨m0, e0, h0⟩ := dctQuantWeights_exact (h := 4) (w := 8) (by omega) (by omega) ld
    rw [if_neg (by omega), if_neg (by omega), if_neg (by omega), if_neg (by omega), if_pos hm, ed, Res.bind_ok, e, Res.bind_ok]
    refine (weightsDCT48_ok e0 h0 a).elim fun m hm' => ⟨m, hm'.1, hm'.2.congr fun y x hy hx => ?_⟩
    unfold Spec.coarseness
    rw [if_neg (show ¬p.mode = 6 by omega), if_neg (show ¬p.mode = 1 by omega), if_neg (show ¬p.mode = 2 by omega), if_neg (show ¬p.mode = 3 by omega), getD_of ed']
    simp only [channel_get er]
    by_cases h1 : y = 1 ∧ x = 0
    · rw [if_pos h1, if_pos h1, h1.1, h1.2]
      rfl
    · rw [if_neg h1, if_neg h1]
      norm_num
  · exact absurd hm h5
  · obtain ⟨d, ed', ed, ld⟩ := curves_get hd hc
    obtain ⟨m, e, h⟩ := dctQuantWeights_exact hh hw ld
    rw [if_pos hm, ed, Res.bind_ok, hth, htw]
    refine ⟨m, e, h.congr fun y x _ _ => ?_⟩
    unfold Spec.coarseness
    rw [if_pos hm, getD_of ed']
  · exact absurd hm h7

/-- The inverses of numbers that are not negative. -/
theorem invert_exact {h w : Nat} {g : Nat → Nat → ℝ} {m : List (List ℝ)} (hm : HoldsMat h w g m) :
    ((∀ y x, y < h → x < w → 0 ≤ g y x) → ∃ m', invertWeights Spec.exactQuant h w m = .ok m' ∧ HoldsMat h w (fun y x => 1 / g y x) m') ∧
    ((∃ y x, y < h ∧ x < w ∧ g y x < 0) → invertWeights Spec.exactQuant h w m = .err) := by
  have l1 : (Arith.lit 1 : ℝ) = 1 := by rw [lit_real]; norm_num
  have l0 : (Arith.lit 0 : ℝ) = 0 := by rw [lit_real]; norm_num
  have hb : ∀ v : ℝ, (Arith.lt v (Arith.lit 0) || Spec.exactQuant.isInf v) = true ↔ v < 0 := by
    intro v
    rw [l0, show Spec.exactQuant.isInf v = false from rfl, Bool.or_false]
    exact lt_real v 0
  have hf : ∀ y x, y < h → x < w → (do
      let v ← at2 m (y : Int) (x : Int)
      if Arith.lt v (Arith.lit 0) || Spec.exactQuant.isInf v then Res.err else Res.ok (Arith.lit 1 / v)) = if g y x < 0 then .err else .ok (1 / g y x) := by
    intro y x hy hx
    rw [hm.at2 hy hx, Res.bind_ok, l1]
    by_cases h0 : g y x < 0
    · rw [if_pos h0, if_pos ((hb _).2 h0)]
    · rw [if_neg h0, if_neg (fun hc => h0 ((hb _).1 hc))]
  constructor
  · intro hp
    unfold invertWeights
    refine tabulate_ok (fun y x hy hx => ?_)
    rw [hf y x hy hx, if_neg (not_lt.2 (hp y x hy hx))]
  · rintro ⟨y, x, hy, hx, h0⟩
    unfold invertWeights
    rcases tabulate_cases (h := h) (w := w) (f := fun y x => do
        let v ← at2 m (y : Int) (x : Int)
        if Arith.lt v (Arith.lit 0) || Spec.exactQuant.isInf v then Res.err else Res.ok (Arith.lit 1 / v)) (by
      intro y x hy hx
      rw [hf y x hy hx]
      split <;> simp) with e | ⟨m', _, _, hm'⟩
    · exact e
    · obtain ⟨v, _, hv⟩ := hm' y x hy hx
      rw [hf y x hy hx, if_pos h0] at hv
      cases hv

/-- Three matrices, the inverses of three others. -/
theorem generate_exact {i h w : Nat} {p : DCTParam} (hs : Spec.matrixSize[i]? = some (h, w)) (h7 : p.mode ≠ 7) {g : Nat → Nat → Nat → ℝ}
    (hg : ∀ tt : TransformType, tt.matrixHeight = h → tt.matrixWidth = w → ∀ c, c < 3 → ∃ m, channelWeights Spec.exactQuant tt p c = .ok m ∧ HoldsMat h w (g c) m) :
    ((∀ c y x, c < 3 → y < h → x < w → 0 ≤ g c y x) →
      ∃ ws, generateWeights Spec.exactQuant p i = .ok ws ∧ ws.length = 3 ∧ ∀ (c : Nat) m, ws[c]? = some m → HoldsMat h w (fun y x => 1 / g c y x) m) ∧
    ((∃ c y x, c < 3 ∧ y < h ∧ x < w ∧ g c y x < 0) → generateWeights Spec.exactQuant p i = .err) := by
  obtain ⟨tt, et, hth, htw, _, _⟩ := horizontal_size hs
  obtain ⟨m0, e0, h0⟩ := hg tt hth htw 0 (by omega)
  obtain ⟨m1, e1, h1⟩ := hg tt hth htw 1 (by omega)
  obtain ⟨m2, e2, h2⟩ := hg tt hth htw 2 (by omega)
  have eg : generateWeights Spec.exactQuant p i = (do
      let a ← invertWeights Spec.exactQuant h w m0
      let b ← invertWeights Spec.exactQuant h w m1
      let c ← invertWeights Spec.exactQuant h w m2
      .ok [a, b, c]) := by
    unfold generateWeights
    rw [et, Res.bind_ok, e0, Res.bind_ok, e1, Res.bind_ok, e2, Res.bind_ok, if_neg h7, hth, htw]
  rw [eg]
  constructor
  · intro hp
    obtain ⟨a, ea, ha⟩ := (invert_exact h0).1 (fun y x hy hx => hp 0 y x (by omega) hy hx)
    obtain ⟨b, eb, hb⟩ := (invert_exact h1).1 (fun y x hy hx => hp 1 y x (by omega) hy hx)
    obtain ⟨c, ec, hc⟩ := (invert_exact h2).1 (fun y x hy hx => hp 2 y x (by omega) hy hx)
    refine ⟨[a, b, c], ?_, rfl, fun k m hk => ?_⟩
    · rw [ea, Res.bind_ok, eb, Res.bind_ok, ec, Res.bind_ok]
    · rcases k with _ | _ | _ | k
      · cases hk; exact ha
      · cases hk; exact hb
      · cases hk; exact hc
      · simp at hk
  · rintro ⟨c, y, x, hc, hy, hx, hneg⟩
    have s0 : (∃ m, invertWeights Spec.exactQuant h w m0 = .ok m) ∨ invertWeights Spec.exactQuant h w m0 = .err := by
      by_cases hall : ∀ y x, y < h → x < w → 0 ≤ g 0 y x
      · obtain ⟨m, e, _⟩ := (invert_exact h0).1 hall
        exact Or.inl ⟨m, e⟩
      · push Not at hall
        obtain ⟨y, x, hy, hx, hn⟩ := hall
        exact Or.inr ((invert_exact h0).2 ⟨y, x, hy, hx, hn⟩)
    have s1 : (∃ m, invertWeights Spec.exactQuant h w m1 = .ok m) ∨ invertWeights Spec.exactQuant h w m1 = .err := by
      by_cases hall : ∀ y x, y < h → x < w → 0 ≤ g 1 y x
      · obtain ⟨m, e, _⟩ := (invert_exact h1).1 hall
        exact Or.inl ⟨m, e⟩
      · push Not at hall
        obtain ⟨y, x, hy, hx, hn⟩ := hall
        exact Or.inr ((invert_exact h1).2 ⟨y, x, hy, hx, hn⟩)
    rcases s0 with ⟨a, ea⟩ | ea
    · rw [ea, Res.bind_ok]
      rcases s1 with ⟨b, eb⟩ | eb
      · rw [eb, Res.bind_ok]
        rcases c with _ | _ | _ | c
        · rw [(invert_exact h0).2 ⟨y, x, hy, hx, hneg⟩] at ea
          cases ea
        · rw [(invert_exact h1).2 ⟨y, x, hy, hx, hneg⟩] at eb
          cases eb
        · rw [(invert_exact h2).2 ⟨y, x, hy, hx, hneg⟩]
          rfl
        · omega
      · rw [eb]
        rfl
    · rw [ea]
      rfl

/-- Between the lowest and the highest frequency only the first two bands matter. -/
theorem interpolate_afv {b0 b1 b2 b3 : ℝ} {q : ℚ} (h0 : 0 ≤ q) (h1 : q ≤ 1) :
    interpolate Spec.exactQuant (Arith.lit q) [b0, b1, b2, b3] = .ok (if q = 1 then b1 else b0 * (b1 / b0) ^ (q : ℝ)) := by
  have ht : (0 : ℝ) ≤ (Arith.lit q : ℝ) := by
    rw [lit_real]
    exact_mod_cast h0
  unfold interpolate
  rw [trunc_exact ht, lit_real]
  dsimp only
  rw [if_neg (by simp)]
  by_cases hq : q = 1
  · subst hq
    have e : ⌊((1 : ℚ) : ℝ)⌋ = 1 := by norm_num
    rw [e, if_neg (by simp), if_pos rfl]
    have a1 : idx [b0, b1, b2, b3] 1 = .ok b1 := rfl
    have a2 : idx [b0, b1, b2, b3] (1 + 1) = .ok b2 := rfl
    rw [a1, Res.bind_ok, a2, Res.bind_ok]
    show Res.ok (b1 * (b2 / b1) ^ (((1 : ℚ) : ℝ) - Arith.lit _)) = _
    rw [lit_real]
    norm_num
  · have hlt : q < 1 := lt_of_le_of_ne h1 hq
    have e : ⌊((q : ℚ) : ℝ)⌋ = 0 := by
      rw [Int.floor_eq_zero_iff]
      exact ⟨by exact_mod_cast h0, by exact_mod_cast hlt⟩
    rw [e, if_neg (by simp), if_neg hq]
    have a1 : idx [b0, b1, b2, b3] 0 = .ok b0 := rfl
    have a2 : idx [b0, b1, b2, b3] (0 + 1) = .ok b1 := rfl
    rw [a1, Res.bind_ok, a2, Res.bind_ok]
    show Res.ok (b0 * (b1 / b0) ^ ((q : ℝ) - Arith.lit _)) = _
    rw [lit_real]
    norm_num

/-- The values of an AFV matrix, when its bands are accepted. -/
noncomputable def afvValue (r d f : List ℚ) : Nat → Nat → ℝ :=
  afvPart 1 (fun i => ((r.getD i 0 : ℚ) : ℝ)) (fun y x => if afvPos (y * 4 + x) = 1 then (r.getD 5 0 : ℚ) * Spec.growth (r.getD 6 0 : ℚ) else
    (r.getD 5 0 : ℚ) * (((r.getD 5 0 : ℚ) * Spec.growth (r.getD 6 0 : ℚ)) / (r.getD 5 0 : ℚ)) ^ (afvPos (y * 4 + x) : ℝ)) (Spec.curveCell d 4 8) (Spec.curveCell f 4 4)

theorem weightsAFV_exact {r d f : List ℚ} (hr : r.length = 9) (hd : d ≠ [] ∧ d.length ≤ 16) (hf : f ≠ [] ∧ f.length ≤ 16) :
    (0 ≤ r.getD 5 0 → ∃ m, weightsAFV Spec.exactQuant d f r = .ok m ∧ HoldsMat 8 8 (afvValue r d f) m) ∧ (r.getD 5 0 < 0 → weightsAFV Spec.exactQuant d f r = .err) := by
  have l1 : (Arith.lit 1 : ℝ) = 1 := by rw [lit_real]; norm_num
  have l0 : (Arith.lit 0 : ℝ) = 0 := by rw [lit_real]; norm_num
  obtain ⟨m48, e48, h48⟩ := dctQuantWeights_exact (h := 4) (w := 8) (by omega) (by omega) hd
  obtain ⟨m44, e44, h44⟩ := dctQuantWeights_exact (h := 4) (w := 4) (by omega) (by omega) hf
  have hg : ∀ i, i < 9 → (paramAt r i : Res ℝ) = .ok ((r.getD i 0 : ℚ) : ℝ) := by
    intro i hi
    rw [paramAt_ok (show i < r.length by omega), List.getD_eq_getElem?_getD, List.getElem?_eq_getElem (by omega)]
    rfl
  constructor
  · intro h5
    have h5' : (0 : ℝ) ≤ (r.getD 5 0 : ℚ) := by exact_mod_cast h5
    have nb : ∀ b v : ℝ, 0 ≤ b → ¬Arith.lt (b * quantMult v) (Arith.lit 0) = true ∧ 0 ≤ b * quantMult v := by
      intro b v hb
      have : 0 ≤ b * quantMult v := by
        rw [quantMult_exact]
        exact mul_nonneg hb (le_of_lt (growth_pos v))
      exact ⟨fun hc => not_lt.2 this (by rw [l0] at hc; exact (lt_real _ _).1 hc), this⟩
    have eb : ∃ b2 b3, (afvBands r : Res (List ℝ)) = .ok [((r.getD 5 0 : ℚ) : ℝ), (r.getD 5 0 : ℚ) * Spec.growth (r.getD 6 0 : ℚ), b2, b3] := by
      unfold afvBands
      rw [hg 5 (by omega), Res.bind_ok, if_neg (fun hc => not_lt.2 h5' (by rw [l0] at hc; exact (lt_real _ _).1 hc)), hg 6 (by omega), Res.bind_ok]
      dsimp only
      have n1 := nb _ (r.getD 6 0 : ℚ) h5'
      rw [if_neg n1.1, hg 7 (by omega), Res.bind_ok]
      have n2 := nb _ (r.getD 7 0 : ℚ) n1.2
      rw [if_neg n2.1, hg 8 (by omega), Res.bind_ok]
      have n3 := nb _ (r.getD 8 0 : ℚ) n2.2
      rw [if_neg n3.1, quantMult_exact]
      exact ⟨_, _, rfl⟩
    obtain ⟨b2, b3, eb⟩ := eb
    refine (weightsAFV_ok e48 h48 e44 h44 hr eb (v := fun y x => if afvPos (y * 4 + x) = 1 then (r.getD 5 0 : ℚ) * Spec.growth (r.getD 6 0 : ℚ) else
      (r.getD 5 0 : ℚ) * (((r.getD 5 0 : ℚ) * Spec.growth (r.getD 6 0 : ℚ)) / (r.getD 5 0 : ℚ)) ^ (afvPos (y * 4 + x) : ℝ)) (fun y x _ _ _ h0 h1 => interpolate_afv h0 h1)).elim
      fun m hm => ⟨m, hm.1, hm.2.congr fun y x _ _ => ?_⟩
    unfold afvValue
    rw [l1]
    rfl
  · intro h5
    have h5' : ((r.getD 5 0 : ℚ) : ℝ) < 0 := by exact_mod_cast h5
    unfold weightsAFV afvBands
    rw [e48, Res.bind_ok, e44, Res.bind_ok, hg 5 (by omega), Res.bind_ok, if_pos (by rw [l0]; exact (lt_real _ _).2 h5')]
    rfl

end Jxl
