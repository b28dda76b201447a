import Verif.Proofs.HFWeights
import Verif.Proofs.Output

/-! # C74, C75: usable weights, custom matrices -/
namespace Jxl

attribute [local irreducible] assign

/-! ## C74 -/

theorem getD_pos {p : DCTParam} (hP : Spec.Positive p) (h5 : p.mode ≠ 5) {c i n : Nat} (hc : c < 3) (hr : Spec.Rows n p.param) (hi : i < n) : (0 : ℝ) < (Spec.channel p.param c i : ℚ) := by
  obtain ⟨r, er, _, l⟩ := rows_get hr hc
  rw [channel_get er]
  have hl : i < r.length := by omega
  have := hP.2.2.1 r (List.mem_of_getElem? er) r[i] (by rw [if_neg h5]; exact List.getElem_mem hl)
  rw [List.getD_eq_getElem?_getD, List.getElem?_eq_getElem hl]
  exact_mod_cast this

theorem curveCell_pos {m : List (List ℚ)} (hm : ∀ r ∈ m, 0 < r.headD 0) (hC : Spec.Curves m) {c : Nat} (hc : c < 3) (h w y x : Nat) : 0 < Spec.curveCell (m.getD c []) h w y x := by
  obtain ⟨d, ed, _, _⟩ := curves_get hC hc
  rw [getD_of ed]
  exact curve_pos (hm d (List.mem_of_getElem? ed)) _

theorem coarseness_pos {i : Nat} {p : DCTParam} (hp : Spec.ParamShape i p) (hP : Spec.Positive p) (h5 : p.mode ≠ 5) (h7 : p.mode ≠ 7) {c : Nat} (hc : c < 3) (h w y x : Nat) :
    0 < Spec.coarseness p h w c y x := by
  obtain ⟨h', w', _, hp⟩ := hp
  unfold Spec.coarseness
  rcases hp with ⟨hm, hsz, hp⟩ | ⟨hm, hsz, hp⟩ | ⟨hm, hsz, hp, hd⟩ | ⟨hm, hsz, hp, hd⟩ | ⟨hm, hsz, hp, hd, h4⟩ | ⟨hm, hd⟩ | ⟨hm, hp⟩
  · rw [if_neg (show ¬p.mode = 6 by omega), if_pos hm]
    split
    · norm_num
    · split
      · exact getD_pos hP h5 hc hp (by omega)
      · split
        · exact getD_pos hP h5 hc hp (by omega)
        · exact getD_pos hP h5 hc hp (by omega)
  · rw [if_neg (show ¬p.mode = 6 by omega), if_neg (show ¬p.mode = 1 by omega), if_pos hm]
    split
    · norm_num
    · split
      · exact getD_pos hP h5 hc hp (by split <;> omega)
      · split
        · exact getD_pos hP h5 hc hp (by split <;> omega)
        · exact getD_pos hP h5 hc hp (by split <;> omega)
  · rw [if_neg (show ¬p.mode = 6 by omega), if_neg (show ¬p.mode = 1 by omega), if_neg (show ¬p.mode = 2 by omega), if_pos hm]
    refine div_pos (curveCell_pos hP.1 hd hc _ _ _ _) ?_
    split
    · exact getD_pos hP h5 hc hp (by omega)
    · split
      · exact getD_pos hP h5 hc hp (by omega)
      · norm_num
  · rw [if_neg (show ¬p.mode = 6 by omega), if_neg (show ¬p.mode = 1 by omega), if_neg (show ¬p.mode = 2 by omega), if_neg (show ¬p.mode = 3 by omega)]
    refine div_pos (curveCell_pos hP.1 hd hc _ _ _ _) ?_
    split
    · exact getD_pos hP h5 hc hp (by omega)
    · norm_num
  · exact absurd hm h5
  · rw [if_pos hm]
    exact curveCell_pos hP.1 hd hc _ _ _ _
  · exact absurd hm h7

theorem afvValue_pos {r d f : List ℚ} (hr : r.length = 9) (hp : ∀ v ∈ r.take 6, 0 < v) (hd : 0 < d.headD 0) (hf : 0 < f.headD 0) (y x : Nat) : 0 < afvValue r d f y x := by
  have hg : ∀ i, i < 6 → (0 : ℝ) < (r.getD i 0 : ℚ) := by
    intro i hi
    have hl : i < (r.take 6).length := by rw [List.length_take]; omega
    have := hp _ (List.getElem_mem hl)
    rw [List.getElem_take] at this
    rw [List.getD_eq_getElem?_getD, List.getElem?_eq_getElem (by omega)]
    exact_mod_cast this
  have h5 := hg 5 (by omega)
  have hb := mul_pos h5 (growth_pos (r.getD 6 0 : ℚ))
  unfold afvValue afvPart
  beta_reduce
  repeat' split
  all_goals first
    | exact hg _ (by omega)
    | exact curve_pos hd _
    | exact curve_pos hf _
    | exact one_pos
    | exact hb
    | exact mul_pos h5 (Real.rpow_pos_of_pos (div_pos hb h5) _)

/-- C74, in exact arithmetic: from positive parameters come positive weights. -/
theorem C74_positive {i h w : Nat} {p : DCTParam} (hs : Spec.matrixSize[i]? = some (h, w)) (hp : Spec.ParamShape i p) (hP : Spec.Positive p) :
    ∃ ws, generateWeights Spec.exactQuant p i = .ok ws ∧ ws.length = 3 ∧ ∀ m ∈ ws, Table h w m ∧ ∀ y x v, sample m y x = some v → 0 < v := by
  have fin : ∀ {g : Nat → Nat → Nat → ℝ} {ws : List (List (List ℝ))}, ws.length = 3 → (∀ (c : Nat) m, ws[c]? = some m → HoldsMat h w (fun y x => g c y x) m) → (∀ c y x, c < 3 → y < h → x < w → 0 < g c y x) →
      ∀ m ∈ ws, Table h w m ∧ ∀ y x v, sample m y x = some v → 0 < v := by
    intro g ws hl hws hg m hm
    obtain ⟨c, hc, rfl⟩ := List.mem_iff_getElem.1 hm
    have hH := hws c _ (List.getElem?_eq_getElem hc)
    refine ⟨hH.1, fun y x v hv => ?_⟩
    obtain ⟨hy, hx⟩ := Table.sample_lt hH.1 hv
    rw [hH.2 y x hy hx] at hv
    cases hv
    exact hg c y x (by omega) hy hx
  by_cases h7 : p.mode = 7
  · obtain ⟨h', w', hs', hp'⟩ := id hp
    rw [hs] at hs'
    cases hs'
    rcases hp' with ⟨hm, _⟩ | ⟨hm, _⟩ | ⟨hm, _⟩ | ⟨hm, _⟩ | ⟨hm, _⟩ | ⟨hm, _⟩ | ⟨_, hr⟩
    iterate 6 omega
    obtain ⟨tt, et, hth, htw, _, _⟩ := horizontal_size hs
    have key : ∀ c, c < 3 → ∃ m, channelWeights Spec.exactQuant tt p c = .ok m ∧ HoldsMat h w (fun y x => ((Spec.channel p.param c (y * w + x) : ℚ) : ℝ) * (p.den : ℚ)) m := by
      intro c hc
      obtain ⟨r, er, e, l⟩ := rows_get hr hc
      unfold channelWeights
      rw [if_neg (by omega), if_neg (by omega), if_neg (by omega), if_neg (by omega), if_neg (by omega), if_neg (by omega), if_pos h7, e, Res.bind_ok, hth, htw]
      unfold weightsRaw
      refine tabulate_ok fun y x hy hx => ?_
      have hb : y * w + x < r.length := by
        rw [l]
        calc y * w + x < y * w + w := by omega
          _ = (y + 1) * w := by rw [Nat.succ_mul]
          _ ≤ h * w := Nat.mul_le_mul_right w hy
      rw [paramAt_ok hb, Res.bind_ok, channel_get er, List.getD_eq_getElem?_getD, List.getElem?_eq_getElem hb]
      rfl
    obtain ⟨a, ea, ha⟩ := key 0 (by omega)
    obtain ⟨b, eb, hb⟩ := key 1 (by omega)
    obtain ⟨c, ec, hc⟩ := key 2 (by omega)
    refine ⟨[a, b, c], ?_, rfl, fin (g := fun c y x => ((Spec.channel p.param c (y * w + x) : ℚ) : ℝ) * (p.den : ℚ)) rfl ?_ ?_⟩
    · unfold generateWeights
      rw [et, Res.bind_ok, ea, Res.bind_ok, eb, Res.bind_ok, ec, Res.bind_ok, if_pos h7]
    · intro k m hk
      rcases k with _ | _ | _ | k
      · cases hk; exact ha
      · cases hk; exact hb
      · cases hk; exact hc
      · simp at hk
    · intro c y x hc hy hx
      refine mul_pos (getD_pos hP (by omega) hc hr ?_) (by exact_mod_cast hP.2.2.2)
      calc y * w + x < y * w + w := by omega
        _ = (y + 1) * w := by rw [Nat.succ_mul]
        _ ≤ h * w := Nat.mul_le_mul_right w hy
  · by_cases h5 : p.mode = 5
    · obtain ⟨h', w', hs', hp'⟩ := id hp
      rw [hs] at hs'
      cases hs'
      rcases hp' with ⟨hm, _⟩ | ⟨hm, _⟩ | ⟨hm, _⟩ | ⟨hm, _⟩ | ⟨hm, hsz, hr, hd, hf⟩ | ⟨hm, _⟩ | ⟨hm, _⟩
      iterate 4 omega
      · cases hsz
        have hv : ∀ c : Nat, c < 3 → ∃ r d f, p.param[c]? = some r ∧ p.dct[c]? = some d ∧ p.p44[c]? = some f ∧ idx p.param (c : Int) = .ok r ∧ idx p.dct (c : Int) = .ok d ∧ idx p.p44 (c : Int) = .ok f ∧
            r.length = 9 ∧ (d ≠ [] ∧ d.length ≤ 16) ∧ (f ≠ [] ∧ f.length ≤ 16) ∧ ∀ y x, 0 < afvValue r d f y x := by
          intro c hc
          obtain ⟨r, er, ir, lr⟩ := rows_get hr hc
          obtain ⟨d, ed, id', ld⟩ := curves_get hd hc
          obtain ⟨f, ef, if', lf⟩ := curves_get hf hc
          refine ⟨r, d, f, er, ed, ef, ir, id', if', lr, ld, lf, fun y x => afvValue_pos lr ?_ (hP.1 d (List.mem_of_getElem? ed)) (hP.2.1 f (List.mem_of_getElem? ef)) y x⟩
          have := hP.2.2.1 r (List.mem_of_getElem? er)
          rwa [if_pos hm] at this
        have hex := (generate_exact (i := i) (h := 8) (w := 8) (p := p) hs h7 (g := fun c => afvValue (p.param.getD c []) (p.dct.getD c []) (p.p44.getD c [])) (by
          intro tt _ _ c hc
          obtain ⟨r, d, f, er, ed, ef, ir, id', if', lr, ld, lf, hpos⟩ := hv c hc
          rw [getD_of er, getD_of ed, getD_of ef]
          unfold channelWeights
          rw [if_neg (by omega), if_neg (by omega), if_neg (by omega), if_neg (by omega), if_neg (by omega), if_pos hm, id', Res.bind_ok, if', Res.bind_ok, ir, Res.bind_ok]
          refine (weightsAFV_exact lr ld lf).1 ?_
          have h5 := hP.2.2.1 r (List.mem_of_getElem? er)
          rw [if_pos hm] at h5
          have hl : 5 < (r.take 6).length := by rw [List.length_take]; omega
          have := h5 _ (List.getElem_mem hl)
          rw [List.getElem_take] at this
          rw [List.getD_eq_getElem?_getD, List.getElem?_eq_getElem (by omega)]
          exact le_of_lt this)).1 (by
          intro c y x hc _ _
          obtain ⟨r, d, f, er, ed, ef, _, _, _, _, _, _, hpos⟩ := hv c hc
          rw [getD_of er, getD_of ed, getD_of ef]
          exact le_of_lt (hpos y x))
        obtain ⟨ws, e, l, hws⟩ := hex
        refine ⟨ws, e, l, fin (g := fun c y x => 1 / afvValue (p.param.getD c []) (p.dct.getD c []) (p.p44.getD c []) y x) l hws fun c y x hc _ _ => ?_⟩
        obtain ⟨r, d, f, er, ed, ef, _, _, _, _, _, _, hpos⟩ := hv c hc
        rw [getD_of er, getD_of ed, getD_of ef]
        exact div_pos one_pos (hpos y x)
      · omega
      · omega
    · obtain ⟨ws, e, l, hws⟩ := (generate_exact (g := Spec.coarseness p h w) hs h7 (fun tt hth htw c hc => by
        obtain ⟨_, _, _, _, hh, hw⟩ := horizontal_size hs
        exact channel_exact hs hp hth htw hh hw hc h5 h7)).1 (fun c y x hc _ _ => le_of_lt (coarseness_pos hp hP h5 h7 hc _ _ _ _))
      exact ⟨ws, e, l, fin l hws fun c y x hc _ _ => div_pos one_pos (coarseness_pos hp hP h5 h7 hc _ _ _ _)⟩

theorem default_positive {p : DCTParam} (h : p ∈ defaultParams) : Spec.Positive p := by
  have : ∀ p ∈ defaultParams, (∀ r ∈ p.dct, 0 < r.headD 0) ∧ (∀ r ∈ p.p44, 0 < r.headD 0) ∧ (∀ r ∈ p.param, ∀ v ∈ (if p.mode = 5 then r.take 6 else r), 0 < v) ∧ 0 < p.den := by decide +kernel
  exact this p h

theorem allWeights_positive : ∀ (ps : List DCTParam) (i : Nat), (∀ k p, ps[k]? = some p → Spec.ParamShape (i + k) p ∧ Spec.Positive p) →
    ∃ W, allWeights Spec.exactQuant ps i = .ok W ∧ W.length = ps.length ∧ ∀ ws ∈ W, ∀ m ∈ ws, ∀ y x v, sample m y x = some v → 0 < v
  | [], _, _ => ⟨[], rfl, rfl, fun ws h => by cases h⟩
  | p :: ps, i, hp => by
    obtain ⟨h0, h1⟩ := hp 0 p rfl
    rw [Nat.add_zero] at h0
    obtain ⟨h, w, hs, _⟩ := id h0
    obtain ⟨ws, e, _, hws⟩ := C74_positive hs h0 h1
    obtain ⟨W, e', l, hW⟩ := allWeights_positive ps (i + 1) (fun k q hk => by
      have := hp (k + 1) q hk
      rwa [show i + (k + 1) = i + 1 + k by omega] at this)
    refine ⟨ws :: W, ?_, by simp [l], fun ws' hw => ?_⟩
    · rw [allWeights, e, Res.bind_ok, e', Res.bind_ok]
    · rcases List.mem_cons.1 hw with rfl | hw
      · exact fun m hm => (hws m hm).2
      · exact hW ws' hw

/-- C74. The default matrices are accepted, and all their weights are positive. -/
theorem C74_defaults : ∃ W, allWeights Spec.exactQuant defaultParams 0 = .ok W ∧ W.length = 17 ∧ ∀ ws ∈ W, ∀ m ∈ ws, ∀ y x v, sample m y x = some v → 0 < v := by
  obtain ⟨W, e, l, h⟩ := allWeights_positive defaultParams 0 (fun k p hk => by
    rw [Nat.zero_add]
    exact ⟨default_shape hk, default_positive (List.mem_of_getElem? hk)⟩)
  exact ⟨W, e, l, h⟩

/-- C74 fails: a stream may ask for weights that are not finite. In `float32`, zeros for the mode Hornuss are accepted, and the weights are infinite. -/
theorem C74_zero_fails (F : QuantFuncs F32) (h0 : F.isInf (.fin 0) = false) (h1 : F.isInf (.fin 1) = false) (readRaw : Nat → Nat → Nat → Rd (List (List (List Int)))) :
    ∃ p ws m, (setupDCTParam readRaw 1 (BR.new [0x01, 0, 0, 0, 0, 0, 0, 0, 0, 0, 0, 0, 0, 0, 0, 0, 0, 0, 0])).1 = .ok p ∧ generateWeights F p 1 = .ok ws ∧ ws[0]? = some m ∧ sample m 7 7 = some (.inf false) := by
  have z : ∀ c : Nat, c < 3 → idx [[(64 * 0 : ℚ), 64 * 0, 64 * 0], [64 * 0, 64 * 0, 64 * 0], [64 * 0, 64 * 0, 64 * 0]] (c : Int) = .ok [(64 * 0 : ℚ), 64 * 0, 64 * 0] := by
    intro c hc
    interval_cases c <;> rfl
  have key : ∀ tt c, c < 3 → ∃ m, channelWeights F tt ⟨[], [[(64 * 0 : ℚ), 64 * 0, 64 * 0], [64 * 0, 64 * 0, 64 * 0], [64 * 0, 64 * 0, 64 * 0]], 1, 1, []⟩ c = .ok m ∧
      HoldsMat 8 8 (fun y x => if y = 0 ∧ x = 0 then F32.fin 1 else .fin 0) m := by
    intro tt c hc
    unfold channelWeights
    rw [if_neg (by simp), if_neg (by simp), if_neg (by simp), if_pos rfl, z c hc, Res.bind_ok]
    refine (weightsHornuss_ok (α := F32) (64 * 0) (64 * 0) (64 * 0)).elim fun m hm => ⟨m, hm.1, hm.2.congr fun y x _ _ => ?_⟩
    have e1 : (Arith.lit 1 : F32) = .fin 1 := by decide +kernel
    have e0 : (Arith.lit (64 * 0) : F32) = .fin 0 := by decide +kernel
    rw [e1, e0]
    by_cases h : y = 0 ∧ x = 0
    · rw [if_pos h, if_pos h]
    · rw [if_neg h, if_neg h, ite_self, ite_self]
  have inv : ∀ m : List (List F32), HoldsMat 8 8 (fun y x => if y = 0 ∧ x = 0 then F32.fin 1 else .fin 0) m →
      ∃ m', invertWeights F 8 8 m = .ok m' ∧ HoldsMat 8 8 (fun y x => if y = 0 ∧ x = 0 then F32.fin 1 else .inf false) m' := by
    intro m hm
    unfold invertWeights
    refine tabulate_ok fun y x hy hx => ?_
    rw [hm.at2 hy hx, Res.bind_ok]
    by_cases h : y = 0 ∧ x = 0
    · rw [if_pos h, if_pos h, h1, show Arith.lt (F32.fin 1) (Arith.lit 0) = false by decide +kernel, if_neg (by simp)]
      exact congrArg Res.ok (by decide +kernel)
    · rw [if_neg h, if_neg h, h0, show Arith.lt (F32.fin 0) (Arith.lit 0) = false by decide +kernel, if_neg (by simp)]
      exact congrArg Res.ok (by decide +kernel)
  obtain ⟨tt, et, hth, htw, _, _⟩ := horizontal_size (i := 1) (h := 8) (w := 8) rfl
  obtain ⟨a, ea, ha⟩ := key tt 0 (by omega)
  obtain ⟨b, eb, hb⟩ := key tt 1 (by omega)
  obtain ⟨c, ec, hc⟩ := key tt 2 (by omega)
  obtain ⟨a', ea', ha'⟩ := inv a ha
  obtain ⟨b', eb', hb'⟩ := inv b hb
  obtain ⟨c', ec', hc'⟩ := inv c hc
  refine ⟨⟨[], [[(64 * 0 : ℚ), 64 * 0, 64 * 0], [64 * 0, 64 * 0, 64 * 0], [64 * 0, 64 * 0, 64 * 0]], 1, 1, []⟩, [a', b', c'], a', ?_, ?_, rfl, ?_⟩
  · have b1 : readBits 3 (BR.new [0x01, 0, 0, 0, 0, 0, 0, 0, 0, 0, 0, 0, 0, 0, 0, 0, 0, 0, 0]) =
        (.ok 1, (readBits 3 (BR.new [0x01, 0, 0, 0, 0, 0, 0, 0, 0, 0, 0, 0, 0, 0, 0, 0, 0, 0, 0])).2) := Prod.ext (by decide +kernel) rfl
    have b2 : (readMatrix 3 3 64 (readBits 3 (BR.new [0x01, 0, 0, 0, 0, 0, 0, 0, 0, 0, 0, 0, 0, 0, 0, 0, 0, 0, 0])).2).1 =
        .ok [[(64 * 0 : ℚ), 64 * 0, 64 * 0], [64 * 0, 64 * 0, 64 * 0], [64 * 0, 64 * 0, 64 * 0]] := by decide +kernel
    unfold setupDCTParam
    rw [Rd.bind_ok b1, if_neg (by decide), if_neg (by decide), if_pos rfl]
    generalize (readBits 3 (BR.new [0x01, 0, 0, 0, 0, 0, 0, 0, 0, 0, 0, 0, 0, 0, 0, 0, 0, 0, 0])).2 = s1 at *
    rw [Rd.bind_ok (Prod.ext b2 rfl : readMatrix 3 3 64 s1 = (.ok [[(64 * 0 : ℚ), 64 * 0, 64 * 0], [64 * 0, 64 * 0, 64 * 0], [64 * 0, 64 * 0, 64 * 0]], (readMatrix 3 3 64 s1).2))]
    rfl
  · unfold generateWeights
    rw [et, Res.bind_ok, ea, Res.bind_ok, eb, Res.bind_ok, ec, Res.bind_ok, if_neg (by simp), hth, htw, ea', Res.bind_ok, eb', Res.bind_ok, ec', Res.bind_ok]
  · exact ha'.2 7 7 (by omega) (by omega)

/-- C74. The hypotheses hold: exact arithmetic, and a stream of default matrices. -/
example : Spec.Grounded Spec.exactQuant := grounded_exact
example : Spec.ParamShape 10 (defaultParams[10]'(by decide)) ∧ Spec.Positive (defaultParams[10]'(by decide)) := ⟨default_shape rfl, default_positive (List.getElem_mem _)⟩

/-! ## C75 -/

/-- C75, in exact arithmetic. The matrices of all modes but AFV and the written out one are the inverses of what the format says; they are refused if one of those numbers is negative. -/
theorem C75_weights_partial {i h w : Nat} {p : DCTParam} (hs : Spec.matrixSize[i]? = some (h, w)) (hp : Spec.ParamShape i p) (h5 : p.mode ≠ 5) (h7 : p.mode ≠ 7) :
    ((∀ c y x, c < 3 → y < h → x < w → 0 ≤ Spec.coarseness p h w c y x) →
      ∃ ws, generateWeights Spec.exactQuant p i = .ok ws ∧ ws.length = 3 ∧ ∀ (c : Nat) m, ws[c]? = some m → Table h w m ∧ ∀ y x, y < h → x < w → sample m y x = some (1 / Spec.coarseness p h w c y x)) ∧
    ((∃ c y x, c < 3 ∧ y < h ∧ x < w ∧ Spec.coarseness p h w c y x < 0) → generateWeights Spec.exactQuant p i = .err) :=
  generate_exact hs h7 fun tt hth htw c hc => by
    obtain ⟨_, _, _, _, hh, hw⟩ := horizontal_size hs
    exact channel_exact hs hp hth htw hh hw hc h5 h7

/-- C75. The numbers of a matrix that is written out, times its scale. -/
theorem C75_raw {α : Type} [Arith α] (F : QuantFuncs α) {i h w : Nat} {p : DCTParam} (hs : Spec.matrixSize[i]? = some (h, w)) (hr : Spec.Rows (h * w) p.param) (h7 : p.mode = 7) :
    ∃ ws, generateWeights F p i = .ok ws ∧ ws.length = 3 ∧ ∀ (c : Nat) m, ws[c]? = some m → Table h w m ∧
      ∀ y x, y < h → x < w → sample m y x = some (Arith.lit (Spec.channel p.param c (y * w + x)) * Arith.lit p.den) := by
  obtain ⟨tt, et, hth, htw, _, _⟩ := horizontal_size hs
  have key : ∀ c, c < 3 → ∃ m, channelWeights F tt p c = .ok m ∧ HoldsMat h w (fun y x => (Arith.lit (Spec.channel p.param c (y * w + x)) : α) * Arith.lit p.den) m := by
    intro c hc
    obtain ⟨r, er, e, l⟩ := rows_get hr hc
    unfold channelWeights
    rw [if_neg (by omega), if_neg (by omega), if_neg (by omega), if_neg (by omega), if_neg (by omega), if_neg (by omega), if_pos h7, e, Res.bind_ok, hth, htw]
    unfold weightsRaw
    refine tabulate_ok fun y x hy hx => ?_
    have hb : y * w + x < r.length := by
      rw [l]
      calc y * w + x < y * w + w := by omega
        _ = (y + 1) * w := by rw [Nat.succ_mul]
        _ ≤ h * w := Nat.mul_le_mul_right w hy
    rw [paramAt_ok hb, Res.bind_ok, channel_get er, List.getD_eq_getElem?_getD, List.getElem?_eq_getElem hb]
    rfl
  obtain ⟨a, ea, ha⟩ := key 0 (by omega)
  obtain ⟨b, eb, hb⟩ := key 1 (by omega)
  obtain ⟨c, ec, hc⟩ := key 2 (by omega)
  refine ⟨[a, b, c], ?_, rfl, ?_⟩
  · unfold generateWeights
    rw [et, Res.bind_ok, ea, Res.bind_ok, eb, Res.bind_ok, ec, Res.bind_ok, if_pos h7]
  · intro k m hk
    rcases k with _ | _ | _ | k
    · cases hk; exact ha
    · cases hk; exact hb
    · cases hk; exact hc
    · simp at hk

/-- C74 fails: the numbers of a matrix that is written out are not checked; -1 and 0 are accepted as weights. -/
theorem C74_raw_fails (F : QuantFuncs ℝ) : ∃ p ws, ∃ m : List (List ℝ), Spec.ParamShape 0 p ∧ generateWeights F p 0 = .ok ws ∧ ws[0]? = some m ∧ sample m 0 0 = some (-1) ∧ sample m 0 1 = some 0 := by
  have hr : Spec.Rows (8 * 8) (List.replicate 3 ((-1 : ℚ) :: List.replicate 63 0)) := ⟨by simp, fun r hr => by rw [List.eq_of_mem_replicate hr]; simp⟩
  obtain ⟨ws, e, l, h⟩ := C75_raw F (i := 0) (h := 8) (w := 8) (p := ⟨[], List.replicate 3 ((-1 : ℚ) :: List.replicate 63 0), 7, 1, []⟩) rfl hr rfl
  have h0 : 0 < ws.length := by omega
  refine ⟨_, ws, ws[0], ⟨8, 8, rfl, ?_⟩, e, List.getElem?_eq_getElem h0, ?_, ?_⟩
  · exact Or.inr (Or.inr (Or.inr (Or.inr (Or.inr (Or.inr ⟨rfl, hr⟩)))))
  · rw [(h 0 _ (List.getElem?_eq_getElem h0)).2 0 0 (by omega) (by omega), lit_real, lit_real]
    rw [show Spec.channel (List.replicate 3 ((-1 : ℚ) :: List.replicate 63 0)) 0 (0 * 8 + 0) = -1 from rfl]
    norm_num
  · rw [(h 0 _ (List.getElem?_eq_getElem h0)).2 0 1 (by omega) (by omega), lit_real, lit_real]
    rw [show Spec.channel (List.replicate 3 ((-1 : ℚ) :: List.replicate 63 0)) 0 (0 * 8 + 1) = 0 from rfl]
    norm_num

theorem follows_curves : Follows readDCTParams Spec.decCurves := by
  unfold readDCTParams Spec.decCurves
  refine Follows.bind (follows_bits 4 (by decide)) fun n => Follows.list ?_ 3
  show Follows ((readF16 >>= fun a => readList readF16 n >>= fun l => pure (a :: l)) >>= _) _
  rw [bind_assoc3]
  refine Follows.bind C08_readF16.follows fun v => ?_
  rw [bind_assoc3]
  refine Follows.bind (Follows.list C08_readF16.follows n) fun r => ?_
  rw [mul_comm]
  exact Follows.pure _

theorem follows_scaled (n : Nat) : Follows (readMatrix 3 n 64) (decList (do let r ← decList decF16 n; pure (r.map (64 * ·))) 3) :=
  Follows.list (Follows.bind (Follows.list C08_readF16.follows n) fun _ => Follows.pure _) 3

theorem follows_fail {α : Type} (m : Rd α) : Follows m (Spec.Dec.fail : Spec.Dec α) := fun _ _ _ _ _ h => by cases h

theorem valid_of_size {i mode : Nat} (hi : Spec.matrixSize[i]? = some (8, 8)) (hm : mode < 6) : validIndex i mode = true := by
  have hl : i < 17 := by
    have := (List.getElem?_eq_some_iff.1 hi).1
    exact this
  interval_cases i <;> first | (interval_cases mode <;> rfl) | (exact absurd hi (by decide))

theorem valid_always {i mode : Nat} (hm : mode = 0 ∨ mode = 6) : validIndex i mode = true := by
  unfold validIndex
  rcases hm with rfl | rfl <;> simp

/-- C75. The numbers of a matrix are read as the format has them, in the modes default, Hornuss, DCT2, AFV and DCT. -/
theorem C75_reads_partial (readRaw : Nat → Nat → Nat → Rd (List (List (List Int)))) (i : Nat) : Follows (setupDCTParam readRaw i) (Spec.decParam i) := by
  unfold setupDCTParam Spec.decParam
  refine Follows.bind (follows_bits 3 (by decide)) fun mode => ?_
  by_cases h0 : mode = 0
  · subst h0
    rw [valid_always (Or.inl rfl), if_neg (by decide), if_pos rfl, if_pos rfl]
    cases h : defaultParams[i]? with
    | none => exact follows_fail _
    | some p => exact Follows.lift (idx_nat h)
  · by_cases h6 : mode = 6
    · subst h6
      rw [valid_always (Or.inr rfl), if_neg (by decide), if_neg (by decide), if_neg (by decide), if_neg (by decide), if_neg (by decide), if_pos rfl, if_neg (by decide), if_pos rfl]
      exact Follows.bind follows_curves fun _ => Follows.pure _
    · by_cases hz : Spec.matrixSize[i]? = some (8, 8)
      · simp only [if_pos hz]
        by_cases h1 : mode = 1
        · subst h1
          rw [valid_of_size hz (by omega)]
          exact Follows.bind (follows_scaled 3) fun _ => Follows.pure _
        · by_cases h2 : mode = 2
          · subst h2
            rw [valid_of_size hz (by omega)]
            exact Follows.bind (follows_scaled 6) fun _ => Follows.pure _
          · by_cases h5 : mode = 5
            · subst h5
              rw [valid_of_size hz (by omega)]
              refine Follows.bind (Follows.list ?_ 3) fun m => Follows.bind follows_curves fun d => Follows.bind follows_curves fun f => Follows.pure _
              exact Follows.bind (Follows.list C08_readF16.follows 6) fun a => Follows.bind (Follows.list C08_readF16.follows 3) fun b => Follows.pure _
            · simp only [if_neg h0, if_neg h1, if_neg h2, if_neg h5, if_neg h6]
              exact follows_fail _
      · simp only [if_neg h0, if_neg h6, if_neg hz]
        exact follows_fail _

/-- C75 fails: a matrix in the mode DCT4×8 is never accepted, although it is one of the eight modes of the format. -/
theorem C75_dct48_fails (readRaw : Nat → Nat → Nat → Rd (List (List (List Int)))) (i : Nat) (s : BR) (p : Nat) (hs : AtBit s p) (r : List Bool) (h : Spec.decBits 3 (bitsFrom s.data p) = some (4, r)) :
    (setupDCTParam readRaw i s).1 = .err := by
  obtain ⟨s', p', e, _⟩ := follows_bits 3 (by decide) s p hs 4 r h
  unfold setupDCTParam
  rw [Rd.bind_ok e]
  cases validIndex i 4 <;> rfl

/-- C75 fails: the last two numbers of the mode AFV do not matter, although they are the steps to the two bands of the high frequencies. -/
theorem C75_afv_ignored {r r' d f : List ℚ} (hr : r.length = 9) (hr' : r'.length = 9) (hd : d ≠ [] ∧ d.length ≤ 16) (hf : f ≠ [] ∧ f.length ≤ 16) (he : ∀ i, i < 7 → r.getD i 0 = r'.getD i 0) :
    weightsAFV Spec.exactQuant d f r = weightsAFV Spec.exactQuant d f r' := by
  obtain ⟨h1, h2⟩ := weightsAFV_exact hr hd hf
  obtain ⟨h1', h2'⟩ := weightsAFV_exact hr' hd hf
  have e5 := he 5 (by omega)
  by_cases h5 : r.getD 5 0 < 0
  · rw [h2 h5, h2' (e5 ▸ h5)]
  · obtain ⟨m, e, hm⟩ := h1 (not_lt.1 h5)
    obtain ⟨m', e', hm'⟩ := h1' (e5 ▸ not_lt.1 h5)
    rw [e, e']
    refine congrArg Res.ok (Table.ext hm.1 hm'.1 fun y x hy hx => ?_)
    rw [hm.2 y x hy hx, hm'.2 y x hy hx]
    refine congrArg some ?_
    unfold afvValue
    rw [he 5 (by omega), he 6 (by omega)]
    unfold afvPart
    beta_reduce
    rw [he 0 (by omega), he 1 (by omega), he 2 (by omega), he 3 (by omega), he 4 (by omega)]

/-- C75 fails: the coefficient with the highest of the AFV frequencies gets the value of the second band; the format has the value of the fourth band there. -/
theorem C75_afv_fails {r d f : List ℚ} {m : List (List ℝ)} (hr : r.length = 9) (hd : d ≠ [] ∧ d.length ≤ 16) (hf : f ≠ [] ∧ f.length ≤ 16) (h : weightsAFV Spec.exactQuant d f r = .ok m) :
    sample m 6 6 = some (Spec.band (r.drop 5) 1) := by
  obtain ⟨h1, h2⟩ := weightsAFV_exact hr hd hf
  have h5 : 0 ≤ r.getD 5 0 := by
    by_contra hc
    rw [h2 (not_le.1 hc)] at h
    cases h
  obtain ⟨m', e, hm⟩ := h1 h5
  rw [h] at e
  cases e
  rw [hm.2 6 6 (by omega) (by omega)]
  refine congrArg some ?_
  unfold afvValue afvPart Spec.band
  rw [if_neg (by omega), if_neg (by omega), if_neg (by omega), if_neg (by omega), if_neg (by omega), if_neg (by omega)]
  beta_reduce
  rw [if_pos (by decide +kernel)]
  simp [List.getD_eq_getElem?_getD, List.getElem?_drop]

/-- The two bands differ, for instance when the bands double. -/
example : ∃ m, weightsAFV Spec.exactQuant [1] [1] [1, 1, 1, 1, 1, 1, 1, 1, 1] = .ok m ∧ sample m 6 6 ≠ some (Spec.band ([1, 1, 1, 1, 1, 1, 1, 1, 1].drop 5) 3) := by
  have hd : ([1] : List ℚ) ≠ [] ∧ ([1] : List ℚ).length ≤ 16 := ⟨by simp, by simp⟩
  obtain ⟨m, e, _⟩ := (weightsAFV_exact (r := [1, 1, 1, 1, 1, 1, 1, 1, 1]) rfl hd hd).1 (by norm_num)
  refine ⟨m, e, ?_⟩
  rw [C75_afv_fails rfl hd hd e]
  simp [Spec.band, Spec.growth, Finset.prod_range_succ]
  norm_num

/-- A stream of a Hornuss matrix of zeros, which the format has. -/
example : (Spec.decParam 1 (bitsFrom [0x01, 0, 0, 0, 0, 0, 0, 0, 0, 0, 0, 0, 0, 0, 0, 0, 0, 0, 0] 0)).isSome = true := by decide +kernel

end Jxl
