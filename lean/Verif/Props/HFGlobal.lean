import Verif.Proofs.HFGlobal
import Verif.Props.ImageHeader
import Verif.Props.Dequant

/-! # C74: quantization matrices fit the blocks and are usable -/
namespace Jxl

section
variable {α : Type} [Arith α]

theorem horizontal_size {i h w : Nat} (hs : Spec.matrixSize[i]? = some (h, w)) :
    ∃ tt, horizontalType i = .ok tt ∧ tt.matrixHeight = h ∧ tt.matrixWidth = w ∧ (2 ≤ h ∧ h ≤ 256) ∧ (2 ≤ w ∧ w ≤ 256) := by
  have hi : i < 17 := by
    by_contra hc
    rw [List.getElem?_eq_none (show Spec.matrixSize.length ≤ i by simp [Spec.matrixSize]; omega)] at hs
    cases hs
  interval_cases i <;> (cases hs; exact ⟨_, rfl, rfl, rfl, by decide, by decide⟩)

theorem rows_get {n : Nat} {m : List (List ℚ)} (h : Spec.Rows n m) {c : Nat} (hc : c < 3) : ∃ r, m[c]? = some r ∧ idx m (c : Int) = .ok r ∧ r.length = n := by
  have hl : c < m.length := by rw [h.1]; exact hc
  exact ⟨m[c], List.getElem?_eq_getElem hl, idx_nat (List.getElem?_eq_getElem hl), h.2 _ (List.getElem_mem hl)⟩

theorem curves_get {m : List (List ℚ)} (h : Spec.Curves m) {c : Nat} (hc : c < 3) : ∃ r, m[c]? = some r ∧ idx m (c : Int) = .ok r ∧ r ≠ [] ∧ r.length ≤ 16 := by
  have hl : c < m.length := by rw [h.1]; exact hc
  exact ⟨m[c], List.getElem?_eq_getElem hl, idx_nat (List.getElem?_eq_getElem hl), h.2 _ (List.getElem_mem hl)⟩

theorem length1 {l : List ℚ} (h : l.length = 1) : ∃ a, l = [a] := List.length_eq_one_iff.1 h
theorem length2 {l : List ℚ} (h : l.length = 2) : ∃ a b, l = [a, b] := List.length_eq_two.1 h
theorem length3 {l : List ℚ} (h : l.length = 3) : ∃ a b c, l = [a, b, c] := List.length_eq_three.1 h
theorem length6 {l : List ℚ} (h : l.length = 6) : ∃ a b c d e f, l = [a, b, c, d, e, f] := by
  rcases l with _ | ⟨a, _ | ⟨b, _ | ⟨c, l⟩⟩⟩ <;> simp at h
  obtain ⟨d, e, f, rfl⟩ := length3 (l := l) (by omega)
  exact ⟨a, b, c, d, e, f, rfl⟩

theorem safe_of {β : Type} {r : Res β} {b : β} {Q : β → Prop} (e : r = .ok b) (h : Q b) : SafeRes r Q := by
  rw [e]
  exact h

attribute [local irreducible] assign

/-- Every matrix that is computed has its size, and none makes the decoder crash. -/
theorem safe_channel {F : QuantFuncs α} (hF : Spec.Grounded F) {i h w : Nat} {p : DCTParam} (hs : Spec.matrixSize[i]? = some (h, w)) (hp : Spec.ParamShape i p) {tt : TransformType}
    (hth : tt.matrixHeight = h) (htw : tt.matrixWidth = w) (hh : 2 ≤ h ∧ h ≤ 256) (hw : 2 ≤ w ∧ w ≤ 256) {c : Nat} (hc : c < 3) : SafeRes (channelWeights F tt p c) (Table h w) := by
  obtain ⟨h', w', hs', hp⟩ := hp
  rw [hs] at hs'
  cases hs'
  have h48 : ∀ ps : List ℚ, ps ≠ [] ∧ ps.length ≤ 16 → ∃ m g, dctQuantWeights F 4 8 ps = .ok m ∧ HoldsMat 4 8 g m := by
    intro ps hps
    obtain ⟨_, m, g, _, _, e, hm, _⟩ := dctQuantWeights_ok hF (h := 4) (w := 8) (by omega) (by omega) hps
    exact ⟨m, g, e, hm⟩
  have h44 : ∀ ps : List ℚ, ps ≠ [] ∧ ps.length ≤ 16 → ∃ m g, dctQuantWeights F 4 4 ps = .ok m ∧ HoldsMat 4 4 g m := by
    intro ps hps
    obtain ⟨_, m, g, _, _, e, hm, _⟩ := dctQuantWeights_ok hF (h := 4) (w := 4) (by omega) (by omega) hps
    exact ⟨m, g, e, hm⟩
  unfold channelWeights
  rcases hp with ⟨hm, hsz, hp⟩ | ⟨hm, hsz, hp⟩ | ⟨hm, hsz, hp, hd⟩ | ⟨hm, hsz, hp, hd⟩ | ⟨hm, hsz, hp, hd, h4⟩ | ⟨hm, hd⟩ | ⟨hm, hp⟩
  · cases hsz
    obtain ⟨r, _, e, l⟩ := rows_get hp hc
    obtain ⟨a, b, d, rfl⟩ := length3 l
    rw [if_neg (by omega), if_neg (by omega), if_neg (by omega), if_pos hm, e, Res.bind_ok]
    exact (weightsHornuss_ok (α := α) a b d).elim fun m hm => safe_of hm.1 hm.2.1
  · cases hsz
    obtain ⟨r, _, e, l⟩ := rows_get hp hc
    obtain ⟨a, b, d, a', b', d', rfl⟩ := length6 l
    rw [if_neg (by omega), if_neg (by omega), if_pos hm, e, Res.bind_ok]
    exact (weightsDCT2_ok (α := α) a b d a' b' d').elim fun m hm => safe_of hm.1 hm.2.1
  · cases hsz
    obtain ⟨r, _, e, l⟩ := rows_get hp hc
    obtain ⟨a, b, rfl⟩ := length2 l
    obtain ⟨d, _, ed, ld⟩ := curves_get hd hc
    obtain ⟨m0, g, e0, h0⟩ := h44 d ld
    rw [if_neg (by omega), if_pos hm, ed, Res.bind_ok, e, Res.bind_ok]
    exact (weightsDCT4_ok e0 h0 a b).elim fun m hm => safe_of hm.1 hm.2.1
  · cases hsz
    obtain ⟨r, _, e, l⟩ := rows_get hp hc
    obtain ⟨a, rfl⟩ := length1 l
    obtain ⟨d, _, ed, ld⟩ := curves_get hd hc
    obtain ⟨m0, g, e0, h0⟩ := h48 d ld
    rw [if_neg (by omega), if_neg (by omega), if_neg (by omega), if_neg (by omega), if_pos hm, ed, Res.bind_ok, e, Res.bind_ok]
    exact (weightsDCT48_ok e0 h0 a).elim fun m hm => safe_of hm.1 hm.2.1
  · cases hsz
    obtain ⟨r, _, e, l⟩ := rows_get hp hc
    obtain ⟨d, _, ed, ld⟩ := curves_get hd hc
    obtain ⟨f, _, ef, lf⟩ := curves_get h4 hc
    obtain ⟨m48, g48, e48, h48⟩ := h48 d ld
    obtain ⟨m44, g44, e44, h44⟩ := h44 f lf
    rw [if_neg (by omega), if_neg (by omega), if_neg (by omega), if_neg (by omega), if_neg (by omega), if_pos hm, ed, Res.bind_ok, ef, Res.bind_ok, e, Res.bind_ok]
    rcases afvBands_cases (α := α) r l with eb | ⟨b2, b3, eb⟩
    · unfold weightsAFV
      rw [e48, Res.bind_ok, e44, Res.bind_ok, eb]
      exact trivial
    · have key : ∀ y x, ∃ v, y < 4 → x < 4 → ¬(x < 2 ∧ y < 2) → 0 ≤ afvPos (y * 4 + x) → afvPos (y * 4 + x) ≤ 1 →
          interpolate F (Arith.lit (afvPos (y * 4 + x))) [Arith.lit (r[5]'(by omega)), (Arith.lit (r[5]'(by omega)) : α) * quantMult (Arith.lit (r[6]'(by omega))), b2, b3] = .ok v := by
        intro y x
        by_cases hpos : 0 ≤ afvPos (y * 4 + x) ∧ afvPos (y * 4 + x) ≤ 1
        · obtain ⟨v, ev⟩ := interpolate_ok F (pos := Arith.lit (afvPos (y * 4 + x)))
            (bands := [Arith.lit (r[5]'(by omega)), (Arith.lit (r[5]'(by omega)) : α) * quantMult (Arith.lit (r[6]'(by omega))), b2, b3]) (by simp) (hF.2 _ hpos.1 hpos.2)
          exact ⟨v, fun _ _ _ _ _ => ev⟩
        · exact ⟨Arith.lit 0, fun _ _ _ h1 h2 => absurd ⟨h1, h2⟩ hpos⟩
      choose v hv using key
      exact (weightsAFV_ok e48 h48 e44 h44 l eb hv).elim fun m hm => safe_of hm.1 hm.2.1
  · obtain ⟨d, _, ed, ld⟩ := curves_get hd hc
    obtain ⟨_, m, g, _, _, e, h, _⟩ := dctQuantWeights_ok hF hh hw ld
    rw [if_pos hm, ed, Res.bind_ok, hth, htw]
    exact safe_of e h.1
  · obtain ⟨r, _, e, l⟩ := rows_get hp hc
    rw [if_neg (by omega), if_neg (by omega), if_neg (by omega), if_neg (by omega), if_neg (by omega), if_neg (by omega), if_pos hm, e, Res.bind_ok, hth, htw]
    obtain ⟨m, e, h⟩ := tabulate_ok (h := h) (w := w) (g := fun y x => (Arith.lit (r.getD (y * w + x) 0) : α) * Arith.lit p.den) (f := fun y x => do
        let v ← paramAt r (y * w + x)
        .ok (v * Arith.lit p.den)) (by
      intro y x hy hx
      have hb : y * w + x < r.length := by
        rw [l]
        calc y * w + x < y * w + w := by omega
          _ = (y + 1) * w := by rw [Nat.succ_mul]
          _ ≤ h * w := Nat.mul_le_mul_right w hy
      rw [paramAt_ok hb, Res.bind_ok, List.getD_eq_getElem?_getD, List.getElem?_eq_getElem hb]
      rfl)
    unfold weightsRaw
    exact safe_of e h.1

theorem safe_invert (F : QuantFuncs α) {h w : Nat} {m : List (List α)} (hm : Table h w m) : SafeRes (invertWeights F h w m) (Table h w) := by
  unfold invertWeights
  rcases tabulate_cases (h := h) (w := w) (f := fun y x => do
      let v ← at2 m (y : Int) (x : Int)
      if Arith.lt v (Arith.lit 0) || F.isInf v then .err else .ok (Arith.lit 1 / v)) (by
    intro y x hy hx
    obtain ⟨v, hv⟩ := hm.sample hy hx
    rw [at2_sample hv, Res.bind_ok]
    split <;> simp) with e | ⟨m', e, hT, _⟩
  · rw [e]
    exact trivial
  · rw [e]
    exact hT

theorem safe_generate {F : QuantFuncs α} (hF : Spec.Grounded F) {i h w : Nat} {p : DCTParam} (hs : Spec.matrixSize[i]? = some (h, w)) (hp : Spec.ParamShape i p) :
    SafeRes (generateWeights F p i) (fun ws => ws.length = 3 ∧ ∀ m ∈ ws, Table h w m) := by
  obtain ⟨tt, et, hth, htw, hh, hw⟩ := horizontal_size hs
  unfold generateWeights
  rw [et, Res.bind_ok]
  refine SafeRes.bind (safe_channel hF hs hp hth htw hh hw (by omega)) fun a ha => ?_
  refine SafeRes.bind (safe_channel hF hs hp hth htw hh hw (by omega)) fun b hb => ?_
  refine SafeRes.bind (safe_channel hF hs hp hth htw hh hw (by omega)) fun c hc => ?_
  have key : ∀ a b c : List (List α), Table h w a → Table h w b → Table h w c → ([a, b, c].length = 3 ∧ ∀ m ∈ [a, b, c], Table h w m) := by
    intro a b c ha hb hc
    refine ⟨rfl, fun m hm => ?_⟩
    simp only [List.mem_cons, List.not_mem_nil, or_false] at hm
    rcases hm with rfl | rfl | rfl <;> assumption
  by_cases h7 : p.mode = 7
  · rw [if_pos h7]
    exact key a b c ha hb hc
  · rw [if_neg h7, hth, htw]
    refine SafeRes.bind (safe_invert F ha) fun a ha => ?_
    refine SafeRes.bind (safe_invert F hb) fun b hb => ?_
    refine SafeRes.bind (safe_invert F hc) fun c hc => ?_
    exact key a b c ha hb hc

theorem safe_allWeights {F : QuantFuncs α} (hF : Spec.Grounded F) : ∀ (ps : List DCTParam) (i : Nat), (∀ k p, ps[k]? = some p → Spec.ParamShape (i + k) p) →
    SafeRes (allWeights F ps i) (fun W => ∀ k, k < ps.length → ∃ ws h w, W[k]? = some ws ∧ Spec.matrixSize[i + k]? = some (h, w) ∧ ws.length = 3 ∧ ∀ m ∈ ws, Table h w m)
  | [], _, _ => fun k hk => absurd hk (Nat.not_lt_zero k)
  | p :: ps, i, hp => by
    rw [allWeights]
    have hp0 := hp 0 p rfl
    obtain ⟨h, w, hs, _⟩ := id hp0
    refine SafeRes.bind (safe_generate hF hs hp0) fun ws hws => ?_
    refine SafeRes.bind (safe_allWeights hF ps (i + 1) (fun k q hk => ?_)) fun W hW => ?_
    · have := hp (k + 1) q hk
      rwa [show i + (k + 1) = i + 1 + k by omega] at this
    · intro k hk
      rcases k with _ | k
      · exact ⟨ws, h, w, rfl, hs, hws⟩
      · obtain ⟨ws', h', w', e1, e2, e3⟩ := hW k (by simpa using hk)
        refine ⟨ws', h', w', e1, ?_, e3⟩
        rw [show i + (k + 1) = i + 1 + k by omega]
        exact e2

theorem default_shape {i : Nat} {p : DCTParam} (h : defaultParams[i]? = some p) : Spec.ParamShape i p := by
  have hi : i < 17 := by
    by_contra hc
    rw [List.getElem?_eq_none (show defaultParams.length ≤ i by simp [defaultParams]; omega)] at h
    cases h
  interval_cases i <;> (cases h; refine ⟨_, _, rfl, ?_⟩; unfold Spec.Rows Spec.Curves; decide +kernel)

theorem safe_curves : Safe readDCTParams Spec.Curves := by
  unfold readDCTParams
  refine Safe.bind (safe_bits 4) fun n hn => ?_
  refine Safe.mono (safe_list (Q := fun r : List ℚ => r ≠ [] ∧ r.length ≤ 16) ?_ 3) (fun a h => h)
  refine Safe.bind (safe_list safe_f16 (n + 1)) fun r hr => ?_
  rcases r with _ | ⟨v, r⟩
  · simp at hr
  · refine Safe.pure ⟨by simp, ?_⟩
    have := hr.1
    simp only [List.length_cons] at this ⊢
    omega

theorem safe_matrix (n : Nat) (scale : ℚ) : Safe (readMatrix 3 n scale) (Spec.Rows n) := by
  unfold readMatrix
  refine safe_list (Q := fun r : List ℚ => r.length = n) ?_ 3
  exact Safe.bind (safe_list safe_f16 n) fun r hr => Safe.pure (by rw [List.length_map]; exact hr.1)

theorem flatten_length {β : Type} {w : Nat} : ∀ (m : List (List β)) (h : Nat), Table h w m → m.flatten.length = h * w
  | [], h, hT => by
    have := hT.1
    simp at this
    subst this
    simp
  | r :: m, h, hT => by
    have h1 := hT.1
    simp only [List.length_cons] at h1
    rw [List.flatten_cons, List.length_append, hT.2 r List.mem_cons_self, flatten_length m (h - 1) ⟨by omega, fun q hq => hT.2 q (List.mem_cons_of_mem _ hq)⟩, ← h1, Nat.add_sub_cancel]
    ring

theorem safe_param {readRaw : Nat → Nat → Nat → Rd (List (List (List Int)))} (hr : ∀ i h w, Spec.matrixSize[i]? = some (h, w) → Safe (readRaw i h w) (fun b => b.length = 3 ∧ ∀ m ∈ b, Table h w m))
    {i h w : Nat} (hs : Spec.matrixSize[i]? = some (h, w)) : Safe (setupDCTParam readRaw i) (Spec.ParamShape i) := by
  have hi : i < 17 := by
    by_contra hc
    rw [List.getElem?_eq_none (show Spec.matrixSize.length ≤ i by simp [Spec.matrixSize]; omega)] at hs
    cases hs
  unfold setupDCTParam
  refine Safe.bind (safe_bits 3) fun mode hmode => ?_
  cases hv : validIndex i mode with
  | false => exact Safe.fail
  | true =>
    rw [if_neg (by simp)]
    have h8 : mode ≠ 0 → mode ≠ 6 → mode ≠ 7 → (h, w) = (8, 8) := by
      intro h0 h6 h7
      have hi' : i ≤ 3 ∨ i = 9 ∨ i = 10 := by
        unfold validIndex at hv
        simp only [Bool.or_eq_true, beq_iff_eq, decide_eq_true_eq] at hv
        omega
      have : i = 0 ∨ i = 1 ∨ i = 2 ∨ i = 3 ∨ i = 9 ∨ i = 10 := by omega
      rcases this with rfl | rfl | rfl | rfl | rfl | rfl <;> (cases hs; rfl)
    by_cases m0 : mode = 0
    · rw [if_pos m0]
      refine Safe.lift ?_
      have hl : i < defaultParams.length := by simp [defaultParams]; omega
      rw [idx_nat (List.getElem?_eq_getElem hl)]
      exact default_shape (List.getElem?_eq_getElem hl)
    rw [if_neg m0]
    by_cases m1 : mode = 1
    · rw [if_pos m1]
      exact Safe.bind (safe_matrix 3 64) fun m hm => Safe.pure ⟨h, w, hs, Or.inl ⟨rfl, h8 m0 (by omega) (by omega), hm⟩⟩
    rw [if_neg m1]
    by_cases m2 : mode = 2
    · rw [if_pos m2]
      exact Safe.bind (safe_matrix 6 64) fun m hm => Safe.pure ⟨h, w, hs, Or.inr (Or.inl ⟨rfl, h8 m0 (by omega) (by omega), hm⟩)⟩
    rw [if_neg m2]
    by_cases m3 : mode = 3
    · rw [if_pos m3]
      exact Safe.bind (safe_matrix 2 64) fun m hm => Safe.bind safe_curves fun d hd => Safe.pure ⟨h, w, hs, Or.inr (Or.inr (Or.inl ⟨rfl, h8 m0 (by omega) (by omega), hm, hd⟩))⟩
    rw [if_neg m3]
    by_cases m6 : mode = 6
    · rw [if_pos m6]
      exact Safe.bind safe_curves fun d hd => Safe.pure ⟨h, w, hs, Or.inr (Or.inr (Or.inr (Or.inr (Or.inr (Or.inl ⟨rfl, hd⟩)))))⟩
    rw [if_neg m6]
    by_cases m7 : mode = 7
    · rw [if_pos m7]
      refine Safe.bind safe_f16 fun den _ => ?_
      obtain ⟨tt, et, hth, htw, _, _⟩ := horizontal_size hs
      rw [et]
      refine Safe.bind (P := fun t => t = tt) (Safe.lift rfl) fun t ht => ?_
      subst ht
      rw [hth, htw]
      refine Safe.bind (hr i h w hs) fun b hb => Safe.pure ⟨h, w, hs, Or.inr (Or.inr (Or.inr (Or.inr (Or.inr (Or.inr ⟨rfl, ?_, ?_⟩)))))⟩
      · rw [List.length_map]
        exact hb.1
      · intro r hr'
        obtain ⟨m, hm, rfl⟩ := List.mem_map.1 hr'
        rw [List.length_map, flatten_length m h (hb.2 m hm)]
    rw [if_neg m7]
    by_cases m5 : mode = 5
    · rw [if_pos m5]
      refine Safe.bind (safe_list (Q := fun r : List ℚ => r.length = 9) ?_ 3) fun m hm => Safe.bind safe_curves fun d hd => Safe.bind safe_curves fun f hf =>
        Safe.pure ⟨h, w, hs, Or.inr (Or.inr (Or.inr (Or.inr (Or.inl ⟨rfl, h8 m0 (by omega) (by omega), hm, hd, hf⟩))))⟩
      refine Safe.bind (safe_list safe_f16 6) fun a ha => Safe.bind (safe_list safe_f16 3) fun b hb => Safe.pure ?_
      rw [List.length_append, List.length_map, ha.1, hb.1]
    rw [if_neg m5]
    exact Safe.fail

theorem safe_readParams {readRaw : Nat → Nat → Nat → Rd (List (List (List Int)))} (hr : ∀ i h w, Spec.matrixSize[i]? = some (h, w) → Safe (readRaw i h w) (fun b => b.length = 3 ∧ ∀ m ∈ b, Table h w m)) :
    ∀ n i, i + n = 17 → Safe (readParams readRaw n i) (fun ps => ps.length = n ∧ ∀ k p, ps[k]? = some p → Spec.ParamShape (i + k) p)
  | 0, i, _ => Safe.pure ⟨rfl, fun k p h => by simp at h⟩
  | n + 1, i, hn => by
    rw [readParams]
    have hl : i < Spec.matrixSize.length := by simp [Spec.matrixSize]; omega
    obtain ⟨h, w, hs⟩ : ∃ h w, Spec.matrixSize[i]? = some (h, w) := ⟨_, _, List.getElem?_eq_getElem hl⟩
    refine Safe.bind (safe_param hr hs) fun p hp => Safe.bind (safe_readParams hr n (i + 1) (by omega)) fun ps hps => Safe.pure ⟨by simp [hps.1], fun k q hk => ?_⟩
    rcases k with _ | k
    · cases hk
      exact hp
    · rw [show i + (k + 1) = i + 1 + k by omega]
      exact hps.2 k q hk

/-- C74. Whatever a stream says, reading its quantization matrices never crashes, and matrices that are accepted fit all kinds of blocks. `readRaw` reads a matrix that is written out. -/
theorem C74_fits {F : QuantFuncs α} (hF : Spec.Grounded F) {readRaw : Nat → Nat → Nat → Rd (List (List (List Int)))}
    (hr : ∀ i h w s, Spec.matrixSize[i]? = some (h, w) → (readRaw i h w s).1 ≠ .panic ∧ ∀ b, (readRaw i h w s).1 = .ok b → b.length = 3 ∧ ∀ m ∈ b, Table h w m) (numGroups : Nat) (s : BR) :
    (readHFGlobal F readRaw numGroups s).1 ≠ .panic ∧ ∀ r, (readHFGlobal F readRaw numGroups s).1 = .ok r → Spec.Fits r.1 := by
  have hr' : ∀ i h w, Spec.matrixSize[i]? = some (h, w) → Safe (readRaw i h w) (fun b => b.length = 3 ∧ ∀ m ∈ b, Table h w m) := by
    intro i h w hs s
    obtain ⟨h1, h2⟩ := hr i h w s hs
    unfold SafeRes
    cases e : (readRaw i h w s).1 with
    | ok b => exact h2 b e
    | err => exact trivial
    | panic => exact absurd e h1
  have key : Safe (readHFGlobal F readRaw numGroups) (fun r => Spec.Fits r.1) := by
    unfold readHFGlobal
    refine Safe.bind safe_bool fun d _ => ?_
    refine Safe.bind (P := fun ps => ps.length = 17 ∧ ∀ k p, ps[k]? = some p → Spec.ParamShape (0 + k) p) (safe_if (safe_readParams hr' 17 0 (by omega)) ⟨rfl, fun k p h => ?_⟩) fun ps hps => ?_
    · rw [Nat.zero_add]
      exact default_shape h
    · refine Safe.bind (Safe.lift (safe_allWeights hF ps 0 hps.2)) fun W hW => Safe.bind (safe_bits _) fun n _ => Safe.pure ?_
      intro tt htt
      have hall : ∀ tt ∈ allDCT, tt.parameterIndex.toNat < 17 ∧ Spec.matrixSize[tt.parameterIndex.toNat]? = some (min tt.pixelHeight.toNat tt.pixelWidth.toNat, max tt.pixelHeight.toNat tt.pixelWidth.toNat) := by
        decide
      obtain ⟨h1, h2⟩ := hall tt htt
      obtain ⟨ws, h, w, e1, e2, e3⟩ := hW tt.parameterIndex.toNat (by rw [hps.1]; exact h1)
      rw [Nat.zero_add, h2] at e2
      cases e2
      exact ⟨ws, e1, e3⟩
  refine ⟨key.noPanic s, fun r hr => ?_⟩
  have := key s
  rw [hr] at this
  exact this

/-- C74. Matrices that fit are what the dequantization of C69 needs. -/
theorem C74_stored {weights : List (List (List (List α)))} (h : Spec.Fits weights) :
    ∃ weight : Nat → Nat → Nat → Nat → α, ∀ tt ∈ allDCT, ∃ w2, weights[tt.parameterIndex.toNat]? = some w2 ∧ ∀ c, c < 3 → ∃ w3, w2[c]? = some w3 ∧
      ∀ y x, y < min tt.pixelHeight.toNat tt.pixelWidth.toNat → x < max tt.pixelHeight.toNat tt.pixelWidth.toNat → sample w3 y x = some (weight tt.parameterIndex.toNat c y x) := by
  refine ⟨fun i c y x => (sample ((weights.getD i []).getD c []) y x).getD (Arith.lit 0), fun tt htt => ?_⟩
  obtain ⟨ws, e, l, hm⟩ := h tt htt
  refine ⟨ws, e, fun c hc => ?_⟩
  have hl : c < ws.length := by omega
  refine ⟨ws[c], List.getElem?_eq_getElem hl, fun y x hy hx => ?_⟩
  obtain ⟨v, hv⟩ := (hm _ (List.getElem_mem hl)).sample hy hx
  beta_reduce
  rw [show weights.getD tt.parameterIndex.toNat [] = ws by rw [List.getD_eq_getElem?_getD, e]; rfl, List.getD_eq_getElem?_getD, List.getElem?_eq_getElem hl, Option.getD_some, hv]
  rfl

end

end Jxl
