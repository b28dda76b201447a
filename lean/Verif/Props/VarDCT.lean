import Verif.Proofs.VarDCTAFV
import Verif.Props.DCT

/-!
# C49: corners of AFV blocks; C68: every block is decoded on its own

For every arithmetic, float32 included.
-/
namespace Jxl

section
variable {α : Type} [Arith α] {lut : List (List (List α))} {c : Nat → Nat → Nat → α} {H W : Nat} {coeffs buffer basis : List (List α)} {py px fy fx : Nat} {f B : Nat → Nat → α} {t : Scratch α}

/-! ## C49 -/

/-- C49: `invertAFV` places the corner as it should if it gets the address of the package variable AFV0, AFV1, AFV2 or AFV3: right for odd types, at the bottom for the last two. -/
theorem C49_intended (hl : HasTables lut c) (hB : HasBlock 0 0 16 16 B basis) (hf : HasBlock py px 8 8 f coeffs) (ht : t.Ok) (hT : Table H W buffer)
    (hH : fy + 8 ≤ H) (hW : fx + 8 ≤ W) {kind : Nat} (hk : kind < 4) (tt : TransformType) :
    ∃ b' t', invertAFV lut basis coeffs buffer ⟨some (14 + kind : Int), tt⟩ (py, px) (fy, fx) t = .ok (b', t') ∧ t'.Ok ∧
      Laid H W fy fx 8 8 (afvSamples c B (decide (2 ≤ kind)) (decide (kind % 2 = 1)) f) buffer b' := by
  unfold invertAFV
  have e1 : decide ((some (14 + kind : Int) : Option Int) = some 16 ∨ (some (14 + kind : Int) : Option Int) = some 17) = decide (2 ≤ kind) := by
    apply decide_eq_decide.2
    simp only [Option.some.injEq]
    omega
  have e2 : decide ((some (14 + kind : Int) : Option Int) = some 15 ∨ (some (14 + kind : Int) : Option Int) = some 17) = decide (kind % 2 = 1) := by
    apply decide_eq_decide.2
    simp only [Option.some.injEq]
    omega
  simp only [e1, e2]
  exact invertAFVAt_ok hl hB hf ht hT _ _ hH hW

/-- C49, negation: the decoder never passes such an address: the types that `placeBlock` stored are copies. Whatever the type, the corner is at the top left. -/
theorem C49_never_flipped (hl : HasTables lut c) (hB : HasBlock 0 0 16 16 B basis) (hf : HasBlock py px 8 8 f coeffs) (ht : t.Ok) (hT : Table H W buffer)
    (hH : fy + 8 ≤ H) (hW : fx + 8 ≤ W) (tt : TransformType) :
    ∃ b' t', invertAFV lut basis coeffs buffer (placedRef tt) (py, px) (fy, fx) t = .ok (b', t') ∧ t'.Ok ∧
      Laid H W fy fx 8 8 (afvSamples c B false false f) buffer b' :=
  invertAFVAt_ok hl hB hf ht hT _ _ hH hW

/-- C49, the part that holds: blocks of type AFV0 are right. -/
theorem C49_partial (hl : HasTables lut c) (hB : HasBlock 0 0 16 16 B basis) (hf : HasBlock py px 8 8 f coeffs) (ht : t.Ok) (hT : Table H W buffer)
    (hH : fy + 8 ≤ H) (hW : fx + 8 ≤ W) {kind : Nat} (hk : kind = 0) {tt : TransformType} (_ : allDCT[14 + kind]? = some tt) :
    ∃ b' t', invertAFV lut basis coeffs buffer (placedRef tt) (py, px) (fy, fx) t = .ok (b', t') ∧ t'.Ok ∧
      Laid H W fy fx 8 8 (afvSamples c B (decide (2 ≤ kind)) (decide (kind % 2 = 1)) f) buffer b' := by
  subst hk
  exact C49_never_flipped hl hB hf ht hT hH hW tt

end

/-- A series without terms but the first. -/
theorem idctVal_constQ {c : Nat → Nat → ℚ} {len k : Nat} {s : Nat → ℚ} (h : ∀ n, 1 ≤ n → s n = 0) : idctVal c len s k = s 0 := by
  unfold idctVal
  have : ∀ (l : List Nat), (∀ n ∈ l, 1 ≤ n) → ∀ v : ℚ, l.foldl (fun t n => t + s n * c n k) v = v := by
    intro l
    induction l with
    | nil => intro _ v; rfl
    | cons a l ih =>
      intro hl v
      rw [List.foldl_cons, ih (fun n hn => hl n (List.mem_cons_of_mem _ hn))]
      show v + s a * c a k = v
      rw [h a (hl a List.mem_cons_self), zero_mul, add_zero]
  exact this _ (fun n hn => (List.mem_range'_1.1 hn).1) _

/-- C49, negation: for each of the types AFV1, AFV2 and AFV3 there are coefficients that give a wrong sample (over the rationals, with the basis of the source). -/
theorem C49_fails {lut : List (List (List ℚ))} {c : Nat → Nat → Nat → ℚ} (hl : HasTables lut c) {H W : Nat} {coeffs buffer : List (List ℚ)} {py px fy fx : Nat} {t : Scratch ℚ} (ht : t.Ok)
    (hT : Table H W buffer) (hH : fy + 8 ≤ H) (hW : fx + 8 ≤ W) {kind : Nat} (h0 : 0 < kind) (h1 : kind < 4)
    (hf : HasBlock py px 8 8 (fun y x => if y = 0 ∧ x = 1 then 1 else 0) coeffs) {tt : TransformType} (_ : allDCT[14 + kind]? = some tt) :
    ∃ b' t', invertAFV lut afvBasisQ coeffs buffer (placedRef tt) (py, px) (fy, fx) t = .ok (b', t') ∧
      sample b' fy fx ≠ some (afvSamples c (fun i j => (afvBasisQ.getD i []).getD j 0) (decide (2 ≤ kind)) (decide (kind % 2 = 1)) (fun y x => if y = 0 ∧ x = 1 then 1 else 0) 0 0) := by
  have hB : HasBlock 0 0 16 16 (fun i j => (afvBasisQ.getD i []).getD j 0) afvBasisQ := by
    intro i j hi hj
    have : ∀ i < 16, ∀ j < 16, sample afvBasisQ (0 + i) (0 + j) = some ((afvBasisQ.getD i []).getD j 0) := by decide +kernel
    exact this i hi j hj
  obtain ⟨b', t', e, _, L⟩ := C49_never_flipped hl hB hf ht hT hH hW tt
  refine ⟨b', t', e, ?_⟩
  have hs := L.block 0 0 (by decide) (by decide)
  rw [Nat.add_zero, Nat.add_zero] at hs
  rw [hs]
  have e1 : afvSamples c (fun i j => (afvBasisQ.getD i []).getD j 0) false false (fun y x => if y = 0 ∧ x = 1 then (1 : ℚ) else 0) 0 0 = 1 := by
    show afvCornerSamples (fun i j => (afvBasisQ.getD i []).getD j 0) (fun y x => if y = 0 ∧ x = 1 then (1 : ℚ) else 0) 0 0 = 1
    decide +kernel
  rw [e1]
  have hdc : ∀ (a b : Nat) (v : ℚ) (y x : Nat), dctSamples c a b (fun m n => if m = 0 ∧ n = 0 then v else 0) y x = v := by
    intro a b v y x
    unfold dctSamples
    have hcol : ∀ n, idctVal (c a) (2 ^ a) (fun m => if m = 0 ∧ n = 0 then v else 0) y = if n = 0 then v else 0 := by
      intro n
      rw [idctVal_constQ (fun m hm => if_neg (by omega))]
      by_cases hn : n = 0
      · rw [if_pos ⟨rfl, hn⟩, if_pos hn]
      · rw [if_neg (fun h => hn h.2), if_neg hn]
    rw [idctVal_constQ (fun n hn => by rw [hcol, if_neg (by omega)]), hcol, if_pos rfl]
  have hsq : afvSquareCoeffs (fun y x => if y = 0 ∧ x = 1 then (1 : ℚ) else 0) = fun m n => if m = 0 ∧ n = 0 then (-1 : ℚ) else 0 := by
    funext m n
    unfold afvSquareCoeffs
    by_cases h : m = 0 ∧ n = 0
    · rw [if_pos h, if_pos h]; decide +kernel
    · rw [if_neg h, if_neg h]
      beta_reduce
      rw [if_neg (by omega)]
  have hha : afvHalfCoeffs (fun y x => if y = 0 ∧ x = 1 then (1 : ℚ) else 0) = fun m n => if m = 0 ∧ n = 0 then (0 : ℚ) else 0 := by
    funext m n
    unfold afvHalfCoeffs
    by_cases h : m = 0 ∧ n = 0
    · rw [if_pos h, if_pos h]; decide +kernel
    · rw [if_neg h, if_neg h]
      beta_reduce
      rw [if_neg (by omega)]
  unfold afvSamples
  rw [hsq, hha]
  simp only [hdc]
  obtain rfl | rfl | rfl : kind = 1 ∨ kind = 2 ∨ kind = 3 := by omega
  · norm_num
  · norm_num
  · norm_num

/-! ## C68 -/

section
variable {α : Type} [Arith α] {lut : List (List (List α))} {c : Nat → Nat → Nat → α} {H W : Nat} {coeffs buffer basis : List (List α)} {py px fy fx : Nat} {f B : Nat → Nat → α} {t : Scratch α}

/-- Is the corner of the AFV block at the bottom, and at the right? As the code decides. -/
def TTRef.flips (r : TTRef) : Bool × Bool := (decide (r.var? = some 16 ∨ r.var? = some 17), decide (r.var? = some 15 ∨ r.var? = some 17))

/-- C68: for every type of block but DCT 4×4 the samples of the block are the ones of the specification, whatever the scratch spaces and the buffer held; nothing outside
of the block is written, and nothing panics. -/
theorem C68_block (hl : HasTables lut c) (hB : HasBlock 0 0 16 16 B basis) {tt : TTRef} (htt : tt.tt ∈ allDCT) (hm : tt.tt.method ≠ 2)
    (hf : HasBlock py px tt.tt.pixelHeight.toNat tt.tt.pixelWidth.toNat f coeffs) (ht : t.Ok) (hT : Table H W buffer)
    (hH : fy + tt.tt.pixelHeight.toNat ≤ H) (hW : fx + tt.tt.pixelWidth.toNat ≤ W) :
    ∃ b' t', invertBlock lut basis coeffs buffer tt (py, px) (fy, fx) t = .ok (b', t') ∧ t'.Ok ∧
      Laid H W fy fx tt.tt.pixelHeight.toNat tt.tt.pixelWidth.toNat (blockSamples c B tt.tt tt.flips.1 tt.flips.2 f) buffer b' := by
  have hpow : ∀ u ∈ allDCT, u.method = 0 → u.pixelHeight.toNat = 2 ^ Nat.log2 u.pixelHeight.toNat ∧ Nat.log2 u.pixelHeight.toNat ≤ 8 ∧
      u.pixelWidth.toNat = 2 ^ Nat.log2 u.pixelWidth.toNat ∧ Nat.log2 u.pixelWidth.toNat ≤ 8 := by decide +kernel
  have hother : ∀ u ∈ allDCT, u.method ≠ 0 → u.pixelHeight.toNat = 8 ∧ u.pixelWidth.toNat = 8 ∧ (u.method = 1 ∨ u.method = 2 ∨ u.method = 3 ∨ u.method = 4 ∨ u.method = 5 ∨ u.method = 6) := by
    decide +kernel
  unfold invertBlock
  by_cases h0 : tt.tt.method = 0
  · obtain ⟨ph, ha, pw, hb⟩ := hpow _ htt h0
    simp only [h0, if_true]
    obtain ⟨k0, k1, k2, k3⟩ := ht
    unfold blockSamples
    rw [if_pos h0]
    generalize Nat.log2 tt.tt.pixelHeight.toNat = a at *
    generalize Nat.log2 tt.tt.pixelWidth.toNat = b at *
    rw [ph, pw] at hf ⊢
    rw [ph] at hH
    rw [pw] at hW
    have la : (2 : Nat) ^ a ≤ 256 := by
      have := Nat.pow_le_pow_right (show 0 < 2 by decide) ha
      exact this
    have lb : (2 : Nat) ^ b ≤ 256 := by
      have := Nat.pow_le_pow_right (show 0 < 2 by decide) hb
      exact this
    obtain ⟨b', s0, s1, e, t0, t1, L⟩ := inverseDCT2D_ok (a := a) (b := b) (by omega) (by omega) (hl a ha) (hl b hb) hf hT hH hW k0 k1 la lb
    rw [e, Res.bind_ok]
    exact ⟨b', _, rfl, ⟨t0, t1, k2, k3⟩, L⟩
  · obtain ⟨ph, pw, hmm⟩ := hother _ htt h0
    rw [ph, pw] at hf ⊢
    rw [ph] at hH
    rw [pw] at hW
    unfold blockSamples
    rcases hmm with h | h | h | h | h | h
    · simp only [h]
      exact invertDCT2_ok hf ht hT hH hW
    · exact absurd h hm
    · simp only [h]
      exact invertHornuss_ok hf ht hT hH hW
    · simp only [h]
      exact invertHalves_84 hl hf ht hT hH hW
    · simp only [h]
      exact invertHalves_48 hl hf ht hT hH hW
    · simp only [h]
      exact invertAFVAt_ok hl hB hf ht hT _ _ hH hW

/-- C68, negation: blocks of type DCT 4×4, which the format allows, are not decoded: the decoder panics. -/
theorem C68_dct4_panics {tt : TTRef} (h : allDCT[3]? = some tt.tt) (ppg ppf : Nat × Nat) : invertBlock lut basis coeffs buffer tt ppg ppf t = .panic := by
  have e : tt.tt = ⟨3, 3, 1, 2, 8, 8⟩ := (Option.some.inj h).symm
  unfold invertBlock
  rw [e]
  rfl

end

/-- The tables of the decoder, the basis of the source and scratch spaces of zeros meet the hypotheses. -/
example (cos : Nat → Nat → Nat → ℚ) : HasTables (generateCosineLUT cos) (fun a n k => cos a (n - 1) k) ∧
    HasBlock 0 0 16 16 (fun i j => (afvBasisQ.getD i []).getD j 0) afvBasisQ ∧
    (⟨List.replicate 256 (List.replicate 256 0), List.replicate 256 (List.replicate 256 1), List.replicate 256 (List.replicate 256 2), List.replicate 256 (List.replicate 256 3)⟩ : Scratch ℚ).Ok := by
  have hr : ∀ v : ℚ, Table 256 256 (List.replicate 256 (List.replicate 256 v)) := fun v => ⟨by rw [List.length_replicate], fun r hr => by rw [List.eq_of_mem_replicate hr, List.length_replicate]⟩
  refine ⟨fun a ha => C66_tables cos ha, fun i j hi hj => ?_, hr 0, hr 1, hr 2, hr 3⟩
  have : ∀ i < 16, ∀ j < 16, sample afvBasisQ (0 + i) (0 + j) = some ((afvBasisQ.getD i []).getD j 0) := by decide +kernel
  exact this i hi j hj

/-- A Hornuss block with mean 64 and one difference: the specification in numbers. -/
example : hornussSamples (fun y x => if y = 0 ∧ x = 0 then (64 : ℚ) else if y = 2 ∧ x = 4 then 16 else 0) 1 2 = 79 ∧
    hornussSamples (fun y x => if y = 0 ∧ x = 0 then (64 : ℚ) else if y = 2 ∧ x = 4 then 16 else 0) 3 3 = 63 ∧
    hornussSamples (fun y x => if y = 0 ∧ x = 0 then (64 : ℚ) else if y = 2 ∧ x = 4 then 16 else 0) 7 7 = 64 := by decide +kernel

end Jxl
