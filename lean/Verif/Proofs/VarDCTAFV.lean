import Verif.Proofs.VarDCTBlocks

/-! # Blocks: AFV -/
namespace Jxl

section
variable {α : Type} [Arith α] {lut : List (List (List α))} {c : Nat → Nat → Nat → α} {H W : Nat} {coeffs buffer basis : List (List α)} {py px fy fx : Nat} {f B : Nat → Nat → α} {t : Scratch α}

theorem afvCorner_ok {s0 s1 : List (List α)} {a : Nat → Nat → α} (hB : HasBlock 0 0 16 16 B basis) (h0 : HasBlock 0 0 4 4 a s0) (h1 : Table 256 256 s1) :
    ∃ s', afvCorner basis s0 s1 = .ok s' ∧
      Laid 256 256 0 0 4 4 (fun iy ix => (List.range 16).foldl (fun s j => s + a (j / 4) (j % 4) * B j (iy * 4 + ix)) (Arith.lit 0)) s1 s' := by
  unfold afvCorner
  refine fillBlock_ok h1 (by decide) (by decide) (fun y x m hy hx => ?_)
  obtain ⟨v, e, hv⟩ := forFrom_inv (f := fun j sample => do
      let v ← at2 s0 ((j / 4 : Nat) : Int) ((j % 4 : Nat) : Int)
      let b ← at2 basis (j : Int) ((y * 4 + x : Nat) : Int)
      .ok (sample + v * b))
    (fun i r => r = (List.range i).foldl (fun s j => s + a (j / 4) (j % 4) * B j (y * 4 + x)) (Arith.lit 0)) 16 0 (Arith.lit 0) rfl
    (by
      rintro k r _ hk rfl
      have e1 := at2_block h0 (y := k / 4) (x := k % 4) (by omega) (by omega)
      have e2 := at2_block hB (y := k) (x := y * 4 + x) (by omega) (by omega)
      rw [Nat.zero_add, Nat.zero_add] at e1 e2
      refine ⟨_, by rw [e1, Res.bind_ok, e2, Res.bind_ok], ?_⟩
      rw [List.range_succ, List.foldl_append]
      rfl)
  rw [e, Res.bind_ok, hv]
  simp only [Nat.zero_add]

theorem invertAFVAt_ok (hl : HasTables lut c) (hB : HasBlock 0 0 16 16 B basis) (hf : HasBlock py px 8 8 f coeffs) (ht : t.Ok) (hT : Table H W buffer) (bottom right : Bool)
    (hH : fy + 8 ≤ H) (hW : fx + 8 ≤ W) :
    ∃ b' t', invertAFVAt lut basis coeffs buffer bottom right (py, px) (fy, fx) t = .ok (b', t') ∧ t'.Ok ∧ Laid H W fy fx 8 8 (afvSamples c B bottom right f) buffer b' := by
  obtain ⟨h0, h1, h2, h3⟩ := ht
  have c00 := at2_block hf (y := 0) (x := 0) (by decide) (by decide)
  have c10 := at2_block hf (y := 1) (x := 0) (by decide) (by decide)
  have c01 := at2_block hf (y := 0) (x := 1) (by decide) (by decide)
  simp only [Nat.add_zero] at c00 c10 c01
  unfold invertAFVAt
  rw [c00, Res.bind_ok, c10, Res.bind_ok, c01, Res.bind_ok]
  obtain ⟨u0, e0, t0, v0⟩ := set2_origin h0 ((f 0 0 + f 1 0 + f 0 1) * Arith.lit 4)
  rw [e0, Res.bind_ok]
  obtain ⟨u1, e1, t1, v1⟩ := gatherRows_ok t0 (by decide) (at_ := fun iy ix => (py + iy * 2, px + ix * 2)) (w := 4) (by decide) (by decide) (g := fun m n => f (m * 2) (n * 2)) (coeffs := coeffs)
    (fun y x hy hx => at2_block hf (y := y * 2) (x := x * 2) (by omega) (by omega)) v0
  rw [e1, Res.bind_ok]
  obtain ⟨w1, e2, L1⟩ := afvCorner_ok hB v1 h1
  rw [e2, Res.bind_ok]
  have hby : (if bottom = true then 4 else 0) ≤ 4 := by split <;> omega
  have hbx : (if right = true then 4 else 0) ≤ 4 := by split <;> omega
  have hby' : (if bottom = true then 0 else 4) ≤ 4 := by split <;> omega
  have hbx' : (if right = true then 0 else 4) ≤ 4 := by split <;> omega
  obtain ⟨b1, e3, M1⟩ := fillBlock_ok hT (y0 := fy + if bottom = true then 4 else 0) (x0 := fx + if right = true then 4 else 0) (h := 4) (w := 4) (by omega) (by omega)
    (g := fun iy ix => afvCornerSamples B f (if bottom = true then 3 - iy else iy) (if right = true then 3 - ix else ix))
    (body := fun iy ix buffer => do
      let v ← at2 w1 ((if bottom = true then 3 - iy else iy : Nat) : Int) ((if right = true then 3 - ix else ix : Nat) : Int)
      set2 buffer ((fy + (if bottom = true then 4 else 0) + iy : Nat) : Int) ((fx + (if right = true then 4 else 0) + ix : Nat) : Int) v)
    (by
      intro y x m' hy hx
      have := at2_block L1.block (y := if bottom = true then 3 - y else y) (x := if right = true then 3 - x else x) (by split <;> omega) (by split <;> omega)
      rw [Nat.zero_add, Nat.zero_add] at this
      rw [this, Res.bind_ok]
      rfl)
  rw [e3, Res.bind_ok]
  obtain ⟨u2, e4, t2, v2⟩ := set2_origin t1 (f 0 0 + f 1 0 - f 0 1)
  rw [e4, Res.bind_ok]
  obtain ⟨u3, e5, t3, v3⟩ := gatherRows_ok t2 (by decide) (at_ := fun iy ix => (py + iy * 2, px + ix * 2 + 1)) (w := 4) (by decide) (by decide) (g := fun m n => f (m * 2) (n * 2 + 1)) (coeffs := coeffs)
    (fun y x hy hx => at2_block hf (y := y * 2) (x := x * 2 + 1) (by omega) (by omega)) v2
  rw [e5, Res.bind_ok]
  obtain ⟨w2, p2, q2, e6, tp2, tq2, L2⟩ := inverseDCT2D_ok (a := 2) (b := 2) (by decide) (by decide) (hl 2 (by decide)) (hl 2 (by decide)) v3 L1.1 (yd := 0) (xd := 0) (by decide) (by decide) h2 h3 (by decide) (by decide)
  have e6' : inverseDCT2D lut u3 w1 (0, 0) (0, 0) (4, 4) t.s2 t.s3 false = .ok (w2, p2, q2) := e6
  rw [e6', Res.bind_ok]
  obtain ⟨b2, e7, M2⟩ := fillBlock_ok M1.1 (y0 := fy + if bottom = true then 4 else 0) (x0 := fx + if right = true then 0 else 4) (h := 4) (w := 4) (by omega) (by omega)
    (g := fun iy ix => dctSamples c 2 2 (afvSquareCoeffs f) ix iy)
    (body := fun iy ix buffer => do
      let v ← at2 w2 (ix : Int) (iy : Int)
      set2 buffer ((fy + (if bottom = true then 4 else 0) + iy : Nat) : Int) ((fx + (if right = true then 0 else 4) + ix : Nat) : Int) v)
    (by
      intro y x m' hy hx
      have := at2_block L2.block (y := x) (x := y) hx hy
      rw [Nat.zero_add, Nat.zero_add] at this
      rw [this, Res.bind_ok]
      rfl)
  rw [e7, Res.bind_ok]
  obtain ⟨u4, e8, t4, v4⟩ := set2_origin t3 (f 0 0 - f 1 0)
  rw [e8, Res.bind_ok]
  obtain ⟨u5, e9, t5, v5⟩ := gatherRows_ok t4 (by decide) (at_ := fun iy ix => (py + 1 + iy * 2, px + ix)) (w := 8) (by decide) (by decide) (g := fun m n => f (1 + m * 2) n) (coeffs := coeffs)
    (by
      intro y x hy hx
      have := at2_block hf (y := 1 + y * 2) (x := x) (by omega) (by omega)
      rw [← Nat.add_assoc] at this
      exact this) v4
  rw [e9, Res.bind_ok]
  obtain ⟨w3, p3, q3, e10, tp3, tq3, L3⟩ := inverseDCT2D_ok (a := 2) (b := 3) (by decide) (by decide) (hl 2 (by decide)) (hl 3 (by decide)) v5 L2.1 (yd := 0) (xd := 0) (by decide) (by decide) tp2 tq2 (by decide) (by decide)
  have e10' : inverseDCT2D lut u5 w2 (0, 0) (0, 0) (4, 8) p2 q2 false = .ok (w3, p3, q3) := e10
  show ∃ b' t', (inverseDCT2D lut u5 w2 (0, 0) (0, 0) (4, 8) p2 q2 false >>= _) = _ ∧ _
  rw [e10', Res.bind_ok]
  obtain ⟨b3, e11, M3⟩ := fillBlock_ok M2.1 (y0 := fy + if bottom = true then 0 else 4) (x0 := fx) (h := 4) (w := 8) (by omega) (by omega)
    (g := fun iy ix => dctSamples c 2 3 (afvHalfCoeffs f) iy ix)
    (body := fun iy ix buffer => do
      let v ← at2 w3 (iy : Int) (ix : Int)
      set2 buffer ((fy + (if bottom = true then 0 else 4) + iy : Nat) : Int) ((fx + ix : Nat) : Int) v)
    (by
      intro y x m' hy hx
      have := at2_block L3.block (y := y) (x := x) hy hx
      rw [Nat.zero_add, Nat.zero_add] at this
      rw [this, Res.bind_ok]
      rfl)
  rw [e11, Res.bind_ok]
  refine ⟨b3, _, rfl, ⟨t5, L3.1, tp3, tq3⟩, M3.1, fun j k => ?_⟩
  rw [M3.2 j k, M2.2 j k, M1.2 j k]
  clear hby hbx hby' hbx' e3 e7 e11 M1 M2 M3
  by_cases hin : (fy ≤ j ∧ j < fy + 8) ∧ (fx ≤ k ∧ k < fx + 8)
  · rw [if_pos hin]
    obtain ⟨y, hy, rfl⟩ : ∃ y, y < 8 ∧ j = fy + y := ⟨j - fy, by omega, by omega⟩
    obtain ⟨x, hx, rfl⟩ : ∃ x, x < 8 ∧ k = fx + x := ⟨k - fx, by omega, by omega⟩
    unfold afvSamples
    cases bottom <;> cases right <;> simp only [Bool.false_eq_true, if_false, if_true, show fy + y - fy = y by omega, show fx + x - fx = x by omega, Nat.add_zero]
    · by_cases hy4 : y < 4
      · rw [if_neg (by omega), if_pos (show y / 4 = 0 by omega)]
        by_cases hx4 : x < 4
        · rw [if_neg (by omega), if_pos (by omega), if_pos (by omega), show y % 4 = y by omega, show x % 4 = x by omega]
        · rw [if_pos (by omega), if_neg (by omega), show fx + x - (fx + 4) = x % 4 by omega, show y % 4 = y by omega]
      · rw [if_pos (by omega), if_neg (by omega), show fy + y - (fy + 4) = y % 4 by omega]
    · by_cases hy4 : y < 4
      · rw [if_neg (by omega), if_pos (show y / 4 = 0 by omega)]
        by_cases hx4 : x < 4
        · rw [if_pos (by omega), if_neg (by omega), show x % 4 = x by omega, show y % 4 = y by omega]
        · rw [if_neg (by omega), if_pos (by omega), if_pos (by omega), show y % 4 = y by omega, show fx + x - (fx + 4) = x % 4 by omega]
      · rw [if_pos (by omega), if_neg (by omega), show fy + y - (fy + 4) = y % 4 by omega]
    · by_cases hy4 : y < 4
      · rw [if_pos (by omega), if_neg (by omega), show y % 4 = y by omega]
      · rw [if_neg (by omega), if_pos (show y / 4 = 1 by omega)]
        by_cases hx4 : x < 4
        · rw [if_neg (by omega), if_pos (by omega), if_pos (by omega), show fy + y - (fy + 4) = y % 4 by omega, show x % 4 = x by omega]
        · rw [if_pos (by omega), if_neg (by omega), show fx + x - (fx + 4) = x % 4 by omega, show fy + y - (fy + 4) = y % 4 by omega]
    · by_cases hy4 : y < 4
      · rw [if_pos (by omega), if_neg (by omega), show y % 4 = y by omega]
      · rw [if_neg (by omega), if_pos (show y / 4 = 1 by omega)]
        by_cases hx4 : x < 4
        · rw [if_pos (by omega), if_neg (by omega), show x % 4 = x by omega, show fy + y - (fy + 4) = y % 4 by omega]
        · rw [if_neg (by omega), if_pos (by omega), if_pos (by omega), show fy + y - (fy + 4) = y % 4 by omega, show fx + x - (fx + 4) = x % 4 by omega]
  · rw [if_neg hin]
    cases bottom <;> cases right <;> simp only [Bool.false_eq_true, if_false, if_true] <;> rw [if_neg (by omega), if_neg (by omega), if_neg (by omega)]

end

end Jxl
