import Verif.Proofs.VarDCT

/-! # Blocks: every method -/
namespace Jxl

/-- The tables of cosines hold `c`. -/
def HasTables {α : Type} [Arith α] (lut : List (List (List α))) (c : Nat → Nat → Nat → α) : Prop := ∀ a, a ≤ 8 → HasLUT lut a (2 ^ a) (c a)

/-- Scratch spaces have 256 rows of 256 numbers, with any contents. -/
def Scratch.Ok {α : Type} (t : Scratch α) : Prop := Table 256 256 t.s0 ∧ Table 256 256 t.s1 ∧ Table 256 256 t.s2 ∧ Table 256 256 t.s3

section
variable {α : Type} [Arith α] {lut : List (List (List α))} {c : Nat → Nat → Nat → α} {H W : Nat} {coeffs buffer : List (List α)} {py px fy fx : Nat} {f : Nat → Nat → α} {t : Scratch α}

theorem set2_origin {s0 : List (List α)} (t0 : Table 256 256 s0) (lf : α) : ∃ s', set2 s0 0 0 lf = .ok s' ∧ Table 256 256 s' ∧ sample s' 0 0 = some lf := by
  obtain ⟨s', e, t, v⟩ := set2_table t0 (y := 0) (x := 0) (by decide) (by decide) lf
  exact ⟨s', e, t, by rw [v 0 0, if_pos ⟨rfl, rfl⟩]⟩

theorem invertHalf_ok (hl : HasTables lut c) (hf : HasBlock py px 8 8 f coeffs) (ht : t.Ok) (hT : Table H W buffer) {half : Nat} (hh : half < 2) (lf : α)
    (hH : fy + 4 ≤ H) (hW : fx + 8 ≤ W) :
    ∃ b' t', invertHalf lut coeffs buffer (py, px) (fy, fx) lf half false t = .ok (b', t') ∧ t'.Ok ∧
      Laid H W fy fx 4 8 (dctSamples c 2 3 (fun m n => if m = 0 ∧ n = 0 then lf else f (half + m * 2) n)) buffer b' := by
  obtain ⟨h0, h1, h2, h3⟩ := ht
  unfold invertHalf
  obtain ⟨u0, e0, t0, v0⟩ := set2_origin h0 lf
  rw [e0, Res.bind_ok]
  obtain ⟨u1, e1, t1, v1⟩ := gatherRows_ok t0 (by decide) (at_ := fun iy ix => (py + half + iy * 2, px + ix)) (w := 8) (by decide) (by decide) (g := fun m n => f (half + m * 2) n) (coeffs := coeffs)
    (by
      intro y x hy hx
      have := at2_block hf (y := half + y * 2) (x := x) (by omega) hx
      rw [← Nat.add_assoc] at this
      exact this) v0
  rw [e1, Res.bind_ok]
  obtain ⟨b', s1, s2, e2, t2, t3, L⟩ := inverseDCT2D_ok (a := 2) (b := 3) (by decide) (by decide) (hl 2 (by decide)) (hl 3 (by decide)) v1 hT hH hW h1 h2 (by decide) (by decide)
  have e3 : inverseDCT2D lut u1 buffer (0, 0) (fy, fx) (4, 8) t.s1 t.s2 false = .ok (b', s1, s2) := e2
  rw [e3, Res.bind_ok]
  exact ⟨b', _, rfl, ⟨t1, t2, t3, h3⟩, L⟩

theorem invertHalf_side (hl : HasTables lut c) (hf : HasBlock py px 8 8 f coeffs) (ht : t.Ok) (hT : Table H W buffer) {half : Nat} (hh : half < 2) (lf : α)
    (hH : fy + 8 ≤ H) (hW : fx + 4 ≤ W) :
    ∃ b' t', invertHalf lut coeffs buffer (py, px) (fy, fx) lf half true t = .ok (b', t') ∧ t'.Ok ∧
      Laid H W fy fx 8 4 (fun x y => dctSamples' c 2 3 (fun m n => if m = 0 ∧ n = 0 then lf else f (half + m * 2) n) y x) buffer b' := by
  obtain ⟨h0, h1, h2, h3⟩ := ht
  unfold invertHalf
  obtain ⟨u0, e0, t0, v0⟩ := set2_origin h0 lf
  rw [e0, Res.bind_ok]
  obtain ⟨u1, e1, t1, v1⟩ := gatherRows_ok t0 (by decide) (at_ := fun iy ix => (py + half + iy * 2, px + ix)) (w := 8) (by decide) (by decide) (g := fun m n => f (half + m * 2) n) (coeffs := coeffs)
    (by
      intro y x hy hx
      have := at2_block hf (y := half + y * 2) (x := x) (by omega) hx
      rw [← Nat.add_assoc] at this
      exact this) v0
  rw [e1, Res.bind_ok]
  obtain ⟨b', s1, s2, e2, t2, t3, L⟩ := inverseDCT2D_transposed_ok (a := 2) (b := 3) (by decide) (by decide) (hl 2 (by decide)) (hl 3 (by decide)) v1 hT hH hW h1 h2 (by decide) (by decide)
  have e3 : inverseDCT2D lut u1 buffer (0, 0) (fy, fx) (4, 8) t.s1 t.s2 true = .ok (b', s1, s2) := e2
  rw [e3, Res.bind_ok]
  exact ⟨b', _, rfl, ⟨t1, t2, t3, h3⟩, L⟩

theorem halfCoeffs_zero (f : Nat → Nat → α) : (fun m n => if m = 0 ∧ n = 0 then f 0 0 + f 1 0 else f (0 + m * 2) n) = halfCoeffs f 0 := rfl
theorem halfCoeffs_one (f : Nat → Nat → α) : (fun m n => if m = 0 ∧ n = 0 then f 0 0 - f 1 0 else f (1 + m * 2) n) = halfCoeffs f 1 := rfl

theorem invertHalves_48 (hl : HasTables lut c) (hf : HasBlock py px 8 8 f coeffs) (ht : t.Ok) (hT : Table H W buffer) (hH : fy + 8 ≤ H) (hW : fx + 8 ≤ W) :
    ∃ b' t', invertHalves lut coeffs buffer (py, px) (fy, fx) false t = .ok (b', t') ∧ t'.Ok ∧ Laid H W fy fx 8 8 (dct48Samples c f) buffer b' := by
  unfold invertHalves
  have c0 := at2_block hf (y := 0) (x := 0) (by decide) (by decide)
  have c1 := at2_block hf (y := 1) (x := 0) (by decide) (by decide)
  simp only [Nat.add_zero] at c0 c1
  rw [c0, Res.bind_ok, c1, Res.bind_ok]
  obtain ⟨b1, t1, e1, k1, L1⟩ := invertHalf_ok (half := 0) (fy := fy) (fx := fx) hl hf ht hT (by decide) (f 0 0 + f 1 0) (by omega) hW
  rw [e1, Res.bind_ok]
  obtain ⟨b2, t2, e2, k2, L2⟩ := invertHalf_ok (half := 1) (fy := fy + 4) (fx := fx) hl hf k1 L1.1 (by decide) (f 0 0 - f 1 0) (by omega) hW
  rw [halfCoeffs_zero] at L1
  rw [halfCoeffs_one] at L2
  refine ⟨b2, t2, e2, k2, L2.1, fun j k => ?_⟩
  rw [L2.2 j k, L1.2 j k]
  by_cases hin : (fy ≤ j ∧ j < fy + 8) ∧ (fx ≤ k ∧ k < fx + 8)
  · rw [if_pos hin]
    unfold dct48Samples
    by_cases hb : j < fy + 4
    · rw [if_neg (by omega), if_pos (by omega), show (j - fy) / 4 = 0 by omega, show (j - fy) % 4 = j - fy by omega]
    · rw [if_pos (by omega), show (j - fy) / 4 = 1 by omega, show (j - fy) % 4 = j - (fy + 4) by omega]
  · rw [if_neg hin, if_neg (by omega), if_neg (by omega)]

theorem invertHalves_84 (hl : HasTables lut c) (hf : HasBlock py px 8 8 f coeffs) (ht : t.Ok) (hT : Table H W buffer) (hH : fy + 8 ≤ H) (hW : fx + 8 ≤ W) :
    ∃ b' t', invertHalves lut coeffs buffer (py, px) (fy, fx) true t = .ok (b', t') ∧ t'.Ok ∧ Laid H W fy fx 8 8 (dct84Samples c f) buffer b' := by
  unfold invertHalves
  have c0 := at2_block hf (y := 0) (x := 0) (by decide) (by decide)
  have c1 := at2_block hf (y := 1) (x := 0) (by decide) (by decide)
  simp only [Nat.add_zero] at c0 c1
  rw [c0, Res.bind_ok, c1, Res.bind_ok]
  obtain ⟨b1, t1, e1, k1, L1⟩ := invertHalf_side (half := 0) (fy := fy) (fx := fx) hl hf ht hT (by decide) (f 0 0 + f 1 0) hH (by omega)
  rw [e1, Res.bind_ok]
  obtain ⟨b2, t2, e2, k2, L2⟩ := invertHalf_side (half := 1) (fy := fy) (fx := fx + 4) hl hf k1 L1.1 (by decide) (f 0 0 - f 1 0) hH (by omega)
  rw [halfCoeffs_zero] at L1
  rw [halfCoeffs_one] at L2
  refine ⟨b2, t2, e2, k2, L2.1, fun j k => ?_⟩
  rw [L2.2 j k, L1.2 j k]
  by_cases hin : (fy ≤ j ∧ j < fy + 8) ∧ (fx ≤ k ∧ k < fx + 8)
  · rw [if_pos hin]
    unfold dct84Samples
    by_cases hb : k < fx + 4
    · rw [if_neg (by omega), if_pos (by omega), show (k - fx) / 4 = 0 by omega, show (k - fx) % 4 = k - fx by omega]
    · rw [if_pos (by omega), show (k - fx) / 4 = 1 by omega, show (k - fx) % 4 = k - (fx + 4) by omega]
  · rw [if_neg hin, if_neg (by omega), if_neg (by omega)]

theorem invertDCT2_ok (hf : HasBlock py px 8 8 f coeffs) (ht : t.Ok) (hT : Table H W buffer) (hH : fy + 8 ≤ H) (hW : fx + 8 ≤ W) :
    ∃ b' t', invertDCT2 coeffs buffer (py, px) (fy, fx) t = .ok (b', t') ∧ t'.Ok ∧ Laid H W fy fx 8 8 (dct2Samples f) buffer b' := by
  obtain ⟨h0, h1, h2, h3⟩ := ht
  unfold invertDCT2
  obtain ⟨u0, e0, L0⟩ := auxDCT2_ok h0 (sy := 0) (sx := 0) (num := 1) hf (by decide) (by decide) (by decide)
  rw [show 2 * 1 = 2 from rfl] at e0
  rw [e0, Res.bind_ok]
  obtain ⟨u1, e1, L1⟩ := auxDCT2_ok h1 (sy := 0) (sx := 0) (num := 2) L0.block (by decide) (by decide) (by decide)
  rw [show 2 * 2 = 4 from rfl] at e1
  rw [e1, Res.bind_ok]
  obtain ⟨u2, e2, L2⟩ := auxDCT2_ok hT (sy := fy) (sx := fx) (num := 4) L1.block (by decide) hH hW
  rw [show 2 * 4 = 8 from rfl] at e2
  rw [e2, Res.bind_ok]
  exact ⟨u2, _, rfl, ⟨L0.1, L1.1, h2, h3⟩, L2⟩

theorem hornussResidual_ok (hf : HasBlock py px 8 8 f coeffs) {y x : Nat} (hy : y < 2) (hx : x < 2) : hornussResidual coeffs (py, px) y x = .ok (hornussSum f y x) := by
  unfold hornussResidual
  have inner : ∀ iy, iy < 4 → ∀ (n i : Nat) (r : α), i + n ≤ 4 → forFrom (fun ix residual => do
      let v ← at2 coeffs ((py + y + iy * 2 : Nat) : Int) ((px + x + ix * 2 : Nat) : Int)
      .ok (residual + v)) n i r = .ok ((List.range' i n).foldl (fun r ix => r + f (y + iy * 2) (x + ix * 2)) r) := by
    intro iy hiy n
    induction n with
    | zero => intro i r _; rfl
    | succ n ih =>
      intro i r hi
      have := at2_block hf (y := y + iy * 2) (x := x + i * 2) (by omega) (by omega)
      rw [← Nat.add_assoc, ← Nat.add_assoc] at this
      rw [forFrom, this, Res.bind_ok, Res.bind_ok, ih (i + 1) _ (by omega)]
      rfl
  obtain ⟨v, e, hv⟩ := forFrom_inv (f := fun iy residual =>
    let ixTemp := if iy = 0 then 1 else 0
    forFrom (fun ix residual => do
      let v ← at2 coeffs ((py + y + iy * 2 : Nat) : Int) ((px + x + ix * 2 : Nat) : Int)
      .ok (residual + v)) (4 - ixTemp) ixTemp residual)
    (fun i r => r = (List.range i).foldl (fun r iy => (List.range' (if iy = 0 then 1 else 0) (4 - if iy = 0 then 1 else 0)).foldl (fun r ix => r + f (y + iy * 2) (x + ix * 2)) r) (Arith.lit 0))
    4 0 (Arith.lit 0) rfl
    (by
      rintro k r _ hk rfl
      refine ⟨_, inner k (by omega) _ _ _ (by split <;> omega), ?_⟩
      rw [List.range_succ, List.foldl_append]
      rfl)
  rw [hv] at e
  exact e

theorem hornussQuarter_ok (hf : HasBlock py px 8 8 f coeffs) {s0 s1 : List (List α)} (h0 : Table 256 256 s0) (h1 : HasBlock 0 0 8 8 (haarStep 1 f) s1) {y x : Nat} (hy : y < 2) (hx : x < 2) :
    ∃ s', hornussQuarter coeffs s1 (py, px) y x s0 = .ok s' ∧ Laid 256 256 (4 * y) (4 * x) 4 4 (fun j k => hornussSamples f (4 * y + j) (4 * x + k)) s0 s' := by
  unfold hornussQuarter
  have hm := at2_block h1 (y := y) (x := x) (by omega) (by omega)
  rw [Nat.zero_add, Nat.zero_add] at hm
  rw [hm, Res.bind_ok, hornussResidual_ok hf hy hx, Res.bind_ok]
  obtain ⟨u0, e0, t0, v0⟩ := set2_table h0 (y := 4 * y + 1) (x := 4 * x + 1) (by omega) (by omega) (haarStep 1 f y x - hornussSum f y x * Arith.lit (1 / 16))
  rw [e0, Res.bind_ok]
  have hmid : ∀ iy ix, iy < 4 → ix < 4 → hornussSamples f (4 * y + iy) (4 * x + ix) = if iy = 1 ∧ ix = 1 then hornussMid f y x else
      if iy = 0 ∧ ix = 0 then f (y + 2) (x + 2) + hornussMid f y x else f (y + iy * 2) (x + ix * 2) + hornussMid f y x := by
    intro iy ix h1 h2
    unfold hornussSamples
    simp only [show (4 * y + iy) / 4 = y by omega, show (4 * x + ix) / 4 = x by omega, show (4 * y + iy) % 4 = iy by omega, show (4 * x + ix) % 4 = ix by omega]
  obtain ⟨u1, e1, t1, v1⟩ := fill_loop (f := fun iy ix s0 =>
      if ix = 1 ∧ iy = 1 then .ok s0 else do
      let v ← at2 coeffs ((py + y + iy * 2 : Nat) : Int) ((px + x + ix * 2 : Nat) : Int)
      let m ← at2 s0 ((4 * y + 1 : Nat) : Int) ((4 * x + 1 : Nat) : Int)
      set2 s0 ((4 * y + iy : Nat) : Int) ((x * 4 + ix : Nat) : Int) (v + m))
    (fun iy ix s => Table 256 256 s ∧ ∀ j k, sample s j k = if j = 4 * y + 1 ∧ k = 4 * x + 1 then some (hornussMid f y x) else
      if (4 * y ≤ j ∧ (j < 4 * y + iy ∨ j = 4 * y + iy ∧ k < 4 * x + ix)) ∧ (4 * x ≤ k ∧ k < 4 * x + 4) then some (f (y + (j - 4 * y) * 2) (x + (k - 4 * x) * 2) + hornussMid f y x) else sample s0 j k)
    4 4 u0 ⟨t0, fun j k => by
      rw [v0 j k]
      by_cases h : j = 4 * y + 1 ∧ k = 4 * x + 1
      · rw [if_pos h, if_pos h]; rfl
      · rw [if_neg h, if_neg h, if_neg (by omega)]⟩
    (by
      rintro iy ix s hiy hix ⟨h3, h4⟩
      by_cases hskip : ix = 1 ∧ iy = 1
      · obtain ⟨rfl, rfl⟩ := hskip
        refine ⟨s, by rw [if_pos ⟨rfl, rfl⟩], h3, fun j k => ?_⟩
        rw [h4 j k]
        by_cases h : j = 4 * y + 1 ∧ k = 4 * x + 1
        · rw [if_pos h, if_pos h]
        · rw [if_neg h, if_neg h]
          by_cases hin : (4 * y ≤ j ∧ (j < 4 * y + 1 ∨ j = 4 * y + 1 ∧ k < 4 * x + 1)) ∧ (4 * x ≤ k ∧ k < 4 * x + 4)
          · rw [if_pos hin, if_pos (by omega)]
          · rw [if_neg hin, if_neg (by omega)]
      · have hc := at2_block hf (y := y + iy * 2) (x := x + ix * 2) (by omega) (by omega)
        rw [← Nat.add_assoc, ← Nat.add_assoc] at hc
        have hmm : at2 s ((4 * y + 1 : Nat) : Int) ((4 * x + 1 : Nat) : Int) = .ok (hornussMid f y x) := at2_sample (by rw [h4 _ _, if_pos ⟨rfl, rfl⟩])
        obtain ⟨s2, e2, t2, v2⟩ := set2_table h3 (y := 4 * y + iy) (x := x * 4 + ix) (by omega) (by omega) (f (y + iy * 2) (x + ix * 2) + hornussMid f y x)
        refine ⟨s2, by rw [if_neg hskip, hc, Res.bind_ok, hmm, Res.bind_ok, e2], t2, fun j k => ?_⟩
        rw [v2 j k, h4 j k]
        by_cases hjk : j = 4 * y + iy ∧ k = x * 4 + ix
        · obtain ⟨rfl, rfl⟩ := hjk
          rw [if_pos ⟨rfl, rfl⟩, if_neg (by omega), if_pos (by omega), show 4 * y + iy - 4 * y = iy by omega, show x * 4 + ix - 4 * x = ix by omega]
        · rw [if_neg hjk]
          by_cases h : j = 4 * y + 1 ∧ k = 4 * x + 1
          · rw [if_pos h, if_pos h]
          · rw [if_neg h, if_neg h]
            by_cases hin : (4 * y ≤ j ∧ (j < 4 * y + iy ∨ j = 4 * y + iy ∧ k < 4 * x + ix)) ∧ (4 * x ≤ k ∧ k < 4 * x + 4)
            · rw [if_pos hin, if_pos (by omega)]
            · rw [if_neg hin, if_neg (by omega)])
    (by
      rintro iy s hiy ⟨h3, h4⟩
      refine ⟨h3, fun j k => ?_⟩
      rw [h4 j k]
      by_cases h : j = 4 * y + 1 ∧ k = 4 * x + 1
      · rw [if_pos h, if_pos h]
      · rw [if_neg h, if_neg h]
        by_cases hin : (4 * y ≤ j ∧ (j < 4 * y + iy ∨ j = 4 * y + iy ∧ k < 4 * x + 4)) ∧ (4 * x ≤ k ∧ k < 4 * x + 4)
        · rw [if_pos hin, if_pos (by omega)]
        · rw [if_neg hin, if_neg (by omega)])
  rw [e1, Res.bind_ok]
  have hc := at2_block hf (y := y + 2) (x := x + 2) (by omega) (by omega)
  rw [← Nat.add_assoc, ← Nat.add_assoc] at hc
  have hmm : at2 u1 ((4 * y + 1 : Nat) : Int) ((4 * x + 1 : Nat) : Int) = .ok (hornussMid f y x) := at2_sample (by rw [v1 _ _, if_pos ⟨rfl, rfl⟩])
  rw [hc, Res.bind_ok, hmm, Res.bind_ok]
  obtain ⟨s2, e2, t2, v2⟩ := set2_table t1 (y := 4 * y) (x := 4 * x) (by omega) (by omega) (f (y + 2) (x + 2) + hornussMid f y x)
  refine ⟨s2, e2, t2, fun j k => ?_⟩
  rw [v2 j k, v1 j k]
  by_cases hin : (4 * y ≤ j ∧ j < 4 * y + 4) ∧ (4 * x ≤ k ∧ k < 4 * x + 4)
  · rw [if_pos hin]
    beta_reduce
    rw [hmid (j - 4 * y) (k - 4 * x) (by omega) (by omega)]
    by_cases h00 : j = 4 * y ∧ k = 4 * x
    · obtain ⟨rfl, rfl⟩ := h00
      rw [if_pos ⟨rfl, rfl⟩, if_neg (by omega), if_pos (by omega)]
    · rw [if_neg h00]
      by_cases h11 : j = 4 * y + 1 ∧ k = 4 * x + 1
      · rw [if_pos h11, if_pos (by omega)]
      · rw [if_neg h11, if_pos (by omega), if_neg (by omega), if_neg (by omega)]
  · rw [if_neg hin, if_neg (by omega), if_neg (by omega), if_neg (by omega)]

theorem invertHornuss_ok (hf : HasBlock py px 8 8 f coeffs) (ht : t.Ok) (hT : Table H W buffer) (hH : fy + 8 ≤ H) (hW : fx + 8 ≤ W) :
    ∃ b' t', invertHornuss coeffs buffer (py, px) (fy, fx) (8, 8) t = .ok (b', t') ∧ t'.Ok ∧ Laid H W fy fx 8 8 (hornussSamples f) buffer b' := by
  obtain ⟨h0, h1, h2, h3⟩ := ht
  unfold invertHornuss
  obtain ⟨u1, e1, L1⟩ := auxDCT2_ok h1 (sy := 0) (sx := 0) (num := 1) hf (by decide) (by decide) (by decide)
  rw [show 2 * 1 = 2 from rfl] at e1
  rw [e1, Res.bind_ok]
  obtain ⟨a, ea, La⟩ := hornussQuarter_ok hf h0 L1.block (y := 0) (x := 0) (by decide) (by decide)
  obtain ⟨b, eb, Lb⟩ := hornussQuarter_ok hf La.1 L1.block (y := 0) (x := 1) (by decide) (by decide)
  obtain ⟨d, ed, Ld⟩ := hornussQuarter_ok hf Lb.1 L1.block (y := 1) (x := 0) (by decide) (by decide)
  obtain ⟨e, ee, Le⟩ := hornussQuarter_ok hf Ld.1 L1.block (y := 1) (x := 1) (by decide) (by decide)
  have eAll : forFrom (fun y s0 => forFrom (fun x s0 => hornussQuarter coeffs u1 (py, px) y x s0) 2 0 s0) 2 0 t.s0 = .ok e := by
    simp only [forFrom]
    rw [ea, Res.bind_ok, Nat.zero_add, eb, Res.bind_ok, Res.bind_ok, ed, Res.bind_ok, ee, Res.bind_ok, Res.bind_ok]
  rw [eAll, Res.bind_ok]
  have hE : HasBlock 0 0 8 8 (hornussSamples f) e := by
    intro j k hj hk
    rw [Nat.zero_add, Nat.zero_add, Le.2, Ld.2, Lb.2, La.2]
    by_cases hj4 : j < 4
    · by_cases hk4 : k < 4
      · rw [if_neg (by omega), if_neg (by omega), if_neg (by omega), if_pos (by omega)]
        simp only [Nat.mul_zero, Nat.zero_add, Nat.sub_zero]
      · rw [if_neg (by omega), if_neg (by omega), if_pos (by omega)]
        simp only [Nat.mul_zero, Nat.zero_add, Nat.sub_zero, Nat.mul_one, show 4 + (k - 4) = k by omega]
    · by_cases hk4 : k < 4
      · rw [if_neg (by omega), if_pos (by omega)]
        simp only [Nat.mul_zero, Nat.zero_add, Nat.sub_zero, Nat.mul_one, show 4 + (j - 4) = j by omega]
      · rw [if_pos (by omega)]
        simp only [Nat.mul_one, show 4 + (j - 4) = j by omega, show 4 + (k - 4) = k by omega]
  obtain ⟨b', e', L'⟩ := layBlock_ok hT (by decide) hH hW hE
  rw [e', Res.bind_ok]
  exact ⟨b', _, rfl, ⟨Le.1, L1.1, h2, h3⟩, L'⟩

end

end Jxl
