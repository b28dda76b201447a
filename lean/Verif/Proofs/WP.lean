import Verif.Spec.WP
import Verif.Proofs.Modular
import Verif.Props.Util
import Mathlib.Tactic.Positivity

/-! Proofs about the weighted predictor. -/
namespace Jxl

theorem floorLog1p_log2 {x : Nat} (hx : x < 2 ^ 64) : floorLog1p 64 x = Nat.log2 (x + 1) := by
  have h := C41_floorLog1p 64 x hx
  exact ((Nat.log2_eq_iff (by omega)).2 h).symm

theorem idx_recip {i : Int} (h0 : 0 ≤ i) (h1 : i < 64) : idx oneL24OverKP1 i = .ok (recip24 i) := by
  obtain ⟨n, rfl⟩ := Int.eq_ofNat_of_zero_le h0
  apply idx_of_getElem?
  unfold oneL24OverKP1 recip24
  rw [List.getElem?_map, List.getElem?_range (by omega)]
  simp

theorem recip24_pos {i : Int} (h0 : 0 ≤ i) (h1 : i < 64) : 262144 ≤ recip24 i ∧ recip24 i ≤ 16777216 := by
  unfold recip24
  constructor
  · rw [Int.le_ediv_iff_mul_le (by omega)]; omega
  · exact Int.ediv_le_self _ (by omega)

theorem shift_index {e : Nat} : e / 2 ^ (Nat.log2 (e + 1) - 5) < 64 := by
  have h := (Nat.log2_eq_iff (n := e + 1) (k := Nat.log2 (e + 1)) (by omega)).1 rfl
  rw [Nat.div_lt_iff_lt_mul (by positivity)]
  by_cases h5 : 5 ≤ Nat.log2 (e + 1)
  · have : (64 : Nat) * 2 ^ (Nat.log2 (e + 1) - 5) = 2 ^ (Nat.log2 (e + 1) + 1) := by
      rw [show (64 : Nat) = 2 ^ 6 from rfl, ← Nat.pow_add]; congr 1; omega
    omega
  · have h2 : 2 ^ (Nat.log2 (e + 1) + 1) ≤ 2 ^ 5 := Nat.pow_le_pow_right (by omega) (by omega)
    have : 1 ≤ 2 ^ (Nat.log2 (e + 1) - 5) := Nat.one_le_two_pow
    omega

theorem weightShift_eq {e : Nat} (h : e < 2 ^ 31) : weightShift e = Nat.log2 (e + 1) - 5 := by
  unfold weightShift
  rw [show ((e : Int) % 18446744073709551616).toNat = e by omega, floorLog1p_log2 (by omega)]

theorem wpWeight_bounds {mw e : Int} (hm : 0 ≤ mw) (he : 0 ≤ e) :
    4 ≤ wpWeight mw e ∧ wpWeight mw e ≤ 4 + mw * 16777216 := by
  obtain ⟨n, rfl⟩ := Int.eq_ofNat_of_zero_le he
  unfold wpWeight
  dsimp only
  rw [Int.toNat_natCast]
  have hi := shift_index (e := n)
  have hi' : (n : Int) / 2 ^ (Nat.log2 (n + 1) - 5) < 64 := by exact_mod_cast hi
  have hi0 : (0 : Int) ≤ (n : Int) / 2 ^ (Nat.log2 (n + 1) - 5) := Int.ediv_nonneg (by omega) (by positivity)
  obtain ⟨r1, r2⟩ := recip24_pos hi0 hi'
  have hp : 0 ≤ mw * recip24 ((n : Int) / 2 ^ (Nat.log2 (n + 1) - 5)) := Int.mul_nonneg hm (by omega)
  have h1 : 0 ≤ mw * recip24 ((n : Int) / 2 ^ (Nat.log2 (n + 1) - 5)) / 2 ^ (Nat.log2 (n + 1) - 5) := Int.ediv_nonneg hp (by positivity)
  have h2 : mw * recip24 ((n : Int) / 2 ^ (Nat.log2 (n + 1) - 5)) / 2 ^ (Nat.log2 (n + 1) - 5) ≤ mw * recip24 ((n : Int) / 2 ^ (Nat.log2 (n + 1) - 5)) :=
    Int.ediv_le_self _ hp
  have h3 : mw * recip24 ((n : Int) / 2 ^ (Nat.log2 (n + 1) - 5)) ≤ mw * 16777216 := Int.mul_le_mul_of_nonneg_left r2 hm
  omega

theorem errorWeight_eq {mw e : Int} (hm : 0 ≤ mw) (hm' : mw ≤ 15) (he : 0 ≤ e) (he' : e < 2 ^ 31) :
    errorWeight mw e = .ok (wpWeight mw e) := by
  obtain ⟨b1, b2⟩ := wpWeight_bounds hm he
  obtain ⟨n, rfl⟩ := Int.eq_ofNat_of_zero_le he
  unfold errorWeight sar
  rw [weightShift_eq (by omega)]
  have hi : (n : Int) / 2 ^ (Nat.log2 (n + 1) - 5) < 64 := by exact_mod_cast (shift_index (e := n))
  rw [idx_recip (Int.ediv_nonneg (by omega) (by positivity)) hi, Res.bind_ok]
  unfold wpWeight at b1 b2 ⊢
  dsimp only at b1 b2 ⊢
  rw [Int.toNat_natCast] at b1 b2 ⊢
  rw [i32_id (by omega) (by omega)]

theorem errorWeight_neg {mw e : Int} (he : e < 0) : errorWeight mw e = .panic := by
  unfold errorWeight sar
  have : e / 2 ^ weightShift e < 0 := Int.ediv_neg_of_neg_of_pos he (by positivity)
  unfold idx
  rw [if_pos this]
  rfl

theorem dotProd_zipWith : ∀ (a b : List Int), dotProd a b = (List.zipWith (· * ·) a b).sum
  | [], _ => by simp [dotProd]
  | _ :: _, [] => by simp [dotProd]
  | x :: xs, y :: ys => by simp [dotProd, dotProd_zipWith xs ys]

/-- Four weights as the code computes them, scaled. -/
theorem scaled_sum {a b c d : Int} (ha : 4 ≤ a ∧ a ≤ 4 + 15 * 16777216) (hb : 4 ≤ b ∧ b ≤ 4 + 15 * 16777216)
    (hc : 4 ≤ c ∧ c ≤ 4 + 15 * 16777216) (hd : 4 ≤ d ∧ d ≤ 4 + 15 * 16777216) :
    4 ≤ Nat.log2 (a + b + c + d).toNat ∧
      let k : Int := 2 ^ (Nat.log2 (a + b + c + d).toNat - 4)
      13 ≤ a / k + b / k + c / k + d / k ∧ a / k + b / k + c / k + d / k ≤ 31 ∧ 0 ≤ a / k ∧ 0 ≤ b / k ∧ 0 ≤ c / k ∧ 0 ≤ d / k := by
  obtain ⟨n, hn⟩ := Int.eq_ofNat_of_zero_le (a := a + b + c + d) (by omega)
  have hlog := (Nat.log2_eq_iff (n := (a + b + c + d).toNat) (k := Nat.log2 (a + b + c + d).toNat) (by omega)).1 rfl
  have h4 : 4 ≤ Nat.log2 (a + b + c + d).toNat := by
    rw [Nat.le_log2 (by omega)]; omega
  refine ⟨h4, ?_⟩
  obtain ⟨j, hj⟩ : ∃ j, Nat.log2 (a + b + c + d).toNat = j + 4 := ⟨Nat.log2 (a + b + c + d).toNat - 4, by omega⟩
  rw [hj] at hlog ⊢
  rw [show j + 4 - 4 = j by omega]
  have e1 : 2 ^ (j + 4) = 16 * 2 ^ j := by rw [Nat.pow_add]; omega
  have e2 : 2 ^ (j + 4 + 1) = 32 * 2 ^ j := by rw [Nat.pow_add, Nat.pow_add]; omega
  rw [e1, e2] at hlog
  have hk : (0 : Int) < 2 ^ j := by positivity
  dsimp only
  generalize hK : (2 : Int) ^ j = K at hk ⊢
  have hK' : ((2 ^ j : Nat) : Int) = K := by rw [← hK]; norm_cast
  have g1 : 16 * K ≤ a + b + c + d := by omega
  have g2 : a + b + c + d < 32 * K := by omega
  have da := Int.mul_ediv_add_emod a K
  have db := Int.mul_ediv_add_emod b K
  have dc := Int.mul_ediv_add_emod c K
  have dd := Int.mul_ediv_add_emod d K
  have ra := Int.emod_lt_of_pos a hk
  have rb := Int.emod_lt_of_pos b hk
  have rc := Int.emod_lt_of_pos c hk
  have rd := Int.emod_lt_of_pos d hk
  have sa := Int.emod_nonneg a (by omega : K ≠ 0)
  have sb := Int.emod_nonneg b (by omega : K ≠ 0)
  have sc := Int.emod_nonneg c (by omega : K ≠ 0)
  have sd := Int.emod_nonneg d (by omega : K ≠ 0)
  refine ⟨?_, ?_, Int.ediv_nonneg (by omega) (by omega), Int.ediv_nonneg (by omega) (by omega), Int.ediv_nonneg (by omega) (by omega), Int.ediv_nonneg (by omega) (by omega)⟩
  · by_contra hlt
    have : K * (a / K + b / K + c / K + d / K) ≤ K * 12 := Int.mul_le_mul_of_nonneg_left (by omega) (by omega)
    simp only [Int.mul_add] at this
    omega
  · by_contra hlt
    have : K * 32 ≤ K * (a / K + b / K + c / K + d / K) := Int.mul_le_mul_of_nonneg_left (by omega) (by omega)
    simp only [Int.mul_add] at this
    omega

/-- The average is computed for all weights the code can have computed; up to wrapping it is the average of the format. -/
theorem weightedAverage_ok (sub : List Int) {a b c d : Int} (ha : 4 ≤ a ∧ a ≤ 4 + 15 * 16777216) (hb : 4 ≤ b ∧ b ≤ 4 + 15 * 16777216)
    (hc : 4 ≤ c ∧ c ≤ 4 + 15 * 16777216) (hd : 4 ≤ d ∧ d ≤ 4 + 15 * 16777216) :
    weightedAverage sub [a, b, c, d] =
      (let ws' := [a, b, c, d].map (· / 2 ^ (Nat.log2 [a, b, c, d].sum.toNat - 4))
       .ok (i32 (i32 ((List.zipWith (· * ·) sub ws').sum + (ws'.sum / 2 - 1)) * recip24 (ws'.sum - 1) / 16777216))) := by
  obtain ⟨h4, hs⟩ := scaled_sum ha hb hc hd
  dsimp only at hs
  unfold weightedAverage
  have esum : [a, b, c, d].sum = a + b + c + d := by simp; omega
  rw [esum, i32_id (by omega) (by omega)]
  have el : floorLog1p 64 ((a + b + c + d - 1) % 18446744073709551616).toNat = Nat.log2 (a + b + c + d).toNat := by
    rw [show ((a + b + c + d - 1) % 18446744073709551616).toNat = (a + b + c + d).toNat - 1 by omega, floorLog1p_log2 (by omega)]
    congr 1; omega
  dsimp only
  rw [el, if_neg (by omega)]
  rw [show ((Nat.log2 (a + b + c + d).toNat : Int) - 4).toNat = Nat.log2 (a + b + c + d).toNat - 4 by omega]
  unfold sar
  generalize hk : (2 : Int) ^ (Nat.log2 (a + b + c + d).toNat - 4) = K at hs ⊢
  have es' : (List.map (fun x => x / K) [a, b, c, d]).sum = a / K + b / K + c / K + d / K := by simp; omega
  rw [es', i32_id (by omega) (by omega), idx_recip (by omega) (by omega), Res.bind_ok, dotProd_zipWith]
  rfl


section
variable {p : WPPlanes} {h w : Nat} (hs : p.Shape h w) {e : Nat} (he : e < 5) {x y : Nat} (hx : x < w) (hy : y < h)
include hs he hx hy

theorem Shape.at' (j' k' : Int) (j k : Nat) (ej : j' = j) (ek : k' = k) (hj : j < h) (hk : k < w) :
    p.at e j' k' = .ok (p.plane e j k) := by
  subst ej ek
  obtain ⟨pl, hpl⟩ : ∃ pl, p.err[e]? = some pl := ⟨p.err[e]'(by rw [hs.count]; omega), by simp⟩
  have hr := hs.rows pl (List.mem_of_getElem? hpl)
  unfold WPPlanes.at
  rw [idx_of_getElem? _ _ _ hpl, Res.bind_ok, at2_ofRows hr.1 hr.2 hj hk]
  unfold WPPlanes.plane
  rw [List.getD_eq_getElem?_getD, hpl]
  rfl

theorem Shape.errN : errN p (x : Int) (y : Int) e = .ok ((p.plane e).eN x y) := by
  unfold Jxl.errN Img.eN
  by_cases h1 : 0 < y
  · rw [if_neg (by omega), if_pos h1]; exact Shape.at' hs he hx hy _ _ _ _ (by omega) rfl (by omega) (by omega)
  · rw [if_pos (by omega), if_neg h1]

theorem Shape.errW : errW p (x : Int) (y : Int) e = .ok ((p.plane e).eW x y) := by
  unfold Jxl.errW Img.eW
  by_cases h1 : 0 < x
  · rw [if_neg (by omega), if_pos h1]; exact Shape.at' hs he hx hy _ _ _ _ rfl (by omega) (by omega) (by omega)
  · rw [if_pos (by omega), if_neg h1]

theorem Shape.errWW : errWW p (x : Int) (y : Int) e = .ok ((p.plane e).eWW x y) := by
  unfold Jxl.errWW Img.eWW
  by_cases h1 : 1 < x
  · rw [if_neg (by omega), if_pos h1]; exact Shape.at' hs he hx hy _ _ _ _ rfl (by omega) (by omega) (by omega)
  · rw [if_pos (by omega), if_neg h1]

theorem Shape.errNW : errNW p (x : Int) (y : Int) e = .ok ((p.plane e).eNW x y) := by
  unfold Jxl.errNW Img.eNW
  by_cases h1 : 0 < x ∧ 0 < y
  · rw [if_pos (by omega), if_pos h1]; exact Shape.at' hs he hx hy _ _ _ _ (by omega) (by omega) (by omega) (by omega)
  · rw [if_neg (by omega), if_neg h1]; exact Shape.errN hs he hx hy

theorem Shape.errNE : errNE (w : Int) p (x : Int) (y : Int) e = .ok ((p.plane e).eNE w x y) := by
  unfold Jxl.errNE Img.eNE
  by_cases h1 : x + 1 < w ∧ 0 < y
  · rw [if_pos (by omega), if_pos h1]; exact Shape.at' hs he hx hy _ _ _ _ (by omega) (by omega) (by omega) (by omega)
  · rw [if_neg (by omega), if_neg h1]; exact Shape.errN hs he hx hy

end

theorem eN_between {i : Img} {a b : Int} (h0 : a ≤ 0) (h1 : 0 ≤ b) (h : ∀ y x, a ≤ i y x ∧ i y x ≤ b) (x y : Nat) : a ≤ i.eN x y ∧ i.eN x y ≤ b := by
  unfold Img.eN; split; exacts [h _ _, ⟨h0, h1⟩]
theorem eW_between {i : Img} {a b : Int} (h0 : a ≤ 0) (h1 : 0 ≤ b) (h : ∀ y x, a ≤ i y x ∧ i y x ≤ b) (x y : Nat) : a ≤ i.eW x y ∧ i.eW x y ≤ b := by
  unfold Img.eW; split; exacts [h _ _, ⟨h0, h1⟩]
theorem eWW_between {i : Img} {a b : Int} (h0 : a ≤ 0) (h1 : 0 ≤ b) (h : ∀ y x, a ≤ i y x ∧ i y x ≤ b) (x y : Nat) : a ≤ i.eWW x y ∧ i.eWW x y ≤ b := by
  unfold Img.eWW; split; exacts [h _ _, ⟨h0, h1⟩]
theorem eNW_between {i : Img} {a b : Int} (h0 : a ≤ 0) (h1 : 0 ≤ b) (h : ∀ y x, a ≤ i y x ∧ i y x ≤ b) (x y : Nat) : a ≤ i.eNW x y ∧ i.eNW x y ≤ b := by
  unfold Img.eNW; split; exacts [h _ _, eN_between h0 h1 h _ _]
theorem eNE_between {i : Img} {a b : Int} (h0 : a ≤ 0) (h1 : 0 ≤ b) (h : ∀ y x, a ≤ i y x ∧ i y x ≤ b) (w x y : Nat) : a ≤ i.eNE w x y ∧ i.eNE w x y ≤ b := by
  unfold Img.eNE; split; exacts [h _ _, eN_between h0 h1 h _ _]

theorem errSum_bounds {i : Img} (h : ∀ y x, 0 ≤ i y x ∧ i y x ≤ 2 ^ 28) (w x y : Nat) : 0 ≤ i.errSum w x y ∧ i.errSum w x y ≤ 6 * 2 ^ 28 := by
  unfold Img.errSum
  have a1 := eN_between (Int.le_refl 0) (by decide) h x y
  have a2 := eW_between (Int.le_refl 0) (by decide) h x y
  have a3 := eNW_between (Int.le_refl 0) (by decide) h x y
  have a4 := eWW_between (Int.le_refl 0) (by decide) h x y
  have a5 := eNE_between (Int.le_refl 0) (by decide) h w x y
  split <;> omega

theorem Shape.errorSum {p : WPPlanes} {h w : Nat} (hs : p.Shape h w) (hf : p.Fine) {e : Nat} (he : e < 4) {x y : Nat} (hx : x < w) (hy : y < h) :
    errorSum (w : Int) p (x : Int) (y : Int) e = .ok ((p.plane e).errSum w x y) := by
  have hb := errSum_bounds (hf e he) w x y
  unfold Jxl.errorSum
  rw [Shape.errN hs (by omega) hx hy, Res.bind_ok, Shape.errW hs (by omega) hx hy, Res.bind_ok, Shape.errNW hs (by omega) hx hy, Res.bind_ok,
    Shape.errWW hs (by omega) hx hy, Res.bind_ok, Shape.errNE hs (by omega) hx hy, Res.bind_ok]
  unfold Img.errSum at hb ⊢
  by_cases h1 : x + 1 = w
  · rw [if_pos (by omega)]
    rw [if_pos h1] at hb ⊢
    rw [i32_id (by omega) (by omega)]
  · rw [if_neg (by omega)]
    rw [if_neg h1] at hb ⊢
    rw [Int.add_zero] at hb ⊢
    rw [i32_id (by omega) (by omega)]

theorem length4 {l : List Int} (h : l.length = 4) : ∃ a b c d, l = [a, b, c, d] := by
  match l, h with
  | [a, b, c, d], _ => exact ⟨a, b, c, d, rfl⟩

/-- The weights of the format. -/
def Img.weightsOf (e : Nat → Img) (ws : List Int) (w x y : Nat) : List Int :=
  (List.range 4).map (fun k => wpWeight (ws.getD k 0) ((e k).errSum w x y))

theorem Shape.errorWeights {p : WPPlanes} {h w : Nat} (hs : p.Shape h w) (hf : p.Fine) {x y : Nat} (hx : x < w) (hy : y < h)
    {ws : List Int} (hl : ws.length = 4) (hw : ∀ v ∈ ws, 0 ≤ v ∧ v ≤ 15) :
    errorWeights (w : Int) p (x : Int) (y : Int) 0 ws = .ok (Img.weightsOf p.plane ws w x y) ∧
      ∃ a b c d, Img.weightsOf p.plane ws w x y = [a, b, c, d] ∧ (4 ≤ a ∧ a ≤ 4 + 15 * 16777216) ∧ (4 ≤ b ∧ b ≤ 4 + 15 * 16777216) ∧
        (4 ≤ c ∧ c ≤ 4 + 15 * 16777216) ∧ (4 ≤ d ∧ d ≤ 4 + 15 * 16777216) := by
  obtain ⟨a, b, c, d, rfl⟩ := length4 hl
  have h0 := errSum_bounds (hf 0 (by omega)) w x y
  have h1 := errSum_bounds (hf 1 (by omega)) w x y
  have h2 := errSum_bounds (hf 2 (by omega)) w x y
  have h3 := errSum_bounds (hf 3 (by omega)) w x y
  have wa := hw a (by simp)
  have wb := hw b (by simp)
  have wc := hw c (by simp)
  have wd := hw d (by simp)
  have e : Img.weightsOf p.plane [a, b, c, d] w x y = [wpWeight a ((p.plane 0).errSum w x y), wpWeight b ((p.plane 1).errSum w x y),
      wpWeight c ((p.plane 2).errSum w x y), wpWeight d ((p.plane 3).errSum w x y)] := rfl
  refine ⟨?_, _, _, _, _, e, ?_, ?_, ?_, ?_⟩
  · rw [e]
    simp only [Jxl.errorWeights]
    rw [Shape.errorSum hs hf (by omega) hx hy, Res.bind_ok, errorWeight_eq wa.1 wa.2 h0.1 (by omega), Res.bind_ok,
      Shape.errorSum hs hf (by omega) hx hy, Res.bind_ok, errorWeight_eq wb.1 wb.2 h1.1 (by omega), Res.bind_ok,
      Shape.errorSum hs hf (by omega) hx hy, Res.bind_ok, errorWeight_eq wc.1 wc.2 h2.1 (by omega), Res.bind_ok,
      Shape.errorSum hs hf (by omega) hx hy, Res.bind_ok, errorWeight_eq wd.1 wd.2 h3.1 (by omega), Res.bind_ok]
    rfl
  · have := wpWeight_bounds wa.1 h0.1; omega
  · have := wpWeight_bounds wb.1 h1.1; omega
  · have := wpWeight_bounds wc.1 h2.1; omega
  · have := wpWeight_bounds wd.1 h3.1; omega

/-- The code's version of the average, with wrapping. -/
def wrappedAverage (sub ws : List Int) : Int :=
  let ws' := ws.map (· / 2 ^ (Nat.log2 ws.sum.toNat - 4))
  i32 (i32 ((List.zipWith (· * ·) sub ws').sum + (ws'.sum / 2 - 1)) * recip24 (ws'.sum - 1) / 16777216)

/-- `prePredictWP` in closed form: it never fails when the error planes are in order. -/
theorem prePredictWP_eq {p : WPPlanes} {h w : Nat} (hs : p.Shape h w) (hf : p.Fine) {x y : Nat} (hx : x < w) (hy : y < h)
    {b : List (List Int)} {i : Img} (hA : Agree h w b i y x) {wp : WPParams} (hl : wp.weight.length = 4) (hw : ∀ v ∈ wp.weight, 0 ≤ v ∧ v ≤ 15) :
    let t := p.plane 4
    let sub := subPredictions wp (i32 (i.N x y * 8)) (i32 (i.NW x y * 8)) (i32 (i.NE w x y * 8)) (i32 (i.W x y * 8)) (i32 (i.NN x y * 8))
      (t.eN x y) (t.eW x y) (t.eNE w x y) (t.eNW x y)
    let avg := wrappedAverage sub (Img.weightsOf p.plane wp.weight w x y)
    prePredictWP (w : Int) wp b p (x : Int) (y : Int) = .ok ⟨sub,
      if errorSignsDiffer (t.eN x y) (t.eW x y) (t.eNW x y) then clamp4Int avg (i32 (i.W x y * 8)) (i32 (i.N x y * 8)) (i32 (i.NE w x y * 8)) else avg,
      maxErrorOf (t.eW x y) (t.eN x y) (t.eNW x y) (t.eNE w x y)⟩ := by
  intro t sub avg
  obtain ⟨hW, a, b', c, d, e, ha, hb, hc, hd⟩ := Shape.errorWeights hs hf hx hy hl hw
  have hav : weightedAverage sub (Img.weightsOf p.plane wp.weight w x y) = .ok avg := by
    have h1 := weightedAverage_ok sub ha hb hc hd
    show _ = Res.ok (wrappedAverage sub (Img.weightsOf p.plane wp.weight w x y))
    rw [e]; exact h1
  unfold prePredictWP
  rw [hA.north hy hx, Res.bind_ok, hA.northWest hy hx, Res.bind_ok, hA.northEast hy hx, Res.bind_ok, hA.west hy hx, Res.bind_ok,
    hA.northNorth hy hx, Res.bind_ok, Shape.errN hs (by omega) hx hy, Res.bind_ok, Shape.errW hs (by omega) hx hy, Res.bind_ok,
    Shape.errNE hs (by omega) hx hy, Res.bind_ok, Shape.errNW hs (by omega) hx hy, Res.bind_ok]
  dsimp only
  rw [hW, Res.bind_ok]
  show (weightedAverage sub _ >>= _) = _
  rw [hav, Res.bind_ok]

theorem errorSignsDiffer_eq {a b c : Int} (ha : -2147483648 ≤ a ∧ a < 2147483648) (hb : -2147483648 ≤ b ∧ b < 2147483648)
    (hc : -2147483648 ≤ c ∧ c < 2147483648) : errorSignsDiffer a b c = !sameSense a b c := by
  unfold errorSignsDiffer sameSense
  have ta := toInt_ofInt32 ha.1 ha.2
  have tb := toInt_ofInt32 hb.1 hb.2
  have tc := toInt_ofInt32 hc.1 hc.2
  generalize BitVec.ofInt 32 a = A at *
  generalize BitVec.ofInt 32 b = B at *
  generalize BitVec.ofInt 32 c = C at *
  have hm : ((A ^^^ B) ||| (A ^^^ C)).msb = ((A.msb ^^ B.msb) || (A.msb ^^ C.msb)) := by
    rw [BitVec.msb_or, BitVec.msb_xor, BitVec.msb_xor]
  have hz : (A ^^^ B) ||| (A ^^^ C) = 0#32 ↔ A = B ∧ A = C := by
    rw [BitVec.or_eq_zero_iff, BitVec.xor_eq_zero_iff, BitVec.xor_eq_zero_iff]
  rw [BitVec.msb_eq_toInt, BitVec.msb_eq_toInt, BitVec.msb_eq_toInt, BitVec.msb_eq_toInt, ta, tb, tc] at hm
  have hz' : ((A ^^^ B) ||| (A ^^^ C)).toInt = 0 ↔ a = b ∧ a = c := by
    rw [← BitVec.toInt_zero (w := 32), BitVec.toInt_inj, hz, ← BitVec.toInt_inj, ← BitVec.toInt_inj, ta, tb, tc]
  generalize ((A ^^^ B) ||| (A ^^^ C)).toInt = z at *
  have : decide (z ≤ 0) = (decide (z < 0) || decide (z = 0)) := by
    rw [← Bool.decide_or]; congr 1; apply propext; omega
  rw [this, hm]
  by_cases h1 : a < 0 <;> by_cases h2 : b < 0 <;> by_cases h3 : c < 0 <;>
    simp only [h1, h2, h3, hz', beq_eq_decide, Bool.decide_and, decide_true, decide_false] <;>
    by_cases h4 : a = b <;> by_cases h5 : a = c <;> simp [h4, h5] <;> omega

theorem maxErrorOf_spec {a b c d : Int} (ha : -2147483648 < a ∧ a < 2147483648) (hb : -2147483648 < b ∧ b < 2147483648)
    (hc : -2147483648 < c ∧ c < 2147483648) (hd : -2147483648 < d ∧ d < 2147483648) :
    let m := maxErrorOf a b c d
    (m = a ∨ m = b ∨ m = c ∨ m = d) ∧ a.natAbs ≤ m.natAbs ∧ b.natAbs ≤ m.natAbs ∧ c.natAbs ≤ m.natAbs ∧ d.natAbs ≤ m.natAbs := by
  have step : ∀ {u v : Int}, -2147483648 < u ∧ u < 2147483648 → -2147483648 < v ∧ v < 2147483648 → (abs32 u < abs32 v ↔ u.natAbs < v.natAbs) := by
    intro u v hu hv
    rw [abs32_eq hu.1 hu.2, abs32_eq hv.1 hv.2]; omega
  intro m
  have hm : m = maxErrorOf a b c d := rfl
  unfold maxErrorOf at hm
  dsimp only at hm
  generalize h1 : (if abs32 a < abs32 b then b else a) = u at hm
  have hu : -2147483648 < u ∧ u < 2147483648 := by rw [← h1]; split <;> assumption
  generalize h2 : (if abs32 u < abs32 c then c else u) = v at hm
  have hv : -2147483648 < v ∧ v < 2147483648 := by rw [← h2]; split <;> assumption
  simp only [step hv hd] at hm
  simp only [step hu hc] at h2
  simp only [step ha hb] at h1
  generalize m = m' at *
  split at h1 <;> split at h2 <;> split at hm <;> omega

theorem sample_mul8 {v : Int} (h : -524288 ≤ v ∧ v ≤ 524288) : i32 (v * 8) = 8 * v := by rw [i32_id (by omega) (by omega)]; omega

theorem Within.W {i : Img} {m : Int} (h0 : 0 ≤ m) (h : i.Within m) (x y : Nat) : -m ≤ i.W x y ∧ i.W x y ≤ m := by
  unfold Img.W; split
  · exact h _ _
  · split
    · exact h _ _
    · omega
theorem Within.N {i : Img} {m : Int} (h0 : 0 ≤ m) (h : i.Within m) (x y : Nat) : -m ≤ i.N x y ∧ i.N x y ≤ m := by
  unfold Img.N; split; exacts [h _ _, Within.W h0 h _ _]
theorem Within.NW {i : Img} {m : Int} (h0 : 0 ≤ m) (h : i.Within m) (x y : Nat) : -m ≤ i.NW x y ∧ i.NW x y ≤ m := by
  unfold Img.NW; split; exacts [h _ _, Within.W h0 h _ _]
theorem Within.NE {i : Img} {m : Int} (h0 : 0 ≤ m) (h : i.Within m) (w x y : Nat) : -m ≤ i.NE w x y ∧ i.NE w x y ≤ m := by
  unfold Img.NE; split; exacts [h _ _, Within.N h0 h _ _]
theorem Within.NN {i : Img} {m : Int} (h0 : 0 ≤ m) (h : i.Within m) (x y : Nat) : -m ≤ i.NN x y ∧ i.NN x y ≤ m := by
  unfold Img.NN; split; exacts [h _ _, Within.N h0 h _ _]

/-- A product with a parameter. -/
theorem param_mul {t q m : Int} (hq : 0 ≤ q ∧ q ≤ 31) (ht : -m ≤ t ∧ t ≤ m) : -(31 * m) ≤ t * q ∧ t * q ≤ 31 * m := by
  have hm : 0 ≤ m := by omega
  constructor
  · have h1 : (-m) * q ≤ t * q := Int.mul_le_mul_of_nonneg_right ht.1 hq.1
    have h2 : m * q ≤ m * 31 := Int.mul_le_mul_of_nonneg_left hq.2 hm
    rw [Int.neg_mul] at h1; omega
  · have h1 : t * q ≤ m * q := Int.mul_le_mul_of_nonneg_right ht.2 hq.1
    have h2 : m * q ≤ m * 31 := Int.mul_le_mul_of_nonneg_left hq.2 hm
    omega

/-- Without overflow the sub-predictions are those of the format, and bounded. -/
theorem subPredictions_eq {i t : Img} (hi : i.Within 524288) (ht : t.Within 8388608) {wp : WPParams} (hp : wp.OK) (w x y : Nat) :
    subPredictions wp (i32 (i.N x y * 8)) (i32 (i.NW x y * 8)) (i32 (i.NE w x y * 8)) (i32 (i.W x y * 8)) (i32 (i.NN x y * 8))
      (t.eN x y) (t.eW x y) (t.eNE w x y) (t.eNW x y) = i.wpSubs t wp w x y ∧
    ∀ s ∈ i.wpSubs t wp w x y, -50331648 ≤ s ∧ s ≤ 50331648 := by
  have hN := Within.N (by decide) hi x y
  have hW := Within.W (by decide) hi x y
  have hNW := Within.NW (by decide) hi x y
  have hNE := Within.NE (by decide) hi w x y
  have hNN := Within.NN (by decide) hi x y
  rw [sample_mul8 hN, sample_mul8 hW, sample_mul8 hNW, sample_mul8 hNE, sample_mul8 hNN]
  have tN := eN_between (by decide) (by decide) ht x y
  have tW := eW_between (by decide) (by decide) ht x y
  have tNW := eNW_between (by decide) (by decide) ht x y
  have tNE := eNE_between (by decide) (by decide) ht w x y
  unfold subPredictions Img.wpSubs sar
  dsimp only
  generalize i.N x y = N at *
  generalize i.W x y = W at *
  generalize i.NW x y = NW at *
  generalize i.NE w x y = NE at *
  generalize i.NN x y = NN at *
  generalize t.eN x y = eN at *
  generalize t.eW x y = eW at *
  generalize t.eNW x y = eNW at *
  generalize t.eNE w x y = eNE at *
  have m1 := param_mul hp.p1 (t := eW + eN + eNE) (m := 25165824) (by omega)
  have m2 := param_mul hp.p2 (t := eW + eN + eNW) (m := 25165824) (by omega)
  have n1 := param_mul hp.p3a (t := eNW) (m := 8388608) (by omega)
  have n2 := param_mul hp.p3b (t := eN) (m := 8388608) (by omega)
  have n3 := param_mul hp.p3c (t := eNE) (m := 8388608) (by omega)
  have n4 := param_mul hp.p3d (t := 8 * NN - 8 * N) (m := 8388608) (by omega)
  have n5 := param_mul hp.p3e (t := 8 * NW - 8 * W) (m := 8388608) (by omega)
  generalize (eW + eN + eNE) * wp.param1 = q1 at *
  generalize (eW + eN + eNW) * wp.param2 = q2 at *
  generalize eNW * wp.param3a = r1 at *
  generalize eN * wp.param3b = r2 at *
  generalize eNE * wp.param3c = r3 at *
  generalize (8 * NN - 8 * N) * wp.param3d = r4 at *
  generalize (8 * NW - 8 * W) * wp.param3e = r5 at *
  constructor
  · rw [i32_id (z := q1) (by omega) (by omega), i32_id (z := q2) (by omega) (by omega), i32_id (z := r1 + r2 + r3 + r4 + r5) (by omega) (by omega),
      show (2 : Int) ^ 5 = 32 from rfl,
      i32_id (by omega) (by omega), i32_id (by omega) (by omega), i32_id (by omega) (by omega), i32_id (by omega) (by omega)]
  · intro s hs
    simp only [List.mem_cons, List.not_mem_nil, or_false] at hs
    rcases hs with rfl | rfl | rfl | rfl <;> omega

theorem wrappedAverage_eq {sub : List Int} (hl : sub.length = 4) (hb : ∀ s ∈ sub, -50331648 ≤ s ∧ s ≤ 50331648) {ws : List Int} {a b c d : Int}
    (e : ws = [a, b, c, d]) (ha : 4 ≤ a ∧ a ≤ 4 + 15 * 16777216) (hb' : 4 ≤ b ∧ b ≤ 4 + 15 * 16777216)
    (hc : 4 ≤ c ∧ c ≤ 4 + 15 * 16777216) (hd : 4 ≤ d ∧ d ≤ 4 + 15 * 16777216) : wrappedAverage sub ws = wpAverage sub ws := by
  subst e
  obtain ⟨s1, s2, s3, s4, rfl⟩ := length4 hl
  obtain ⟨-, hs⟩ := scaled_sum ha hb' hc hd
  dsimp only at hs
  have b1 := hb s1 (by simp)
  have b2 := hb s2 (by simp)
  have b3 := hb s3 (by simp)
  have b4 := hb s4 (by simp)
  unfold wrappedAverage wpAverage
  dsimp only
  have esum : [a, b, c, d].sum = a + b + c + d := by simp; omega
  rw [esum]
  generalize (2 : Int) ^ (Nat.log2 (a + b + c + d).toNat - 4) = K at hs ⊢
  have es' : (List.map (fun x => x / K) [a, b, c, d]).sum = a / K + b / K + c / K + d / K := by simp; omega
  have ed : (List.zipWith (· * ·) [s1, s2, s3, s4] (List.map (fun x => x / K) [a, b, c, d])).sum =
      s1 * (a / K) + s2 * (b / K) + s3 * (c / K) + s4 * (d / K) := by simp; omega
  rw [es', ed]
  generalize a / K = a' at *
  generalize b / K = b' at *
  generalize c / K = c' at *
  generalize d / K = d' at *
  obtain ⟨g1, g2, g3, g4, g5, g6⟩ := hs
  have mulb : ∀ {s v : Int}, 0 ≤ v → -50331648 ≤ s ∧ s ≤ 50331648 → -(50331648 * v) ≤ s * v ∧ s * v ≤ 50331648 * v := by
    intro s v hv hs
    constructor
    · have := Int.mul_le_mul_of_nonneg_right hs.1 hv; omega
    · exact Int.mul_le_mul_of_nonneg_right hs.2 hv
  have p1 := mulb g3 b1
  have p2 := mulb g4 b2
  have p3 := mulb g5 b3
  have p4 := mulb g6 b4
  generalize s1 * a' = q1 at *
  generalize s2 * b' = q2 at *
  generalize s3 * c' = q3 at *
  generalize s4 * d' = q4 at *
  rw [i32_id (z := q1 + q2 + q3 + q4 + _) (by omega) (by omega)]
  have hr := recip24_pos (i := a' + b' + c' + d' - 1) (by omega) (by omega)
  generalize recip24 (a' + b' + c' + d' - 1) = R at *
  have hS : -1600000000 ≤ q1 + q2 + q3 + q4 + ((a' + b' + c' + d') / 2 - 1) ∧ q1 + q2 + q3 + q4 + ((a' + b' + c' + d') / 2 - 1) ≤ 1600000000 := by omega
  generalize q1 + q2 + q3 + q4 + ((a' + b' + c' + d') / 2 - 1) = S at *
  have hlo : -1600000000 * 16777216 ≤ S * R := by
    have h1 : -1600000000 * R ≤ S * R := Int.mul_le_mul_of_nonneg_right hS.1 (by omega)
    omega
  have hhi : S * R ≤ 1600000000 * 16777216 := by
    have h1 : S * R ≤ 1600000000 * R := Int.mul_le_mul_of_nonneg_right hS.2 (by omega)
    omega
  generalize S * R = T at *
  rw [i32_id (by omega) (by omega)]

theorem avg_range (sub ws : List Int) : -2147483648 ≤ wrappedAverage sub ws ∧ wrappedAverage sub ws < 2147483648 := i32_range _

theorem clamp4Int_eq {v a b c : Int} (hv : -2147483648 ≤ v ∧ v < 2147483648) (ha : -2147483648 ≤ a ∧ a < 2147483648)
    (hb : -2147483648 ≤ b ∧ b < 2147483648) (hc : -2147483648 ≤ c ∧ c < 2147483648) :
    clamp4Int v a b c = max (min a (min b c)) (min v (max a (max b c))) := by
  unfold clamp4Int
  rw [C41_clamp4, toInt_ofInt32 hv.1 hv.2, toInt_ofInt32 ha.1 ha.2, toInt_ofInt32 hb.1 hb.2, toInt_ofInt32 hc.1 hc.2]
  omega

theorem setAt_ok {α : Type} {l : List α} {n : Nat} (h : n < l.length) (v : α) : setAt l (n : Int) v = .ok (l.set n v) := by
  unfold setAt
  rw [if_neg (by omega), Int.toNat_natCast, if_pos h]

/-- Plane `k` of a list of planes. -/
def planeOf (err : List (List (List Int))) (k : Nat) : Img := Img.ofRows (err.getD k [])

/-- Replacing one value in one plane. -/
theorem plane_set {err : List (List (List Int))} {h w : Nat} (hl : err.length = 5) (hr : ∀ pl ∈ err, pl.length = h ∧ ∀ r ∈ pl, r.length = w)
    {y x e : Nat} (hy : y < h) (hx : x < w) (he : e < 5) (v : Int) :
    ∃ pl pl' err', idx err (e : Int) = .ok pl ∧ set2 pl (y : Int) (x : Int) v = .ok pl' ∧ setAt err (e : Int) pl' = .ok err' ∧
      err'.length = 5 ∧ (∀ pl ∈ err', pl.length = h ∧ ∀ r ∈ pl, r.length = w) ∧
      ∀ k j l, planeOf err' k j l = if k = e ∧ j = y ∧ l = x then v else planeOf err k j l := by
  obtain ⟨pl, hpl⟩ : ∃ pl, err[e]? = some pl := ⟨err[e]'(by omega), by simp⟩
  obtain ⟨s1, s2⟩ := hr pl (List.mem_of_getElem? hpl)
  obtain ⟨pl', t1, t2, t3, t4⟩ := set2_ok s1 s2 hy hx v
  refine ⟨pl, pl', err.set e pl', idx_of_getElem? _ _ _ hpl, t1, setAt_ok (by omega) _, by rw [List.length_set]; exact hl, ?_, ?_⟩
  · intro q hq
    rcases List.mem_or_eq_of_mem_set hq with hq | rfl
    · exact hr q hq
    · exact ⟨t2, t3⟩
  · intro k j l
    unfold planeOf
    rw [List.getD_eq_getElem?_getD, List.getD_eq_getElem?_getD, List.getElem?_set]
    by_cases hk : e = k
    · subst hk
      rw [if_pos rfl, if_pos (by omega)]
      simp only [Option.getD_some, true_and]
      rw [t4, hpl]
      rfl
    · rw [if_neg hk, if_neg (fun hh => hk hh.1.symm)]

/-- What is stored for a sub-prediction. -/
def storedErr (s v : Int) : Int := sar (i32 (abs32 (i32 (s - i32 (v * 8))) + 3)) 3

theorem storeErrors_ok {h w : Nat} {y x : Nat} (hy : y < h) (hx : x < w) (v : Int) : ∀ (subs : List Int) (e : Nat) (err : List (List (List Int))),
    e + subs.length ≤ 4 → err.length = 5 → (∀ pl ∈ err, pl.length = h ∧ ∀ r ∈ pl, r.length = w) →
    ∃ err', storeErrors v y x e subs err = .ok err' ∧ err'.length = 5 ∧ (∀ pl ∈ err', pl.length = h ∧ ∀ r ∈ pl, r.length = w) ∧
      ∀ k j l, planeOf err' k j l = if e ≤ k ∧ k < e + subs.length ∧ j = y ∧ l = x then storedErr (subs.getD (k - e) 0) v else planeOf err k j l
  | [], e, err, _, hl, hr => ⟨err, rfl, hl, hr, fun k j l => by rw [if_neg (by simp; omega)]⟩
  | s :: ss, e, err, he, hl, hr => by
    rw [List.length_cons] at he
    obtain ⟨pl, pl', err1, a1, a2, a3, a4, a5, a6⟩ := plane_set hl hr hy hx (e := e) (by omega) (storedErr s v)
    obtain ⟨err2, b1, b2, b3, b4⟩ := storeErrors_ok hy hx v ss (e + 1) err1 (by omega) a4 a5
    refine ⟨err2, ?_, b2, b3, ?_⟩
    · rw [storeErrors, a1, Res.bind_ok]
      unfold storedErr at a2
      rw [a2, Res.bind_ok, a3, Res.bind_ok, b1]
    · intro k j l
      rw [b4, a6, List.length_cons]
      by_cases hp : j = y ∧ l = x
      · obtain ⟨rfl, rfl⟩ := hp
        by_cases hk : k = e
        · subst hk
          rw [if_neg (by omega), if_pos (by simp), if_pos (by simp)]
          simp
        · by_cases hk2 : e + 1 ≤ k ∧ k < e + 1 + ss.length
          · rw [if_pos (by omega), if_pos (by omega)]
            obtain ⟨d, rfl⟩ : ∃ d, k = e + 1 + d := ⟨k - (e + 1), by omega⟩
            rw [show e + 1 + d - e = d + 1 by omega, show e + 1 + d - (e + 1) = d by omega]
            rfl
          · rw [if_neg (by omega), if_neg (by omega), if_neg (by omega)]
      · rw [if_neg (by omega), if_neg (by omega), if_neg (by omega)]

theorem wpUpdate_ok {env : ChanEnv} (hu : env.useWP = true) {p : WPPlanes} {h w : Nat} (hs : p.Shape h w) {x y : Nat} (hx : x < w) (hy : y < h)
    {r : WPResult} (hl : r.sub.length = 4) (v : Int) :
    ∃ p', wpUpdate env r v p x y = .ok p' ∧ p'.Shape h w ∧ p'.pred = p.pred ∧
      (∀ k j l, p'.plane k j l = if k < 4 ∧ j = y ∧ l = x then storedErr (r.sub.getD k 0) v
        else if k = 4 ∧ j = y ∧ l = x then i32 (r.pred - i32 (v * 8)) else p.plane k j l) := by
  obtain ⟨err1, a1, a2, a3, a4⟩ := storeErrors_ok hy hx v r.sub 0 p.err (by omega) hs.count hs.rows
  obtain ⟨pl, pl', err2, b1, b2, b3, b4, b5, b6⟩ := plane_set a2 a3 hy hx (e := 4) (by omega) (i32 (r.pred - i32 (v * 8)))
  refine ⟨⟨err2, p.pred⟩, ?_, ⟨b4, b5, hs.pred⟩, rfl, ?_⟩
  · unfold wpUpdate storeTrueError
    rw [if_pos hu, a1, Res.bind_ok]
    rw [show ((4 : Nat) : Int) = 4 from rfl] at b1 b3
    rw [b1, Res.bind_ok, b2, Res.bind_ok, b3, Res.bind_ok]
  · intro k j l
    show planeOf err2 k j l = _
    rw [b6, a4, hl]
    show _ = if _ then _ else if _ then _ else planeOf p.err k j l
    by_cases hk : k = 4
    · subst hk
      simp
    · by_cases hk4 : k < 4
      · by_cases hjl : j = y ∧ l = x
        · rw [if_neg (by omega), if_pos (by omega), if_pos (by omega), Nat.sub_zero]
        · rw [if_neg (by omega), if_neg (by omega), if_neg (by omega), if_neg (by omega)]
      · rw [if_neg (by omega), if_neg (by omega), if_neg (by omega), if_neg (by omega)]

theorem storedErr_eq {s v : Int} (hd : (s - 8 * v).natAbs < 2 ^ 31 - 3) : storedErr s v = wpErr s v ∧ 0 ≤ wpErr s v ∧ wpErr s v ≤ 2 ^ 28 := by
  unfold storedErr wpErr sar
  have e1 : i32 (s - i32 (v * 8)) = s - 8 * v := by
    unfold i32 at *; omega
  rw [e1, abs32_eq (by omega) (by omega), i32_id (by omega) (by omega)]
  omega

end Jxl
