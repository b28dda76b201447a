import Verif.Spec.CoefficientCoding
import Verif.Props.Coefficients
import Verif.Proofs.LFCoefficients

/-! # Lemmas: the symbols of coefficients give the coefficients -/
namespace Jxl
open Spec

theorem Delivers.split {σ : Type} {read : σ → Int → Rd (Int × σ)} {offset : Nat} : ∀ {ts us : List (Nat × Nat)} {st st' : σ} {s s' : BR}, Delivers read offset (ts ++ us) st s st' s' →
    ∃ st1 s1, Delivers read offset ts st s st1 s1 ∧ Delivers read offset us st1 s1 st' s'
  | [], us, st, st', s, s', h => ⟨st, s, ⟨rfl, rfl⟩, h⟩
  | t :: ts, us, st, st', s, s', h => by
    obtain ⟨st1, s1, e, h⟩ := h
    obtain ⟨st2, s2, h1, h2⟩ := Delivers.split h
    exact ⟨st2, s2, ⟨st1, s1, e, h1⟩, h2⟩

theorem class_tables : ∀ a : Fin 64, (1 ≤ a.1 → coeffNumNonzeroCtx[a.1]? = some ((countClass a.1 : Nat) : Int)) ∧ (1 ≤ a.1 → coeffFreqCtx[a.1]? = some ((freqClass a.1 : Nat) : Int)) := by
  decide +kernel

theorem coefficientContext_value {k left B : Nat} (hB : 0 < B) (hB2 : B ≤ 1024) (hl : 0 < left) (hsum : k + left ≤ 63 * B) (prev : Bool) :
    getCoefficientContext ((k : Int) + (B : Int)) (left : Int) (B : Int) (if prev then 1 else 0) =
      .ok ((2 * (countClass ((left + B - 1) / B) + freqClass ((k + B) / B)) + (if prev then 1 else 0) : Nat) : Int) ∧
    2 * (countClass ((left + B - 1) / B) + freqClass ((k + B) / B)) + (if prev then 1 else 0) < 458 := by
  have h1 : 1 ≤ (left + B - 1) / B := (Nat.le_div_iff_mul_le hB).2 (by omega)
  have h2 : (left + B - 1) / B < 64 := (Nat.div_lt_iff_lt_mul hB).2 (by omega)
  have h3 : 1 ≤ (k + B) / B := (Nat.le_div_iff_mul_le hB).2 (by omega)
  have h4 : (k + B) / B < 64 := (Nat.div_lt_iff_lt_mul hB).2 (by omega)
  have e : getCoefficientContext ((k : Int) + (B : Int)) (left : Int) (B : Int) (if prev then 1 else 0) =
      .ok ((2 * (countClass ((left + B - 1) / B) + freqClass ((k + B) / B)) + (if prev then 1 else 0) : Nat) : Int) := by
    unfold getCoefficientContext
    rw [i32_in (by omega) (by omega), show (left : Int) + (B : Int) - 1 = ((left + B - 1 : Nat) : Int) by omega, show (k : Int) + (B : Int) = ((k + B : Nat) : Int) by omega,
      Int.tdiv_eq_ediv_of_nonneg (by omega), Int.tdiv_eq_ediv_of_nonneg (by omega), ← Int.natCast_div, ← Int.natCast_div,
      idx_nat ((class_tables ⟨_, h2⟩).1 h1), Res.bind_ok, idx_nat ((class_tables ⟨_, h4⟩).2 h3), Res.bind_ok]
    congr 1
    cases prev <;> simp <;> omega
  refine ⟨e, ?_⟩
  have := coefficientContext_range (k := k) (nz := left) (nb := B) (by omega) (by omega) (by omega) (by omega) (by omega) (by cases prev <;> simp) e
  omega

theorem packed_lt {v : Int} (h1 : -1073741824 ≤ v) (h2 : v < 1073741824) : packed v < 2147483648 := by
  unfold packed
  split <;> omega

theorem packed_zero {v : Int} : packed v = 0 ↔ v = 0 := by
  unfold packed
  split <;> omega

theorem unpack_packed {v : Int} (h1 : -1073741824 ≤ v) (h2 : v < 1073741824) (shift : Nat) : unpackSigned (toU32 (packed v : Int)) * 2 ^ shift = v * 2 ^ shift := by
  rw [unpack_coefficient (by omega) (by have := packed_lt h1 h2; omega)]
  unfold coefficient packed
  congr 1
  split <;> split <;> omega

variable {σ : Type} {read : σ → Int → Rd (Int × σ)}

/-- A plane that has zeros and values of `F`. -/
def PartlyHolds (H W : Nat) (F g : Nat → Nat → Int) (m : List (List Int)) : Prop := HoldsMat H W g m ∧ ∀ y x, g y x = 0 ∨ g y x = F y x

theorem coeffLoop_delivers {offset n ctx B : Nat} (hB : 0 < B) (hB2 : B ≤ 1024) (hctx : ctx < n) (hsmall : offset + 495 * n < 2147483648) {order : List Point} (hlen : order.length = 64 * B)
    {flip : Bool} {py px shift H W : Nat} {f : Nat → Nat → Int} (hf : ∀ y x, (-1073741824 ≤ f y x ∧ f y x < 1073741824) ∧ -2147483648 ≤ f y x * 2 ^ shift ∧ f y x * 2 ^ shift < 2147483648) :
    ∀ (ps : List Point) (k left : Nat) (prev : Bool) (pu : Int) (st st' : σ) (q : List (List Int)) (g : Nat → Nat → Int) (s s' : BR),
    (order.drop (k + B)).map (coeffPlace flip) = ps → (∀ p ∈ ps, 0 ≤ p.y ∧ 0 ≤ p.x ∧ py + p.y.toNat < H ∧ px + p.x.toNat < W) →
    left = nonzeros (ps.map fun p => f (py + p.y.toNat) (px + p.x.toNat)) → 0 < left → prevFlag k left order.length pu = (if prev then 1 else 0) →
    PartlyHolds H W (fun y x => f y x * 2 ^ shift) g q →
    Delivers read offset (valueSymbols n ctx B (k + B) left prev (ps.map fun p => f (py + p.y.toNat) (px + p.x.toNat))) st s st' s' →
    ∃ q' g', coeffLoop read ((offset + (458 * ctx + 37 * n) : Nat) : Int) B order flip py px shift ps.length k left pu st q s = (.ok (0, st', q'), s') ∧
      PartlyHolds H W (fun y x => f y x * 2 ^ shift) g' q' ∧ (∀ y x, g y x = f y x * 2 ^ shift → g' y x = f y x * 2 ^ shift) ∧
      ∀ p ∈ ps, g' (py + p.y.toNat) (px + p.x.toNat) = f (py + p.y.toNat) (px + p.x.toNat) * 2 ^ shift := by
  intro ps
  induction ps with
  | nil =>
    intro k left prev pu st st' q g s s' _ _ hl hpos
    rw [hl] at hpos
    exact absurd hpos (by simp [nonzeros])
  | cons p ps ih =>
    intro k left prev pu st st' q g s s' hps hin hl hpos hprev hq hd
    obtain ⟨hpy, hpx, hH, hW⟩ := hin p List.mem_cons_self
    have hk : ps.length + 1 + k + B = 64 * B := by
      have := congrArg List.length hps
      rw [List.length_map, List.length_drop, hlen, List.length_cons] at this
      omega
    have hleft : left ≤ ps.length + 1 := by
      rw [hl]
      unfold nonzeros
      refine Nat.le_trans List.countP_le_length ?_
      simp
    obtain ⟨o, ho, rfl⟩ : ∃ o, order[k + B]? = some o ∧ coeffPlace flip o = p := by
      have := congrArg (fun l => l[0]?) hps
      simp only [List.getElem?_map, List.getElem?_drop, List.getElem?_cons_zero, Nat.add_zero] at this
      exact Option.map_eq_some_iff.1 this
    have hps' : (order.drop (k + 1 + B)).map (coeffPlace flip) = ps := by
      have := congrArg List.tail hps
      rw [← List.map_tail, List.tail_drop, List.tail_cons] at this
      rw [show k + 1 + B = k + B + 1 by omega]
      exact this
    obtain ⟨ec, hc⟩ := coefficientContext_value (k := k) (left := left) hB hB2 hpos (by omega) prev
    rw [List.map_cons, valueSymbols, if_neg (by omega)] at hd
    obtain ⟨st1, s1, er, hd⟩ := hd
    generalize hp : coeffPlace flip o = p at *
    obtain ⟨⟨hv1, hv2⟩, hv3, hv4⟩ := hf (py + p.y.toNat) (px + p.x.toNat)
    generalize hv : f (py + p.y.toNat) (px + p.x.toNat) = v at *
    obtain ⟨q1, eq1, hq1⟩ := hq.1.set hH hW (v * 2 ^ shift)
    have hq1' : PartlyHolds H W (fun y x => f y x * 2 ^ shift) (fun j i => if j = py + p.y.toNat ∧ i = px + p.x.toNat then v * 2 ^ shift else g j i) q1 := by
      refine ⟨hq1, fun y x => ?_⟩
      dsimp only
      split
      · next h => right; rw [h.1, h.2, hv]
      · exact hq.2 y x
    have estep : coeffLoop read ((offset + (458 * ctx + 37 * n) : Nat) : Int) B order flip py px shift (ps.length + 1) k left pu st q s =
        (if ((packed v : Nat) : Int) ≠ 0 then
          if (left : Int) - 1 = 0 then (pure (0, st1, q1) : Rd (Int × σ × List (List Int)))
          else coeffLoop read ((offset + (458 * ctx + 37 * n) : Nat) : Int) B order flip py px shift ps.length ((k : Int) + 1) ((left : Int) - 1) ((packed v : Nat) : Int) st1 q1
        else coeffLoop read ((offset + (458 * ctx + 37 * n) : Nat) : Int) B order flip py px shift ps.length ((k : Int) + 1) left ((packed v : Nat) : Int) st1 q1) s1 := by
      rw [coeffLoop, hprev]
      rw [Rd.bind_ok (show Rd.lift _ s = (.ok _, s) by rw [ec]; rfl)]
      have ectx : i32 (((offset + (458 * ctx + 37 * n) : Nat) : Int) + ((2 * (countClass ((left + B - 1) / B) + freqClass ((k + B) / B)) + (if prev then 1 else 0) : Nat) : Int)) =
          ((offset + valueContext n ctx B (k + B) left prev : Nat) : Int) := by
        unfold valueContext
        generalize 2 * (countClass ((left + B - 1) / B) + freqClass ((k + B) / B)) + (if prev then 1 else 0) = z at *
        rw [i32_in (by omega) (by omega)]
        omega
      rw [ectx, Rd.bind_ok er]
      rw [Rd.bind_ok (show Rd.lift (idx order ((k : Int) + (B : Int))) s1 = (.ok o, s1) by
        rw [show (k : Int) + (B : Int) = ((k + B : Nat) : Int) by omega, idx_nat ho]; rfl)]
      rw [Rd.bind_ok (show Rd.lift _ s1 = (.ok q1, s1) by
        rw [hp, unpack_packed hv1 hv2, i32_in hv3 hv4, show (py : Int) + p.y = ((py + p.y.toNat : Nat) : Int) by omega, show (px : Int) + p.x = ((px + p.x.toNat : Nat) : Int) by omega, eq1]; rfl)]
    have keep : ∀ y x, g y x = f y x * 2 ^ shift → (if y = py + p.y.toNat ∧ x = px + p.x.toNat then v * 2 ^ shift else g y x) = f y x * 2 ^ shift := by
      intro y x h
      split
      · next h' => rw [h'.1, h'.2, hv]
      · exact h
    have hin' := fun a ha => hin a (List.mem_cons_of_mem _ ha)
    rw [List.length_cons, estep]
    rw [List.map_cons, hv] at hl
    by_cases hz : v = 0
    · rw [if_neg (by rw [packed_zero.2 hz]; simp)]
      rw [if_pos hz, hz, show decide ((0 : Int) ≠ 0) = false by rfl, show k + B + 1 = k + 1 + B by omega] at hd
      have hl' : left = nonzeros (ps.map fun p => f (py + p.y.toNat) (px + p.x.toNat)) := by
        rw [hl]
        unfold nonzeros
        rw [List.countP_cons_of_neg (by simp [hz])]
      obtain ⟨q', g', e, h1, h2, h3⟩ := ih (k + 1) left false ((packed v : Nat) : Int) st1 st' q1 _ s1 s' hps' hin' hl' hpos
        (by unfold prevFlag; rw [if_neg (by omega), packed_zero.2 hz]; rfl) hq1' hd
      refine ⟨q', g', by rw [← e]; rfl, h1, fun y x h => h2 y x (keep y x h), ?_⟩
      intro a ha
      rcases List.mem_cons.1 ha with rfl | ha
      · rw [hv]
        have := h2 (py + a.y.toNat) (px + a.x.toNat) (by rw [if_pos ⟨rfl, rfl⟩, hv])
        rwa [hv] at this
      · exact h3 a ha
    · have hz' : packed v ≠ 0 := fun h => hz (packed_zero.1 h)
      rw [if_pos (by omega)]
      rw [if_neg hz, show decide (v ≠ 0) = true from decide_eq_true hz, show k + B + 1 = k + 1 + B by omega] at hd
      have hl' : left - 1 = nonzeros (ps.map fun p => f (py + p.y.toNat) (px + p.x.toNat)) := by
        rw [hl]
        unfold nonzeros
        rw [List.countP_cons_of_pos (by simpa using hz)]
        rfl
      by_cases h1 : left = 1
      · rw [if_pos (by omega)]
        have e : st' = st1 ∧ s' = s1 := by
          rw [show left - 1 = 0 by omega] at hd
          revert hd
          cases ps with
          | nil => exact fun h => h
          | cons a ps =>
            rw [List.map_cons, valueSymbols, if_pos rfl]
            exact fun h => h
        refine ⟨q1, _, by rw [e.1, e.2]; rfl, hq1', keep, ?_⟩
        intro a ha
        rcases List.mem_cons.1 ha with rfl | ha
        · rw [if_pos ⟨rfl, rfl⟩, hv]
        · have hz0 : f (py + a.y.toNat) (px + a.x.toNat) = 0 := by
            by_contra hc
            have : 0 < nonzeros (ps.map fun p => f (py + p.y.toNat) (px + p.x.toNat)) := by
              unfold nonzeros
              exact List.countP_pos_iff.2 ⟨_, List.mem_map_of_mem ha, by simpa using hc⟩
            omega
          have := hq1'.2 (py + a.y.toNat) (px + a.x.toNat)
          dsimp only at this
          rw [hz0, Int.zero_mul] at this ⊢
          exact this.elim id id
      · rw [if_neg (by omega)]
        obtain ⟨q', g', e, h1, h2, h3⟩ := ih (k + 1) (left - 1) true ((packed v : Nat) : Int) st1 st' q1 _ s1 s' hps' hin' hl' (by omega)
          (by unfold prevFlag; rw [if_neg (by omega), if_pos (by omega)]; rfl) hq1' hd
        refine ⟨q', g', by rw [← e, show ((left - 1 : Nat) : Int) = (left : Int) - 1 by omega]; rfl, h1, fun y x h => h2 y x (keep y x h), ?_⟩
        intro a ha
        rcases List.mem_cons.1 ha with rfl | ha
        · rw [hv]
          have := h2 (py + a.y.toNat) (px + a.x.toNat) (by rw [if_pos ⟨rfl, rfl⟩, hv])
          rwa [hv] at this
        · exact h3 a ha

/-! ## One channel of a block -/

theorem prediction_value {count : Nat → Nat → Nat} (hc : ∀ y x, count y x ≤ 63) {nz : List (List Int)} (hnz : HoldsMat 32 32 (fun y x => (count y x : Int)) nz) {y x : Nat} (hy : y < 32) (hx : x < 32) :
    getPredictedNonZeros nz (y : Int) (x : Int) = .ok ((countPrediction count y x : Nat) : Int) ∧ countPrediction count y x ≤ 63 := by
  unfold getPredictedNonZeros
  match y, x with
  | 0, 0 => exact ⟨by simp [countPrediction], by simp [countPrediction]⟩
  | y + 1, 0 =>
    rw [if_neg (by omega), if_pos (by omega), show ((y + 1 : Nat) : Int) - 1 = (y : Int) by omega]
    exact ⟨hnz.at2 (by omega) (by omega), hc _ _⟩
  | 0, x + 1 =>
    rw [if_neg (by omega), if_neg (by omega), if_pos (by omega), show ((x + 1 : Nat) : Int) - 1 = (x : Int) by omega]
    exact ⟨hnz.at2 (by omega) (by omega), hc _ _⟩
  | y + 1, x + 1 =>
    have h1 := hc y (x + 1)
    have h2 := hc (y + 1) x
    rw [if_neg (by omega), if_neg (by omega), if_neg (by omega), show ((x + 1 : Nat) : Int) - 1 = (x : Int) by omega, show ((y + 1 : Nat) : Int) - 1 = (y : Int) by omega,
      hnz.at2 (by omega) hx, Res.bind_ok, hnz.at2 hy (by omega), Res.bind_ok, i32_in (by omega) (by omega)]
    refine ⟨?_, ?_⟩
    · rw [countPrediction]
      congr 1
    · rw [countPrediction]
      omega

theorem countContext_value {hf : HFBlockContext} {offset n ctx p : Nat} (hn : hf.numClusters = (n : Int)) (hctx : ctx < n) (hp : p ≤ 63) (hsmall : offset + 495 * n < 2147483648) :
    i32 ((offset : Int) + getNonZeroContext hf (p : Int) (ctx : Int)) = ((offset + countContext n ctx p : Nat) : Int) := by
  unfold getNonZeroContext countContext
  dsimp only
  rw [hn, if_neg (show ¬ (64 : Int) < p by omega), show min p 64 = p by omega]
  have key : ∀ i : Nat, i < 37 → i32 ((offset : Int) + i32 ((ctx : Int) + (n : Int) * (i : Int))) = ((offset + (ctx + n * i) : Nat) : Int) := by
    intro i hi
    have h : n * i ≤ n * 36 := Nat.mul_le_mul_left _ (by omega)
    rw [← Int.natCast_mul]
    generalize n * i = z at *
    rw [i32_in (z := (ctx : Int) + (z : Int)) (by omega) (by omega), i32_in (by omega) (by omega)]
    omega
  by_cases h8 : p < 8
  · rw [if_pos (by omega), if_pos h8]
    exact key p (by omega)
  · rw [if_neg (by omega), if_neg h8, show (4 : Int) + (p : Int) / 2 = ((4 + p / 2 : Nat) : Int) by omega]
    exact key (4 + p / 2) (by omega)

theorem blockContext_value {hf : HFBlockContext} (hw : hf.WellFormed) {b : HFBlock} (hb : b.Good hf) {c : Nat} (hc : c < 3) :
    getBlockContext hf (c : Int) b.tt.orderID b.hfMult b.lfIndex = .ok ((blockContext hf c b : Nat) : Int) ∧ ((blockContext hf c b : Nat) : Int) < hf.numClusters := by
  obtain ⟨_, _, _, _, _, _, _, _, o0, o1⟩ := type_dims b.tt hb.1
  obtain ⟨v, e, h0, h1, h2⟩ := getBlockContext_ok hw (c := (c : Int)) (mul := b.hfMult) (by omega) ⟨o0, o1⟩ hb.2
  have hv : ((blockContext hf c b : Nat) : Int) = v := by
    unfold blockContext
    rw [List.getD_eq_getElem?_getD]
    rw [countBelow_eq] at h2
    obtain ⟨o, ho⟩ := Int.eq_ofNat_of_zero_le o0
    obtain ⟨l, hl⟩ := Int.eq_ofNat_of_zero_le hb.2.1
    obtain ⟨m, hm⟩ := Int.eq_ofNat_of_zero_le (show 0 ≤ hf.numLFContexts by have := hw.lf; omega)
    have ech : (if (c : Int) < 2 then 1 - (c : Int) else (c : Int)) = ((if c = 0 then 1 else if c = 1 then 0 else 2 : Nat) : Int) := by
      match c, hc with
      | 0, _ => rfl
      | 1, _ => rfl
      | 2, _ => rfl
    rw [ech, ho, hl, hm] at h2
    rw [ho, hl, hm, Int.toNat_natCast, Int.toNat_natCast, Int.toNat_natCast]
    have : (((((if c = 0 then 1 else if c = 1 then 0 else 2 : Nat) : Int) * 13 + (o : Int)) * ((hf.qfThresholds.length : Int) + 1) + (below hf.qfThresholds b.hfMult : Int)) * (m : Int) + (l : Int)).toNat =
        (((if c = 0 then 1 else if c = 1 then 0 else 2) * 13 + o) * (hf.qfThresholds.length + 1) + (hf.qfThresholds.filter (fun t => t < b.hfMult)).length) * m + l := by
      unfold below
      generalize (if c = 0 then 1 else if c = 1 then 0 else 2 : Nat) = a
      generalize (hf.qfThresholds.filter (fun t => t < b.hfMult)).length = z
      rw [← Int.toNat_natCast (((a * 13 + o) * (hf.qfThresholds.length + 1) + z) * m + l)]
      push_cast
      rfl
    rw [this] at h2
    rw [h2, Option.getD_some]
    omega
  rw [hv]
  exact ⟨e, h1⟩

theorem setNonZeros_value {count : Nat → Nat → Nat} {nz : List (List Int)} (hnz : HoldsMat 32 32 (fun y x => (count y x : Int)) nz) {tt : TransformType} {sy sx : Nat}
    (hy : sy + tt.dctHeight.toNat ≤ 32) (hx : sx + tt.dctWidth.toNat ≤ 32) (v : Nat) :
    ∃ nz', setNonZeros tt (sy : Int) (sx : Int) (v : Int) nz = .ok nz' ∧
      HoldsMat 32 32 (fun y x => ((if (sy ≤ y ∧ y < sy + tt.dctHeight.toNat) ∧ (sx ≤ x ∧ x < sx + tt.dctWidth.toNat) then v else count y x : Nat) : Int)) nz' := by
  unfold setNonZeros
  have hshift : ∀ (nh : Nat) (k : Nat) (f : Nat → List (List Int) → Res (List (List Int))) (a : Nat) (m : List (List Int)), forFrom (fun i m => f (a + i) m) nh k m = forFrom f nh (a + k) m := by
    intro nh
    induction nh with
    | zero => intro k f a m; rfl
    | succ nh ih =>
      intro k f a m
      rw [forFrom, forFrom]
      congr 1
      funext m'
      rw [ih]
      rfl
  obtain ⟨nz', e, h⟩ := cell_loop (f := fun y x m => set2 m (y : Int) (x : Int) (v : Int)) (fun g m => HoldsMat 32 32 g m) (old := fun y x => (count y x : Int)) (new := fun _ _ => (v : Int))
    sy sx tt.dctHeight.toNat tt.dctWidth.toNat nz hnz (by
      intro g y x m h1 h2 _ hg
      exact hg.set (by omega) (by omega) (v : Int))
  refine ⟨nz', ?_, h.congr fun y x _ _ => ?_⟩
  · rw [← e]
    have h1 := hshift tt.dctHeight.toNat 0 (fun y m => forFrom (fun x m => set2 m (y : Int) (x : Int) (v : Int)) tt.dctWidth.toNat sx m) sy nz
    rw [Nat.add_zero] at h1
    rw [← h1]
    congr 1
    funext iy m
    have h2 := hshift tt.dctWidth.toNat 0 (fun x m => set2 m ((sy + iy : Nat) : Int) (x : Int) (v : Int)) sx m
    rw [Nat.add_zero] at h2
    rw [← h2]
    congr 1
  · beta_reduce
    split <;> rfl

/-- The order of one channel of a type: it visits the squares of the low frequencies first. -/
structure OrderOk (tt : TransformType) (o : List Point) : Prop where
  len : o.length = 64 * squares tt
  mem : ∀ p, p ∈ blockPlaces tt o ↔ InBlock (8 * tt.dctHeight.toNat) (8 * tt.dctWidth.toNat) p ∧ ¬ InBlock tt.dctHeight.toNat tt.dctWidth.toNat p

theorem readBlockPlane_delivers {hf : HFBlockContext} (hw : hf.WellFormed) {offset : Nat} (hsmall : (offset : Int) + 495 * hf.numClusters < 2147483648) {b : HFBlock} (hb : b.Good hf) {c : Nat} (hc : c < 3)
    {order : List Point} (ho : OrderOk b.tt order) {shift H W sy sx : Nat} {f : Nat → Nat → Int}
    (hf' : ∀ y x, (-1073741824 ≤ f y x ∧ f y x < 1073741824) ∧ -2147483648 ≤ f y x * 2 ^ shift ∧ f y x * 2 ^ shift < 2147483648)
    (h1 : sy + b.tt.dctHeight.toNat ≤ 32) (h2 : sx + b.tt.dctWidth.toNat ≤ 32) (h3 : 8 * (sy + b.tt.dctHeight.toNat) ≤ H) (h4 : 8 * (sx + b.tt.dctWidth.toNat) ≤ W)
    {count : Nat → Nat → Nat} (hcount : ∀ y x, count y x ≤ 63) {p : HFPlane} (hnz : HoldsMat 32 32 (fun y x => (count y x : Int)) p.nonZeros) {g : Nat → Nat → Int}
    (hq : PartlyHolds H W (fun y x => f y x * 2 ^ shift) g p.coeffs) {vs : List Int} (hvs : vs = (blockPlaces b.tt order).map fun a => f (8 * sy + a.y.toNat) (8 * sx + a.x.toNat))
    {st st' : σ} {s s' : BR} (hd : Delivers read offset (blockSymbols hf.numClusters.toNat (blockContext hf c b) (squares b.tt) (countPrediction count sy sx) vs) st s st' s') :
    (nonzeros vs + squares b.tt - 1) / squares b.tt ≤ 63 ∧ ∃ p' g', readBlockPlane read hf offset shift order b c sy sx st p s = (.ok (st', p'), s') ∧
      HoldsMat 32 32 (fun y x => ((if (sy ≤ y ∧ y < sy + b.tt.dctHeight.toNat) ∧ (sx ≤ x ∧ x < sx + b.tt.dctWidth.toNat) then (nonzeros vs + squares b.tt - 1) / squares b.tt else count y x : Nat) : Int)) p'.nonZeros ∧
      PartlyHolds H W (fun y x => f y x * 2 ^ shift) g' p'.coeffs ∧ (∀ y x, g y x = f y x * 2 ^ shift → g' y x = f y x * 2 ^ shift) ∧
      ∀ a ∈ blockPlaces b.tt order, g' (8 * sy + a.y.toNat) (8 * sx + a.x.toNat) = f (8 * sy + a.y.toNat) (8 * sx + a.x.toNat) * 2 ^ shift := by
  obtain ⟨B, eB, hB, hB2⟩ := type_blocks hb.1
  have esq : squares b.tt = B := by unfold squares; rw [eB, Int.toNat_natCast]
  obtain ⟨hh, ww, eh, ew, hh0, ww0, _⟩ := type_dims b.tt hb.1
  obtain ⟨ectx, hctx⟩ := blockContext_value hw hb hc
  obtain ⟨n, hn⟩ := Int.eq_ofNat_of_zero_le (show 0 ≤ hf.numClusters by omega)
  generalize blockContext hf c b = ctx at *
  obtain ⟨epred, hpred⟩ := prediction_value hcount hnz (y := sy) (x := sx) (by rw [eh, Int.toNat_natCast] at h1; omega) (by rw [ew, Int.toNat_natCast] at h2; omega)
  have hlen := ho.len
  rw [esq] at hlen hd ⊢
  rw [hn, Int.toNat_natCast] at hd
  have hps : (blockPlaces b.tt order).length = 63 * B := by
    unfold blockPlaces
    rw [List.length_map, List.length_drop, hlen, esq]
    omega
  have hnum : nonzeros vs ≤ 63 * B := by
    rw [← hps, hvs]
    unfold nonzeros
    exact Nat.le_trans List.countP_le_length (by simp)
  have hmean : (nonzeros vs + B - 1) / B ≤ 63 := by
    refine Nat.lt_succ_iff.1 ((Nat.div_lt_iff_lt_mul hB).2 ?_)
    omega
  refine ⟨hmean, ?_⟩
  have hsmall' : offset + 495 * n < 2147483648 := by omega
  have hctx' : ctx < n := by omega
  obtain ⟨st1, s1, er, hd⟩ := hd
  obtain ⟨nz', enz, hnz'⟩ := setNonZeros_value hnz h1 h2 ((nonzeros vs + B - 1) / B)
  have estep : readBlockPlane read hf offset shift order b c sy sx st p s =
      (if ((nonzeros vs : Nat) : Int) ≤ 0 then (pure (st1, ⟨nz', p.coeffs⟩) : Rd (σ × HFPlane))
      else do
        let t ← coeffLoop read ((offset + (458 * ctx + 37 * n) : Nat) : Int) B order b.tt.flip ((8 * sy : Nat) : Int) ((8 * sx : Nat) : Int) shift (blockPlaces b.tt order).length ((0 : Nat) : Int) ((nonzeros vs : Nat) : Int) 0 st1 p.coeffs
        if t.1 ≠ 0 then Rd.fail else pure (t.2.1, ⟨nz', t.2.2⟩)) s1 := by
    unfold readBlockPlane
    rw [eB]
    rw [Rd.bind_ok (show Rd.lift _ s = (.ok _, s) by rw [epred]; rfl), Rd.bind_ok (show Rd.lift _ s = (.ok _, s) by rw [ectx]; rfl), countContext_value hn hctx' hpred hsmall',
      Rd.bind_ok er]
    rw [Rd.bind_ok (show Rd.lift _ s1 = (.ok nz', s1) by
      dsimp only
      rw [i32_in (by omega) (by omega), show ((nonzeros vs : Nat) : Int) + (B : Int) - 1 = ((nonzeros vs + B - 1 : Nat) : Int) by omega, Int.tdiv_eq_ediv_of_nonneg (by omega), ← Int.natCast_div, enz]; rfl)]
    dsimp only
    rw [hn, i32_in (z := (offset : Int) + 458 * (ctx : Int) + 37 * (n : Int)) (by omega) (by omega), show (offset : Int) + 458 * (ctx : Int) + 37 * (n : Int) = ((offset + (458 * ctx + 37 * n) : Nat) : Int) by omega,
      show ((order.length : Int) - (B : Int)).toNat = (blockPlaces b.tt order).length by rw [hps]; omega, show (sy : Int) * 8 = ((8 * sy : Nat) : Int) by omega, show (sx : Int) * 8 = ((8 * sx : Nat) : Int) by omega]
    rfl
  rw [estep]
  by_cases hz : nonzeros vs = 0
  · rw [if_pos (by omega)]
    have e : st' = st1 ∧ s' = s1 := by
      rw [hz] at hd
      revert hd
      cases vs with
      | nil => exact fun h => h
      | cons a vs =>
        rw [valueSymbols, if_pos rfl]
        exact fun h => h
    refine ⟨⟨nz', p.coeffs⟩, g, by rw [e.1, e.2]; rfl, hnz', hq, fun _ _ h => h, ?_⟩
    intro a ha
    have hz0 : f (8 * sy + a.y.toNat) (8 * sx + a.x.toNat) = 0 := by
      by_contra hcon
      have : 0 < nonzeros vs := by
        unfold nonzeros
        rw [hvs]
        exact List.countP_pos_iff.2 ⟨_, List.mem_map_of_mem ha, by simpa using hcon⟩
      omega
    have := hq.2 (8 * sy + a.y.toNat) (8 * sx + a.x.toNat)
    dsimp only at this
    rw [hz0, Int.zero_mul] at this ⊢
    exact this.elim id id
  · rw [if_neg (by omega)]
    obtain ⟨q', g', e, k1, k2, k3⟩ := coeffLoop_delivers (read := read) (offset := offset) hB hB2 hctx' hsmall' hlen (flip := b.tt.flip) (py := 8 * sy) (px := 8 * sx) hf' (blockPlaces b.tt order) 0 (nonzeros vs)
      (decide (nonzeros vs ≤ 64 * B / 16)) 0 st1 st' p.coeffs g s1 s' (by unfold blockPlaces; rw [esq, Nat.zero_add]; rfl)
      (by
        intro a ha
        obtain ⟨⟨q1, q2, q3, q4⟩, _⟩ := (ho.mem a).1 ha
        refine ⟨q1, q3, ?_, ?_⟩ <;> omega)
      (by rw [hvs]) (by omega)
      (by
        unfold prevFlag
        rw [if_pos (show ((0 : Nat) : Int) = 0 from rfl), hlen]
        by_cases hle : nonzeros vs ≤ 64 * B / 16
        · rw [if_neg (by omega), if_pos (by simpa using hle)]
        · rw [if_pos (by omega), if_neg (by simpa using hle)])
      hq (by rw [Nat.zero_add, ← hvs]; exact hd)
    refine ⟨⟨nz', q'⟩, g', ?_, hnz', k1, k2, k3⟩
    rw [Rd.bind_ok e]
    rfl

/-! ## The channels of the blocks of a group -/

/-- The tables of the channels of a group, while its blocks are read. -/
structure GroupInv (H W : Nat → Nat) (F : Nat → Nat → Nat → Int) (counts : Nat → Nat → Nat → Nat) (gs : Nat → Nat → Nat → Int) (planes : List HFPlane) : Prop where
  len : planes.length = 3
  small : ∀ c y x, counts c y x ≤ 63
  plane : ∀ (c : Nat) p, planes[c]? = some p → HoldsMat 32 32 (fun y x => (counts c y x : Int)) p.nonZeros ∧ PartlyHolds (H c) (W c) (F c) (gs c) p.coeffs

/-- The orders of all types and channels. -/
def OrdersOk (orders : List (List (List Point))) : Prop := ∀ tt ∈ allDCT, ∀ c, c < 3 → ∃ os o, orders[tt.orderID.toNat]? = some os ∧ os[c]? = some o ∧ OrderOk tt o

theorem onGrid_value {z : Int} (h : 0 ≤ z) (u : Nat) : sar z u = ((z.toNat / 2 ^ u : Nat) : Int) ∧ (z = sar z u * 2 ^ u ↔ z.toNat % 2 ^ u = 0) := by
  obtain ⟨n, rfl⟩ := Int.eq_ofNat_of_zero_le h
  have e : sar (n : Int) u = ((n / 2 ^ u : Nat) : Int) := by
    unfold sar
    push_cast
    rfl
  rw [Int.toNat_natCast]
  refine ⟨e, ?_⟩
  rw [e, show ((n / 2 ^ u : Nat) : Int) * 2 ^ u = ((n / 2 ^ u * 2 ^ u : Nat) : Int) by push_cast; rfl]
  have := Nat.div_add_mod n (2 ^ u)
  rw [Nat.mul_comm] at this
  generalize n / 2 ^ u * 2 ^ u = z at *
  omega

variable {hf : HFBlockContext} {offset shift : Nat} {orders : List (List (List Point))} {jpegY jpegX : List Nat} {uy ux H W : Nat → Nat} {q : Nat → Nat → Nat → Int}

theorem readBlockChannel_delivers (hw : hf.WellFormed) (hsmall : (offset : Int) + 495 * hf.numClusters < 2147483648) (ho : OrdersOk orders)
    (hy : ∀ c, c < 3 → jpegY[c]? = some (uy c)) (hx : ∀ c, c < 3 → jpegX[c]? = some (ux c))
    (hq : ∀ c y x, (-1073741824 ≤ q c y x ∧ q c y x < 1073741824) ∧ -2147483648 ≤ q c y x * 2 ^ shift ∧ q c y x * 2 ^ shift < 2147483648)
    {b : HFBlock} (hb : b.Good hf) (hfit : FitsGroup uy ux H W b) {c : Nat} (hc : c < 3) {counts : Nat → Nat → Nat → Nat} {gs : Nat → Nat → Nat → Int} {planes : List HFPlane}
    (hi : GroupInv H W (fun c y x => q c y x * 2 ^ shift) counts gs planes) {st st' : σ} {s s' : BR}
    (hd : Delivers read offset (channelSymbols hf orders uy ux q b c counts) st s st' s') :
    ∃ planes' gs', readBlockChannel read hf offset shift jpegY jpegX orders b c (st, planes) s = (.ok (st', planes'), s') ∧
      GroupInv H W (fun c y x => q c y x * 2 ^ shift) (countsAfter orders uy ux q b c counts) gs' planes' ∧ (∀ c y x, gs c y x = q c y x * 2 ^ shift → gs' c y x = q c y x * 2 ^ shift) ∧
      ∀ y x, CoversPlace uy ux b c y x → gs' c y x = q c y x * 2 ^ shift := by
  obtain ⟨hY, hX, hfit⟩ := hfit
  obtain ⟨ey, gy⟩ := onGrid_value hY (uy c)
  obtain ⟨ex, gx⟩ := onGrid_value hX (ux c)
  unfold readBlockChannel
  rw [Rd.bind_ok (show Rd.lift _ s = (.ok (uy c), s) by rw [idx_nat (hy c hc)]; rfl), Rd.bind_ok (show Rd.lift _ s = (.ok (ux c), s) by rw [idx_nat (hx c hc)]; rfl)]
  by_cases hg : OnGrid b (uy c) (ux c)
  · rw [if_neg (show ¬(b.groupY ≠ sar b.groupY (uy c) * 2 ^ uy c ∨ b.groupX ≠ sar b.groupX (ux c) * 2 ^ ux c) by
      rw [not_or, not_not, not_not]; exact ⟨gy.2 hg.1, gx.2 hg.2⟩)]
    obtain ⟨os, o, e1, e2, hok⟩ := ho b.tt hb.1 c hc
    obtain ⟨_, _, _, _, _, _, _, _, o0, _⟩ := type_dims b.tt hb.1
    have hlt : c < planes.length := by rw [hi.len]; exact hc
    have ep : planes[c]? = some planes[c] := List.getElem?_eq_getElem hlt
    obtain ⟨p1, p2⟩ := hi.plane c _ ep
    obtain ⟨k1, k2, k3, k4⟩ := hfit c hc hg
    unfold channelSymbols at hd
    rw [if_pos hg] at hd
    have eo : (orders.getD b.tt.orderID.toNat []).getD c [] = o := by
      rw [List.getD_eq_getElem?_getD, List.getD_eq_getElem?_getD, e1, Option.getD_some, e2, Option.getD_some]
    obtain ⟨hm, p', g', er, r1, r2, r3, r4⟩ := readBlockPlane_delivers (read := read) hw hsmall hb hc hok (shift := shift) (f := q c) (hq c) k1 k2 k3 k4 (hi.small c) p1 p2
      (vs := channelValues orders uy ux q b c) (by unfold channelValues; rw [eo]) hd
    rw [Rd.bind_ok (show Rd.lift _ s = (.ok planes[c], s) by dsimp only; rw [idx_nat ep]; rfl),
      Rd.bind_ok (show Rd.lift _ s = (.ok os, s) by rw [← Int.toNat_of_nonneg o0, idx_nat e1]; rfl),
      Rd.bind_ok (show Rd.lift _ s = (.ok o, s) by rw [idx_nat e2]; rfl), ey, ex, Rd.bind_ok er,
      Rd.bind_ok (show Rd.lift _ s' = (.ok (planes.set c p'), s') by
        unfold setAt
        dsimp only
        rw [if_neg (by omega), Int.toNat_natCast, if_pos hlt]
        rfl)]
    refine ⟨planes.set c p', fun c' => if c' = c then g' else gs c', rfl, ⟨by rw [List.length_set, hi.len], ?_, ?_⟩, ?_, ?_⟩
    · intro c' y x
      unfold countsAfter
      rw [if_pos hg]
      beta_reduce
      split
      · exact hm
      · exact hi.small c' y x
    · intro c' p hp
      unfold countsAfter
      rw [if_pos hg]
      by_cases hcc : c' = c
      · subst hcc
        rw [List.getElem?_set_self hlt] at hp
        cases hp
        rw [if_pos rfl]
        refine ⟨r1.congr fun y x _ _ => ?_, r2⟩
        simp only [true_and]
      · rw [List.getElem?_set_ne (fun h => hcc h.symm)] at hp
        rw [if_neg hcc]
        obtain ⟨a1, a2⟩ := hi.plane c' p hp
        refine ⟨a1.congr fun y x _ _ => ?_, a2⟩
        rw [if_neg (fun h => hcc h.1)]
    · intro c' y x h
      dsimp only
      split
      · next e => subst e; exact r3 y x h
      · exact h
    · rintro y x ⟨_, dy, dx, rfl, rfl, d1, d2, d3⟩
      beta_reduce
      rw [if_pos rfl]
      have := r4 ⟨dy, dx⟩ ((hok.mem ⟨dy, dx⟩).2 ⟨⟨by dsimp only; omega, by dsimp only; omega, by dsimp only; omega, by dsimp only; omega⟩, fun h => d3 ⟨by have := h.2.1; dsimp only at this; omega, by have := h.2.2.2; dsimp only at this; omega⟩⟩)
      exact this
  · rw [if_pos (show (b.groupY ≠ sar b.groupY (uy c) * 2 ^ uy c ∨ b.groupX ≠ sar b.groupX (ux c) * 2 ^ ux c) by
      by_contra hcon
      rw [not_or, not_not, not_not] at hcon
      exact hg ⟨gy.1 hcon.1, gx.1 hcon.2⟩)]
    unfold channelSymbols at hd
    rw [if_neg hg] at hd
    obtain ⟨rfl, rfl⟩ := hd
    refine ⟨planes, gs, rfl, ?_, fun _ _ _ h => h, fun y x h => absurd h.1 hg⟩
    unfold countsAfter
    rw [if_neg hg]
    exact hi

theorem readBlocks_delivers (hw : hf.WellFormed) (hsmall : (offset : Int) + 495 * hf.numClusters < 2147483648) (ho : OrdersOk orders)
    (hy : ∀ c, c < 3 → jpegY[c]? = some (uy c)) (hx : ∀ c, c < 3 → jpegX[c]? = some (ux c))
    (hq : ∀ c y x, (-1073741824 ≤ q c y x ∧ q c y x < 1073741824) ∧ -2147483648 ≤ q c y x * 2 ^ shift ∧ q c y x * 2 ^ shift < 2147483648) :
    ∀ (blocks : List HFBlock), (∀ b ∈ blocks, b.Good hf) → (∀ b ∈ blocks, FitsGroup uy ux H W b) → ∀ (counts : Nat → Nat → Nat → Nat) (gs : Nat → Nat → Nat → Int) (planes : List HFPlane),
    GroupInv H W (fun c y x => q c y x * 2 ^ shift) counts gs planes → ∀ (st st' : σ) (s s' : BR), Delivers read offset (groupSymbols hf orders uy ux q blocks counts) st s st' s' →
    ∃ planes' counts' gs', readBlocks read hf offset shift jpegY jpegX orders blocks (st, planes) s = (.ok (st', planes'), s') ∧
      GroupInv H W (fun c y x => q c y x * 2 ^ shift) counts' gs' planes' ∧ (∀ c y x, gs c y x = q c y x * 2 ^ shift → gs' c y x = q c y x * 2 ^ shift) ∧
      ∀ b ∈ blocks, ∀ c y x, c < 3 → CoversPlace uy ux b c y x → gs' c y x = q c y x * 2 ^ shift
  | [], _, _, counts, gs, planes, hi, st, st', s, s', hd => by
    obtain ⟨rfl, rfl⟩ := hd
    exact ⟨planes, counts, gs, rfl, hi, fun _ _ _ h => h, fun b hb => by cases hb⟩
  | b :: bs, hb, hfit, counts, gs, planes, hi, st, st', s, s', hd => by
    rw [groupSymbols] at hd
    obtain ⟨st1, s1, d1, hd⟩ := Delivers.split hd
    obtain ⟨st2, s2, d2, hd⟩ := Delivers.split hd
    obtain ⟨st3, s3, d3, hd⟩ := Delivers.split hd
    have hb' := hb b List.mem_cons_self
    have hf' := hfit b List.mem_cons_self
    obtain ⟨p1, g1, e1, i1, k1, c1⟩ := readBlockChannel_delivers (read := read) hw hsmall ho hy hx hq hb' hf' (c := 1) (by omega) hi d1
    obtain ⟨p2, g2, e2, i2, k2, c2⟩ := readBlockChannel_delivers (read := read) hw hsmall ho hy hx hq hb' hf' (c := 0) (by omega) i1 d2
    obtain ⟨p3, g3, e3, i3, k3, c3⟩ := readBlockChannel_delivers (read := read) hw hsmall ho hy hx hq hb' hf' (c := 2) (by omega) i2 d3
    obtain ⟨p4, n4, g4, e4, i4, k4, c4⟩ := readBlocks_delivers hw hsmall ho hy hx hq bs (fun a ha => hb a (List.mem_cons_of_mem _ ha)) (fun a ha => hfit a (List.mem_cons_of_mem _ ha)) _ g3 p3 i3 st3 st' s3 s' hd
    refine ⟨p4, n4, g4, ?_, i4, fun c y x h => k4 c y x (k3 c y x (k2 c y x (k1 c y x h))), ?_⟩
    · rw [readBlocks]
      unfold readBlock
      rw [Rd.bind_ok (show _ = (Res.ok (st3, p3), s3) from ?_)]
      · exact e4
      · rw [Rd.bind_ok (by exact e1), Rd.bind_ok (by exact e2)]
        exact e3
    · intro a ha c y x hc hcov
      rcases List.mem_cons.1 ha with rfl | ha
      · match c, hc with
        | 0, _ => exact k4 _ _ _ (k3 _ _ _ (c2 y x hcov))
        | 1, _ => exact k4 _ _ _ (k3 _ _ _ (k2 _ _ _ (c1 y x hcov)))
        | 2, _ => exact k4 _ _ _ (c3 y x hcov)
      · exact c4 a ha c y x hc hcov

theorem ordersOk_of {presets clusters : Int} {pass : HFPass} {s s' : BR} (h : readHFPass presets clusters s = (.ok pass, s')) : OrdersOk pass.order := by
  intro tt htt c hc
  obtain ⟨t, ht⟩ := List.mem_iff_getElem?.1 htt
  have ht27 : t < 27 := (List.getElem?_eq_some_iff.1 ht).1
  obtain ⟨tt1, H, W, os, o, a1, a2, a3, a4, a5, a6, a7, a8⟩ := C31_places presets clusters pass s s' h t c ht27 hc
  obtain ⟨tt2, bh, bw, h1, _, h3, h4, _⟩ := type_table ⟨t, ht27⟩
  dsimp only at h1 h3
  rw [ht] at a1 h1
  cases a1
  cases h1
  rw [h3] at a2
  cases a2
  have d1 : tt.dctHeight.toNat = bh := by rw [h4.dct.1, Int.toNat_natCast]
  have d2 : tt.dctWidth.toNat = bw := by rw [h4.dct.2, Int.toNat_natCast]
  refine ⟨os, o, (idx_inv a3).2, by simpa using (idx_inv a4).2, ?_, ?_⟩
  · unfold squares
    rw [h4.dct.1, h4.dct.2, ← Int.natCast_mul, Int.toNat_natCast, a5, Nat.mul_mul_mul_comm]
  · intro p
    rw [d1, d2]
    have := a8 p
    unfold LowFrequency at this
    rw [show 8 * bh / 8 = bh by omega, show 8 * bw / 8 = bw by omega] at this
    exact this

end Jxl
