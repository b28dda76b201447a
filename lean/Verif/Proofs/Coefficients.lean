import Verif.Spec.Coefficients
import Verif.Proofs.Blocks
import Verif.Proofs.BlendLoops
import Verif.Props.ImageHeader

/-!
# The coefficients of a block
-/
namespace Jxl
open Spec

theorem Rd.of_lift {α : Type} {r : Res α} {s s' : BR} {a : α} (h : (Rd.lift r) s = (.ok a, s')) : r = .ok a ∧ s' = s := by
  unfold Rd.lift at h
  cases h
  exact ⟨rfl, rfl⟩

theorem Rd.of_lift_bind {α β : Type} {r : Res α} {f : α → Rd β} {s s' : BR} {b : β} (h : (Rd.lift r >>= f) s = (.ok b, s')) :
    ∃ a, r = .ok a ∧ f a s = (.ok b, s') := by
  obtain ⟨a, s1, h1, h2⟩ := Rd.of_bind h
  obtain ⟨h1, e⟩ := Rd.of_lift h1
  rw [e] at h2
  exact ⟨a, h1, h2⟩

theorem Rd.of_pure {α : Type} {s s' : BR} {a b : α} (h : (Pure.pure b : Rd α) s = (.ok a, s')) : b = a ∧ s' = s := by
  cases h
  exact ⟨rfl, rfl⟩

theorem idx_inv {α : Type} {l : List α} {i : Int} {a : α} (h : idx l i = .ok a) : 0 ≤ i ∧ l[i.toNat]? = some a := by
  unfold idx at h
  by_cases h0 : 0 ≤ i
  · obtain ⟨n, rfl⟩ := Int.eq_ofNat_of_zero_le h0
    exact ⟨h0, idx_ok_some (by unfold idx; exact h)⟩
  · rw [if_pos (by omega)] at h
    cases h

theorem setAt_inv {α : Type} {l l' : List α} {i : Int} {a : α} (h : setAt l i a = .ok l') : 0 ≤ i := by
  unfold setAt at h
  by_cases h0 : 0 ≤ i
  · exact h0
  · rw [if_pos (by omega)] at h
    cases h

/-- Writing one entry. -/
theorem set2_cell {h w : Nat} {m m' : List (List Int)} (hT : Table h w m) {y x v : Int} (hs : set2 m y x v = .ok m') :
    Table h w m' ∧ ∀ j k, cell m' j k = if j = y ∧ k = x then some v else cell m j k := by
  have h0 : 0 ≤ y ∧ 0 ≤ x := by
    have hs' := hs
    unfold set2 at hs'
    obtain ⟨r, e1, hs'⟩ := Res.of_bind hs'
    obtain ⟨r', e2, hs'⟩ := Res.of_bind hs'
    exact ⟨setAt_inv hs', setAt_inv e2⟩
  obtain ⟨y, rfl⟩ := Int.eq_ofNat_of_zero_le h0.1
  obtain ⟨x, rfl⟩ := Int.eq_ofNat_of_zero_le h0.2
  obtain ⟨_, _, h1, h2⟩ := set2_inv hT hs
  refine ⟨h1, fun j k => ?_⟩
  unfold cell
  by_cases hjk : 0 ≤ j ∧ 0 ≤ k
  · rw [if_pos hjk, if_pos hjk, h2]
    exact if_congr (by omega) rfl rfl
  · rw [if_neg hjk, if_neg hjk, if_neg (by omega)]

theorem traced_inv {σ : Type} {read : σ → Int → Rd (Int × σ)} {st : σ} {tr : List (Int × Int)} {ctx : Int} {s s' : BR} {r : Int × (σ × List (Int × Int))}
    (h : traced read (st, tr) ctx s = (.ok r, s')) : ∃ st', r = (r.1, (st', tr ++ [(ctx, r.1)])) ∧ read st ctx s = (.ok (r.1, st'), s') := by
  unfold traced at h
  obtain ⟨a, s1, e1, h⟩ := Rd.of_bind h
  obtain ⟨e, rfl⟩ := Rd.of_pure h
  subst e
  exact ⟨a.2, rfl, e1⟩

/-! ## Contexts -/

theorem freq_num_table : ∀ a : Fin 64, ∀ b : Fin 64, 1 ≤ a.1 → 1 ≤ b.1 → a.1 + b.1 ≤ 64 → ∃ u v, coeffNumNonzeroCtx[a.1]? = some u ∧ coeffFreqCtx[b.1]? = some v ∧
    0 ≤ u ∧ 0 ≤ v ∧ u + v ≤ 228 := by
  have key : ∀ a : Fin 64, ∀ b : Fin 64, (decide (1 ≤ a.1 → 1 ≤ b.1 → a.1 + b.1 ≤ 64 →
      0 ≤ coeffNumNonzeroCtx.getD a.1 (-1) ∧ 0 ≤ coeffFreqCtx.getD b.1 (-1) ∧ coeffNumNonzeroCtx.getD a.1 (-1) + coeffFreqCtx.getD b.1 (-1) ≤ 228)) = true := by
    decide +kernel
  intro a b ha hb hab
  obtain ⟨h1, h2, h3⟩ := of_decide_eq_true (key a b) ha hb hab
  rw [List.getD_eq_getElem?_getD] at h1 h2 h3
  rw [List.getD_eq_getElem?_getD] at h3
  rw [List.getElem?_eq_getElem (show a.1 < coeffNumNonzeroCtx.length from a.2), Option.getD_some] at h1 h3
  rw [List.getElem?_eq_getElem (show b.1 < coeffFreqCtx.length from b.2), Option.getD_some] at h2 h3
  exact ⟨_, _, List.getElem?_eq_getElem _, List.getElem?_eq_getElem _, h1, h2, h3⟩

/-- The context of a coefficient is in its range as long as the remaining coefficients are enough for those that are not zero. -/
theorem coefficientContext_range {k nz nb prev v : Int} (hnb : 0 < nb) (hnb2 : nb ≤ 1024) (hk : 0 ≤ k) (hnz : 0 < nz) (hsum : k + nz ≤ 63 * nb) (hp : prev = 0 ∨ prev = 1)
    (h : getCoefficientContext (k + nb) nz nb prev = .ok v) : 0 ≤ v ∧ v < 458 := by
  unfold getCoefficientContext at h
  rw [i32_in (by omega) (by omega)] at h
  rw [Int.tdiv_eq_ediv_of_nonneg (by omega), Int.tdiv_eq_ediv_of_nonneg (by omega)] at h
  obtain ⟨a, e1, h⟩ := Res.of_bind h
  obtain ⟨b, e2, h⟩ := Res.of_bind h
  cases h
  obtain ⟨_, e1⟩ := idx_inv e1
  obtain ⟨_, e2⟩ := idx_inv e2
  have ha0 : 1 ≤ (nz + nb - 1) / nb := by
    rw [Int.le_ediv_iff_mul_le hnb]; omega
  have hb0 : 1 ≤ (k + nb) / nb := by
    rw [Int.le_ediv_iff_mul_le hnb]; omega
  have hab : (nz + nb - 1) / nb + (k + nb) / nb ≤ 64 := by
    have h1 : (nz + nb - 1) / nb * nb ≤ nz + nb - 1 := Int.ediv_mul_le _ (by omega)
    have h2 : (k + nb) / nb * nb ≤ k + nb := Int.ediv_mul_le _ (by omega)
    have h3 : ((nz + nb - 1) / nb + (k + nb) / nb) * nb < 65 * nb := by rw [Int.add_mul]; omega
    have := Int.lt_of_mul_lt_mul_right h3 (by omega)
    omega
  obtain ⟨u, w, q1, q2, q3, q4, q5⟩ := freq_num_table ⟨((nz + nb - 1) / nb).toNat, by omega⟩ ⟨((k + nb) / nb).toNat, by omega⟩ (by dsimp only; omega) (by dsimp only; omega) (by dsimp only; omega)
  dsimp only at q1 q2
  rw [q1] at e1
  rw [q2] at e2
  cases e1; cases e2
  omega

/-! ## The loop over the coefficients -/

theorem coeffPlace_inj {flip : Bool} {a b : Point} (hy : (coeffPlace flip a).y = (coeffPlace flip b).y) (hx : (coeffPlace flip a).x = (coeffPlace flip b).x) : a = b := by
  obtain ⟨ay, ax⟩ := a
  obtain ⟨by', bx⟩ := b
  unfold coeffPlace at hy hx
  cases flip <;> simp_all

/-- What one run of the loop has read and written. -/
structure Coded (hist : Int) (B : Nat) (order : List Point) (flip : Bool) (py px : Int) (shift : Nat) (k n : Nat) (nonZero : Int) (H W : Nat) (q q' : List (List Int))
    (us : List (Int × Int)) : Prop where
  len : us.length ≤ n
  number : ((us.countP (fun v => v.2 ≠ 0) : Nat) : Int) = nonZero
  ctxs : ∀ u ∈ us, ∃ v, 0 ≤ v ∧ v < 458 ∧ u.1 = i32 (hist + v)
  table : Table H W q'
  written : ∀ (i : Nat) (p : Point), order[k + B + i]? = some p → cell q' (py + (coeffPlace flip p).y) (px + (coeffPlace flip p).x) =
    match us[i]? with
    | some u => some (i32 (unpackSigned (toU32 u.2) * 2 ^ shift))
    | none => cell q (py + (coeffPlace flip p).y) (px + (coeffPlace flip p).x)
  other : ∀ y x, (∀ (i : Nat) (p : Point), order[k + B + i]? = some p → py + (coeffPlace flip p).y = y → px + (coeffPlace flip p).x = x → False) → cell q' y x = cell q y x

theorem Coded.cons {hist : Int} {B : Nat} {order : List Point} {flip : Bool} {py px : Int} {shift k n : Nat} {nonZero nz' : Int} {H W : Nat} {q q1 q' : List (List Int)}
    {us : List (Int × Int)} (hnd : order.Nodup) (hT : Table H W q) {o : Point} (ho : order[k + B]? = some o) {u : Int × Int} {prev : Int}
    (hq : set2 q (py + (coeffPlace flip o).y) (px + (coeffPlace flip o).x) (i32 (unpackSigned (toU32 u.2) * 2 ^ shift)) = .ok q1)
    (hnz : nonZero = nz' + if u.2 ≠ 0 then 1 else 0) (hpos : 0 < nonZero) (hB : 0 < B) (hB2 : B ≤ 1024) (hkn : k + (n + 1) ≤ 63 * B) (hp : prev = 0 ∨ prev = 1)
    {v : Int} (hv : getCoefficientContext ((k : Int) + (B : Int)) nonZero B prev = .ok v) (hu : u.1 = i32 (hist + v))
    (h : Coded hist B order flip py px shift (k + 1) n nz' H W q1 q' us) : Coded hist B order flip py px shift k (n + 1) nonZero H W q q' (u :: us) := by
  obtain ⟨hT1, hc1⟩ := set2_cell hT hq
  have hnum : (((u :: us).countP (fun v => v.2 ≠ 0) : Nat) : Int) = nonZero := by
    rw [List.countP_cons, Int.natCast_add, h.number, hnz]
    by_cases h0 : u.2 = 0 <;> simp [h0]
  have hle : nonZero ≤ (n : Int) + 1 := by
    have h1 := List.countP_le_length (p := fun v : Int × Int => decide (v.2 ≠ 0)) (l := u :: us)
    have h2 := h.len
    rw [List.length_cons] at h1
    omega
  have hne : ∀ (i : Nat) (p : Point), order[k + 1 + B + i]? = some p → ¬ (py + (coeffPlace flip p).y = py + (coeffPlace flip o).y ∧ px + (coeffPlace flip p).x = px + (coeffPlace flip o).x) := by
    rintro i p hi ⟨e1, e2⟩
    have : p = o := coeffPlace_inj (flip := flip) (by omega) (by omega)
    subst this
    have := (List.getElem?_inj (l := order) (List.getElem?_eq_some_iff.1 ho).1 hnd).1 (ho.trans hi.symm)
    omega
  refine ⟨by have := h.len; simp only [List.length_cons]; omega, hnum, ?_, h.table, ?_, ?_⟩
  · intro w hw
    rcases List.mem_cons.1 hw with e | hw
    · rw [e]
      exact ⟨v, (coefficientContext_range (k := k) (nb := B) (by omega) (by omega) (by omega) hpos (by omega) hp hv).1,
        (coefficientContext_range (k := k) (nb := B) (by omega) (by omega) (by omega) hpos (by omega) hp hv).2, hu⟩
    · exact h.ctxs w hw
  · intro i p hi
    cases i with
    | zero =>
      rw [Nat.add_zero, ho] at hi
      cases hi
      rw [h.other _ _ (fun j p' hj e1 e2 => hne j p' hj ⟨e1, e2⟩), hc1, if_pos ⟨rfl, rfl⟩]
      rfl
    | succ i =>
      rw [show k + B + (i + 1) = k + 1 + B + i by omega] at hi
      rw [h.written i p hi, List.getElem?_cons_succ]
      split
      · rfl
      · rw [hc1, if_neg (hne i p hi)]
  · intro y x hyx
    rw [h.other y x (fun i p hi e1 e2 => hyx (i + 1) p (by rw [show k + B + (i + 1) = k + 1 + B + i by omega]; exact hi) e1 e2), hc1, if_neg]
    rintro ⟨e1, e2⟩
    exact hyx 0 o ho e1.symm e2.symm

theorem Coded.nil {hist : Int} {B : Nat} {order : List Point} {flip : Bool} {py px : Int} {shift k n : Nat} {H W : Nat} {q : List (List Int)} (hT : Table H W q) :
    Coded hist B order flip py px shift k n 0 H W q q [] :=
  ⟨by simp, by simp, by simp, hT, fun i p _ => by simp, fun _ _ _ => rfl⟩

variable {σ : Type} {read : σ → Int → Rd (Int × σ)}

theorem prevFlag_bit (k nonZero orderSize prevUcoeff : Int) : prevFlag k nonZero orderSize prevUcoeff = 0 ∨ prevFlag k nonZero orderSize prevUcoeff = 1 := by
  unfold prevFlag
  split <;> split <;> simp

theorem coeffLoop_run {hist : Int} {B : Nat} {order : List Point} {flip : Bool} {py px : Int} {shift H W : Nat} (hnd : order.Nodup) (hB : 0 < B) (hB2 : B ≤ 1024) :
    ∀ (n k : Nat) (nonZero prev : Int) (st : σ) (tr : List (Int × Int)) (q : List (List Int)) (s s' : BR) (r : Int × (σ × List (Int × Int)) × List (List Int)),
    coeffLoop (traced read) hist B order flip py px shift n k nonZero prev (st, tr) q s = (.ok r, s') → r.1 = 0 → 0 < nonZero → k + n ≤ 63 * B → Table H W q →
    ∃ us, r.2.1.2 = tr ++ us ∧ Coded hist B order flip py px shift k n nonZero H W q r.2.2 us
  | 0, k, nonZero, prev, st, tr, q, s, s', r, h, h0, hpos, _, hT => by
    rw [coeffLoop] at h
    obtain ⟨e, _⟩ := Rd.of_pure h
    subst e
    dsimp only at h0
    omega
  | n + 1, k, nonZero, prev, st, tr, q, s, s', r, h, h0, hpos, hkn, hT => by
    rw [coeffLoop] at h
    obtain ⟨v, e1, h⟩ := Rd.of_lift_bind h
    obtain ⟨a, s2, e2, h⟩ := Rd.of_bind h
    obtain ⟨st', ea, _⟩ := traced_inv e2
    generalize ea' : a.1 = uc at ea h
    subst ea
    obtain ⟨o, e3, h⟩ := Rd.of_lift_bind h
    obtain ⟨q1, e4, h⟩ := Rd.of_lift_bind h
    dsimp only at h e4
    have ho : order[k + B]? = some o := by
      have := (idx_inv e3).2
      rwa [show ((k : Int) + (B : Int)).toNat = k + B by omega] at this
    have hT1 := (set2_cell hT e4).1
    by_cases huc : uc ≠ 0
    · rw [if_pos huc] at h
      by_cases hz : nonZero - 1 = 0
      · rw [if_pos hz] at h
        obtain ⟨e, _⟩ := Rd.of_pure h
        subst e
        refine ⟨[(i32 (hist + v), uc)], rfl, ?_⟩
        exact Coded.cons hnd hT ho e4 (nz' := 0) (by rw [if_pos huc]; omega) hpos hB hB2 (by omega) (prevFlag_bit _ _ _ _) e1 rfl (Coded.nil hT1)
      · rw [if_neg hz] at h
        obtain ⟨us, g1, g2⟩ := coeffLoop_run hnd hB hB2 n (k + 1) (nonZero - 1) uc st' _ q1 _ _ r (by rw [Int.natCast_add]; exact h) h0 (by omega) (by omega) hT1
        refine ⟨(i32 (hist + v), uc) :: us, by rw [g1]; simp, ?_⟩
        exact Coded.cons hnd hT ho e4 (nz' := nonZero - 1) (by rw [if_pos huc]; omega) hpos hB hB2 (by omega) (prevFlag_bit _ _ _ _) e1 rfl g2
    · rw [if_neg huc] at h
      obtain ⟨us, g1, g2⟩ := coeffLoop_run hnd hB hB2 n (k + 1) nonZero uc st' _ q1 _ _ r (by rw [Int.natCast_add]; exact h) h0 (by omega) (by omega) hT1
      refine ⟨(i32 (hist + v), uc) :: us, by rw [g1]; simp, ?_⟩
      exact Coded.cons hnd hT ho e4 (nz' := nonZero) (by rw [if_neg huc]; omega) hpos hB hB2 (by omega) (prevFlag_bit _ _ _ _) e1 rfl g2

/-! ## One channel of a block -/

theorem countBelow_range (ts : List Int) (v : Int) : 0 ≤ countBelow ts v ∧ countBelow ts v ≤ ts.length := by
  unfold countBelow
  have key : ∀ (ts : List Int) (n : Int), n ≤ ts.foldl (fun n t => if t < v then n + 1 else n) n ∧ ts.foldl (fun n t => if t < v then n + 1 else n) n ≤ n + ts.length := by
    intro ts
    induction ts with
    | nil => intro n; simp
    | cons t ts ih =>
      intro n
      rw [List.foldl_cons, List.length_cons]
      by_cases ht : t < v
      · rw [if_pos ht]
        have := ih (n + 1)
        omega
      · rw [if_neg ht]
        have := ih n
        omega
  have := key ts 0
  omega

/-- The place of a block in the table of block contexts. -/
theorem blockIndex_range {nq nl c o q l : Int} (hq : 0 ≤ q ∧ q < nq) (hl : 0 ≤ l ∧ l < nl) (hc : 0 ≤ c ∧ c < 3) (ho : 0 ≤ o ∧ o < 13) :
    0 ≤ ((c * 13 + o) * nq + q) * nl ∧ ((c * 13 + o) * nq + q) * nl + l < 39 * nq * nl := by
  have h1 : 0 ≤ (c * 13 + o) * nq := Int.mul_nonneg (by omega) (by omega)
  have h2 : (c * 13 + o + 1) * nq ≤ 39 * nq := Int.mul_le_mul_of_nonneg_right (by omega) (by omega)
  rw [Int.add_mul (c * 13 + o) 1 nq] at h2
  have h3 : 0 ≤ ((c * 13 + o) * nq + q) * nl := Int.mul_nonneg (by omega) (by omega)
  have h4 : ((c * 13 + o) * nq + q + 1) * nl ≤ 39 * nq * nl := Int.mul_le_mul_of_nonneg_right (by omega) (by omega)
  rw [Int.add_mul _ 1 nl] at h4
  omega

theorem getBlockContext_ok {hf : HFBlockContext} (hw : hf.WellFormed) {c o mul lf : Int} (hc : 0 ≤ c ∧ c < 3) (ho : 0 ≤ o ∧ o < 13) (hl : 0 ≤ lf ∧ lf < hf.numLFContexts) :
    ∃ v, getBlockContext hf c o mul lf = .ok v ∧ 0 ≤ v ∧ v < hf.numClusters ∧
      hf.clusterMap[((((if c < 2 then 1 - c else c) * 13 + o) * ((hf.qfThresholds.length : Int) + 1) + countBelow hf.qfThresholds mul) * hf.numLFContexts + lf).toNat]? = some v := by
  have hb := countBelow_range hf.qfThresholds mul
  have hc' : 0 ≤ (if c < 2 then 1 - c else c) ∧ (if c < 2 then 1 - c else c) < 3 := by split <;> omega
  have hi := blockIndex_range (nq := (hf.qfThresholds.length : Int) + 1) (nl := hf.numLFContexts) (q := countBelow hf.qfThresholds mul) (by omega) hl hc' ho
  rw [← hw.size] at hi
  have hs := hw.small
  generalize he : (((if c < 2 then 1 - c else c) * 13 + o) * ((hf.qfThresholds.length : Int) + 1) + countBelow hf.qfThresholds mul) * hf.numLFContexts = e at hi
  have hlt : (e + lf).toNat < hf.clusterMap.length := by omega
  have hv := hw.entries _ (List.getElem_mem hlt)
  have hf' := hw.few
  refine ⟨hf.clusterMap[(e + lf).toNat], ?_, hv.1, hv.2, List.getElem?_eq_getElem hlt⟩
  unfold getBlockContext
  dsimp only
  rw [he, i32_in (show -2147483648 ≤ e by omega) (by omega), i32_in (show -2147483648 ≤ e + lf by omega) (by omega)]
  unfold idx
  rw [if_neg (by omega), List.getElem?_eq_getElem hlt, Res.bind_ok, i32_in (by omega) (by omega)]

theorem at2_cell {m : List (List Int)} {y x v : Int} (h : at2 m y x = .ok v) : cell m y x = some v := by
  unfold at2 at h
  obtain ⟨r, e1, h⟩ := Res.of_bind h
  obtain ⟨h1, e1⟩ := idx_inv e1
  obtain ⟨h2, e2⟩ := idx_inv h
  unfold cell sample
  rw [if_pos ⟨h1, h2⟩, e1, Option.bind_some, e2]

theorem predicted_range {h w : Nat} {m : List (List Int)} (hm : CountTable h w m) {y x v : Int} (he : getPredictedNonZeros m y x = .ok v) : 0 ≤ v ∧ v ≤ 63 := by
  unfold getPredictedNonZeros at he
  by_cases h1 : x = 0 ∧ y = 0
  · rw [if_pos h1] at he
    cases he
    omega
  rw [if_neg h1] at he
  by_cases h2 : x = 0
  · rw [if_pos h2] at he
    exact hm.2 _ _ _ (at2_cell he)
  rw [if_neg h2] at he
  by_cases h3 : y = 0
  · rw [if_pos h3] at he
    exact hm.2 _ _ _ (at2_cell he)
  rw [if_neg h3] at he
  obtain ⟨a, e1, he⟩ := Res.of_bind he
  obtain ⟨b, e2, he⟩ := Res.of_bind he
  have ha := hm.2 _ _ _ (at2_cell e1)
  have hb := hm.2 _ _ _ (at2_cell e2)
  rw [i32_in (by omega) (by omega)] at he
  cases he
  omega

theorem setNonZeros_run {h w : Nat} {tt : TransformType} {y x v : Int} {m m' : List (List Int)} (hm : CountTable h w m) (hv : 0 ≤ v ∧ v ≤ 63)
    (he : setNonZeros tt y x v m = .ok m') : CountTable h w m' := by
  unfold setNonZeros at he
  refine forFrom_of_ok (fun _ m => CountTable h w m) _ _ _ _ he hm ?_
  intro k m m' _ _ hm he
  refine forFrom_of_ok (fun _ m => CountTable h w m) _ _ _ _ he hm ?_
  intro k m m' _ _ hm he
  obtain ⟨h1, h2⟩ := set2_cell hm.1 he
  refine ⟨h1, fun y x u hu => ?_⟩
  rw [h2] at hu
  split at hu
  · cases hu
    exact hv
  · exact hm.2 _ _ _ hu

theorem type_dims : ∀ tt ∈ allDCT, ∃ h w : Nat, tt.dctHeight = h ∧ tt.dctWidth = w ∧ 0 < h ∧ 0 < w ∧ h ≤ 32 ∧ w ≤ 32 ∧ 0 ≤ tt.orderID ∧ tt.orderID < 13 := by
  have key : ∀ tt ∈ allDCT, tt.dctHeight = (tt.dctHeight.toNat : Int) ∧ tt.dctWidth = (tt.dctWidth.toNat : Int) ∧ 0 < tt.dctHeight.toNat ∧ 0 < tt.dctWidth.toNat ∧
      tt.dctHeight.toNat ≤ 32 ∧ tt.dctWidth.toNat ≤ 32 ∧ 0 ≤ tt.orderID ∧ tt.orderID < 13 := by decide
  intro tt htt
  obtain ⟨h1, h2, h3⟩ := key tt htt
  exact ⟨_, _, h1, h2, h3⟩

theorem type_blocks {tt : TransformType} (htt : tt ∈ allDCT) : ∃ B : Nat, tt.dctHeight * tt.dctWidth = (B : Int) ∧ 0 < B ∧ B ≤ 1024 := by
  obtain ⟨h, w, h1, h2, h3, h4, h5, h6, _⟩ := type_dims tt htt
  refine ⟨h * w, by rw [h1, h2, Int.natCast_mul], Nat.mul_pos h3 h4, ?_⟩
  exact Nat.mul_le_mul h5 h6

theorem nonZeroContext_range {hf : HFBlockContext} {p c offset : Int} (hn : hf.numClusters < 2147483648) (hp : 0 ≤ p ∧ p ≤ 63) (hc : 0 ≤ c ∧ c < hf.numClusters) (ho : 0 ≤ offset)
    (hsmall : offset + 495 * hf.numClusters < 2147483648) : CountContext offset hf.numClusters c (i32 (offset + getNonZeroContext hf p c)) := by
  unfold getNonZeroContext
  dsimp only
  rw [if_neg (show ¬ 64 < p by omega)]
  have key : ∀ i, 0 ≤ i → i < 37 → CountContext offset hf.numClusters c (i32 (offset + i32 (c + hf.numClusters * i))) := by
    intro i h0 h1
    have h2 : hf.numClusters * 0 ≤ hf.numClusters * i := Int.mul_le_mul_of_nonneg_left h0 (by omega)
    have h3 : hf.numClusters * i ≤ hf.numClusters * 36 := Int.mul_le_mul_of_nonneg_left (by omega) (by omega)
    refine ⟨i, h0, h1, ?_⟩
    generalize hf.numClusters * i = q at *
    rw [i32_in (z := c + q) (by omega) (by omega), i32_in (by omega) (by omega)]
  split
  · exact key _ (by omega) (by omega)
  · exact key _ (by omega) (by omega)

/-- Reading one channel of a block. -/
theorem readBlockPlane_run {hf : HFBlockContext} (hw : hf.WellFormed) {offset : Int} {shift : Nat} {order : List Point} {b : HFBlock} {c sy sx : Int} {st : σ} {tr : List (Int × Int)}
    {p : HFPlane} {h w H W : Nat} {s s' : BR} {r : (σ × List (Int × Int)) × HFPlane} (hsmall : offset + 495 * hf.numClusters < 2147483648) (ho : 0 ≤ offset) (htt : b.tt ∈ allDCT)
    (hc : 0 ≤ c ∧ c < 3) (hl : 0 ≤ b.lfIndex ∧ b.lfIndex < hf.numLFContexts) (hnd : order.Nodup) (hlen : (order.length : Int) = 64 * (b.tt.dctHeight * b.tt.dctWidth))
    (hp1 : CountTable h w p.nonZeros) (hp2 : Table H W p.coeffs) (hr : readBlockPlane (traced read) hf offset shift order b c sy sx (st, tr) p s = (.ok r, s'))
    (hpos : ∀ u ∈ r.1.2, 0 ≤ u.2) :
    ∃ cb : CodedBlock, r.1.2 = tr ++ cb.symbols ∧ cb.Ok offset hf.numClusters ∧ CountTable h w r.2.nonZeros ∧
      ∃ hist B, b.tt.dctHeight * b.tt.dctWidth = ((B : Nat) : Int) ∧
        Coded hist B order b.tt.flip (sy * 8) (sx * 8) shift 0 (order.length - B) cb.count.2 H W p.coeffs r.2.coeffs cb.values := by
  obtain ⟨B, hB, hB0, hB1⟩ := type_blocks htt
  obtain ⟨_, _, _, _, _, _, _, _, ho1, ho2⟩ := type_dims b.tt htt
  unfold readBlockPlane at hr
  rw [hB] at hr
  obtain ⟨pr, e1, hr⟩ := Rd.of_lift_bind hr
  have hpr := predicted_range hp1 e1
  obtain ⟨bc, e2, hb0, hb1, _⟩ := getBlockContext_ok hw (mul := b.hfMult) hc ⟨ho1, ho2⟩ hl
  rw [e2] at hr
  obtain ⟨bc', e2', hr⟩ := Rd.of_lift_bind hr
  cases e2'
  obtain ⟨a, s1, e3, hr⟩ := Rd.of_bind hr
  obtain ⟨st', ea, _⟩ := traced_inv e3
  generalize ea' : a.1 = num at ea hr
  subst ea
  dsimp only at hr
  obtain ⟨nz, e4, hr⟩ := Rd.of_lift_bind hr
  have hcc := nonZeroContext_range (hw.few) hpr ⟨hb0, hb1⟩ ho hsmall
  by_cases h0 : num ≤ 0
  · rw [if_pos h0] at hr
    obtain ⟨e, _⟩ := Rd.of_pure hr
    subst e
    have hz : num = 0 := by
      have := hpos (i32 (offset + getNonZeroContext hf pr bc), num) (List.mem_append_right _ List.mem_cons_self)
      dsimp only at this
      omega
    subst hz
    refine ⟨⟨bc, (_, 0), []⟩, rfl, ⟨⟨hb0, hb1⟩, hcc, by simp, by simp⟩, ?_, 0, B, hB, Coded.nil hp2⟩
    refine setNonZeros_run hp1 ?_ e4
    rw [Int.zero_add, i32_in (by omega) (by omega), Int.tdiv_eq_ediv_of_nonneg (by omega), Int.ediv_eq_zero_of_lt (by omega) (by omega)]
    omega
  · rw [if_neg h0] at hr
    have hh : i32 (offset + 458 * bc + 37 * hf.numClusters) = offset + 458 * bc + 37 * hf.numClusters := i32_in (by omega) (by omega)
    rw [hh, show ((order.length : Int) - (B : Int)).toNat = order.length - B by omega] at hr
    obtain ⟨t, s2, e5, hr⟩ := Rd.of_bind hr
    by_cases ht : t.1 ≠ 0
    · rw [if_pos ht] at hr
      cases hr
    rw [if_neg ht] at hr
    obtain ⟨us, g1, g2⟩ := coeffLoop_run hnd hB0 hB1 (order.length - B) 0 num 0 st' _ _ _ _ t e5 (by omega) (by omega) (by omega) hp2
    obtain ⟨e, _⟩ := Rd.of_pure hr
    subst e
    dsimp only
    have hnum : num ≤ 63 * (B : Int) := by
      have h1 := g2.number
      have h2 := g2.len
      have h3 := List.countP_le_length (p := fun v : Int × Int => decide (v.2 ≠ 0)) (l := us)
      omega
    refine ⟨⟨bc, (_, num), us⟩, by rw [g1, List.append_assoc]; rfl, ⟨⟨hb0, hb1⟩, hcc, ?_, g2.number⟩, ?_, _, B, hB, g2⟩
    · intro v hv
      obtain ⟨x, h1, h2, h3⟩ := g2.ctxs v hv
      refine ⟨x, h1, h2, ?_⟩
      rw [h3, i32_in (by omega) (by omega)]
      dsimp only
      omega
    · refine setNonZeros_run hp1 ?_ e4
      rw [i32_in (by omega) (by omega), Int.tdiv_eq_ediv_of_nonneg (by omega)]
      refine ⟨Int.ediv_nonneg (by omega) (by omega), ?_⟩
      have : (num + (B : Int) - 1) / (B : Int) < 64 := Int.ediv_lt_of_lt_mul (by omega) (by omega)
      omega

end Jxl
