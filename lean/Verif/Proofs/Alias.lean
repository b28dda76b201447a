import Verif.Spec.Stream
import Verif.Proofs.Prefix
/-!
# The alias table
-/
namespace Jxl

theorem setAt_nat' {α : Type} (l : List α) (i : Nat) (a : α) (h : i < l.length) : setAt l (i : Int) a = .ok (l.set i a) := by
  unfold setAt
  rw [if_neg (by omega), if_pos (by simpa using h)]
  simp

theorem idx_getD (l : List Int) (i : Nat) (h : i < l.length) : idx l (i : Int) = .ok (l.getD i 0) := by
  unfold idx
  rw [if_neg (by omega)]
  simp [h, List.getD]

theorem getD_set (l : List Int) (i j : Nat) (a : Int) (h : i < l.length) :
    (l.set i a).getD j 0 = if i = j then a else l.getD j 0 := by
  simp only [List.getD, List.getElem?_set]
  split
  · rename_i e; subst e; simp [h]
  · rfl

/-- The invariant of the pairing loop. `F` are the frequencies, `B` the bucket size, `T` the table size. -/
structure AInv (F : Nat → Int) (B : Int) (T : Nat) (st : Alias) : Prop where
  lc : st.cutoffs.length = T
  ls : st.symbols.length = T
  lo : st.offsets.length = T
  nodup : (st.over ++ st.under).Nodup
  ltT : ∀ i ∈ st.over ++ st.under, i < T
  over_gt : ∀ i ∈ st.over, B < st.cutoffs.getD i 0
  under_lt : ∀ i ∈ st.under, st.cutoffs.getD i 0 < B
  rest : ∀ i, i < T → i ∉ st.over → st.cutoffs.getD i 0 ≤ B
  cle : ∀ i, i < T → st.cutoffs.getD i 0 ≤ F i
  nn : (∀ i, 0 ≤ F i) → ∀ i, i < T → 0 ≤ st.cutoffs.getD i 0
  bal : (st.over.map fun i => st.cutoffs.getD i 0 - B).sum = (st.under.map fun i => B - st.cutoffs.getD i 0).sum
  settled : ∀ u, u < T → u ∉ st.over → u ∉ st.under → st.cutoffs.getD u 0 < B →
    ∃ s, s < T ∧ st.symbols.getD u 0 = (s : Int) ∧ st.cutoffs.getD s 0 ≤ st.offsets.getD u 0 ∧
      st.offsets.getD u 0 + (B - st.cutoffs.getD u 0) ≤ F s ∧ B < F s
  cover : ∀ s, s < T → ∀ k, st.cutoffs.getD s 0 ≤ k → k < F s →
    ∃ u, u < T ∧ u ∉ st.over ∧ u ∉ st.under ∧ st.cutoffs.getD u 0 < B ∧ st.symbols.getD u 0 = (s : Int) ∧
      st.offsets.getD u 0 ≤ k ∧ k < st.offsets.getD u 0 + (B - st.cutoffs.getD u 0)
  disj : ∀ u v, u < T → u ∉ st.over → u ∉ st.under → st.cutoffs.getD u 0 < B →
    v < T → v ∉ st.over → v ∉ st.under → st.cutoffs.getD v 0 < B → u ≠ v → st.symbols.getD u 0 = st.symbols.getD v 0 →
    st.offsets.getD u 0 + (B - st.cutoffs.getD u 0) ≤ st.offsets.getD v 0 ∨
      st.offsets.getD v 0 + (B - st.cutoffs.getD v 0) ≤ st.offsets.getD u 0

theorem sum_pos_of {α : Type} (l : List α) (f : α → Int) (h : ∀ x ∈ l, 0 < f x) : 0 ≤ (l.map f).sum ∧ ((l.map f).sum = 0 → l = []) := by
  induction l with
  | nil => simp
  | cons x l ih =>
    have h1 := ih (fun y hy => h y (by simp [hy]))
    have h2 := h x (by simp)
    simp only [List.map_cons, List.sum_cons]
    constructor
    · omega
    · intro h; omega

/-- One turn of the loop, on the level of the state. -/
def aliasTurn (B : Int) (o u : Nat) (over under : List Nat) (st : Alias) : Alias :=
  let co' := st.cutoffs.getD o 0 - (B - st.cutoffs.getD u 0)
  { cutoffs := st.cutoffs.set o co', symbols := st.symbols.set u (o : Int), offsets := st.offsets.set u co'
    under := if co' < B then o :: under else under
    over := if co' < B then over else if B < co' then o :: over else over }

theorem aliasTurn_inv {F : Nat → Int} {B : Int} {T : Nat} {st : Alias} {o u : Nat} {over under : List Nat}
    (h : AInv F B T st) (ho : st.over = o :: over) (hu : st.under = u :: under) :
    AInv F B T (aliasTurn B o u over under st) := by
  have hoT : o < T := h.ltT o (by simp [ho])
  have huT : u < T := h.ltT u (by simp [hu])
  have hcu : st.cutoffs.getD u 0 < B := h.under_lt u (by simp [hu])
  have hco : B < st.cutoffs.getD o 0 := h.over_gt o (by simp [ho])
  have hnd := h.nodup
  rw [ho, hu] at hnd
  have hou : o ≠ u := by intro e; subst e; omega
  have hnd' : o ∉ over ∧ o ∉ under ∧ u ∉ over ∧ u ∉ under ∧ (over ++ under).Nodup := by
    simp only [List.cons_append, List.nodup_cons, List.mem_append, List.mem_cons, List.nodup_append] at hnd
    obtain ⟨a1, a2, a3, a4⟩ := hnd
    refine ⟨fun hh => a1 (Or.inl hh), fun hh => a1 (Or.inr (Or.inr hh)), fun hh => a4 u hh u (Or.inl rfl) rfl, a3.1, ?_⟩
    rw [List.nodup_append]
    exact ⟨a2, a3.2, fun a ha b hb => a4 a ha b (Or.inr hb)⟩
  obtain ⟨n1, n2, n3, n4, n5⟩ := hnd'
  obtain ⟨co', hco'⟩ : ∃ co', co' = st.cutoffs.getD o 0 - (B - st.cutoffs.getD u 0) := ⟨_, rfl⟩
  have gc : ∀ j, (aliasTurn B o u over under st).cutoffs.getD j 0 = if o = j then co' else st.cutoffs.getD j 0 := by
    intro j
    simp only [aliasTurn]
    rw [getD_set _ _ _ _ (by rw [h.lc]; exact hoT), hco']
  have gs : ∀ j, (aliasTurn B o u over under st).symbols.getD j 0 = if u = j then (o : Int) else st.symbols.getD j 0 := by
    intro j
    simp only [aliasTurn]
    rw [getD_set _ _ _ _ (by rw [h.ls]; exact huT)]
  have go : ∀ j, (aliasTurn B o u over under st).offsets.getD j 0 = if u = j then co' else st.offsets.getD j 0 := by
    intro j
    simp only [aliasTurn]
    rw [getD_set _ _ _ _ (by rw [h.lo]; exact huT), hco']
  have eo : (aliasTurn B o u over under st).over = if co' < B then over else if B < co' then o :: over else over := by
    simp only [aliasTurn, ← hco']
  have eu : (aliasTurn B o u over under st).under = if co' < B then o :: under else under := by
    simp only [aliasTurn, ← hco']
  -- membership
  have mo : ∀ j, j ∈ (aliasTurn B o u over under st).over ↔ (j ∈ over ∨ (j = o ∧ B < co')) := by
    intro j; rw [eo]
    split
    · constructor
      · exact Or.inl
      · rintro (h | ⟨_, h⟩)
        · exact h
        · omega
    · split
      · rename_i hB
        simp only [List.mem_cons]
        constructor
        · rintro (h | h)
          · exact Or.inr ⟨h, hB⟩
          · exact Or.inl h
        · rintro (h | h)
          · exact Or.inr h
          · exact Or.inl h.1
      · constructor
        · exact Or.inl
        · rintro (h | ⟨_, h⟩)
          · exact h
          · omega
  have mu : ∀ j, j ∈ (aliasTurn B o u over under st).under ↔ (j ∈ under ∨ (j = o ∧ co' < B)) := by
    intro j; rw [eu]
    split
    · rename_i hB
      simp only [List.mem_cons]
      constructor
      · rintro (h | h)
        · exact Or.inr ⟨h, hB⟩
        · exact Or.inl h
      · rintro (h | h)
        · exact Or.inr h
        · exact Or.inl h.1
    · constructor
      · exact Or.inl
      · rintro (h | ⟨_, h⟩)
        · exact h
        · omega
  have mo' : ∀ j, j ∈ st.over ↔ (j = o ∨ j ∈ over) := by intro j; rw [ho]; simp
  have mu' : ∀ j, j ∈ st.under ↔ (j = u ∨ j ∈ under) := by intro j; rw [hu]; simp
  -- the settled entries after the turn: the old ones and u
  have set_iff : ∀ j, j < T → (j ∉ (aliasTurn B o u over under st).over ∧ j ∉ (aliasTurn B o u over under st).under ∧
      (aliasTurn B o u over under st).cutoffs.getD j 0 < B) →
      j ≠ o ∧ (j = u ∨ (j ∉ st.over ∧ j ∉ st.under ∧ st.cutoffs.getD j 0 < B)) := by
    intro j hj ⟨h1, h2, h3⟩
    rw [mo] at h1; rw [mu] at h2; rw [gc] at h3
    have hjo : j ≠ o := by
      intro e; subst e
      rw [if_pos rfl] at h3
      exact h2 (Or.inr ⟨rfl, h3⟩)
    rw [if_neg (Ne.symm hjo)] at h3
    refine ⟨hjo, ?_⟩
    by_cases hju : j = u
    · exact Or.inl hju
    · refine Or.inr ⟨?_, ?_, h3⟩
      · rw [mo']; intro hh; rcases hh with hh | hh
        · exact hjo hh
        · exact h1 (Or.inl hh)
      · rw [mu']; intro hh; rcases hh with hh | hh
        · exact hju hh
        · exact h2 (Or.inl hh)
  have set_mpr : ∀ j, j ≠ o → (j = u ∨ (j ∉ st.over ∧ j ∉ st.under ∧ st.cutoffs.getD j 0 < B)) →
      (j ∉ (aliasTurn B o u over under st).over ∧ j ∉ (aliasTurn B o u over under st).under ∧
      (aliasTurn B o u over under st).cutoffs.getD j 0 < B) := by
    intro j hjo hh
    rw [mo, mu, gc, if_neg (Ne.symm hjo)]
    rcases hh with rfl | ⟨h1, h2, h3⟩
    · refine ⟨?_, ?_, hcu⟩
      · rintro (h | ⟨h, _⟩)
        · exact n3 h
        · exact hjo h
      · rintro (h | ⟨h, _⟩)
        · exact n4 h
        · exact hjo h
    · refine ⟨?_, ?_, h3⟩
      · rintro (h | ⟨h, _⟩)
        · exact h1 (by rw [mo']; exact Or.inr h)
        · exact hjo h
      · rintro (h | ⟨h, _⟩)
        · exact h2 (by rw [mu']; exact Or.inr h)
        · exact hjo h
  have notset_u : ∀ j, (j ∉ st.over ∧ j ∉ st.under) → j ≠ u ∧ j ≠ o := by
    intro j ⟨h1, h2⟩
    constructor
    · intro e; subst e; exact h2 (by simp [hu])
    · intro e; subst e; exact h1 (by simp [ho])
  refine
    { lc := by simp [aliasTurn, h.lc], ls := by simp [aliasTurn, h.ls], lo := by simp [aliasTurn, h.lo]
      nodup := ?_, ltT := ?_, over_gt := ?_, under_lt := ?_, rest := ?_, cle := ?_, nn := ?_, bal := ?_
      settled := ?_, cover := ?_, disj := ?_ }
  · rw [eo, eu]
    rw [List.nodup_append] at n5 ⊢
    obtain ⟨m1, m2, m3⟩ := n5
    split
    · refine ⟨m1, List.nodup_cons.2 ⟨n2, m2⟩, ?_⟩
      intro a ha b hb
      rcases List.mem_cons.1 hb with rfl | hb
      · intro e; subst e; exact n1 ha
      · exact m3 a ha b hb
    · split
      · refine ⟨List.nodup_cons.2 ⟨n1, m1⟩, m2, ?_⟩
        intro a ha b hb
        rcases List.mem_cons.1 ha with rfl | ha
        · intro e; subst e; exact n2 hb
        · exact m3 a ha b hb
      · exact ⟨m1, m2, m3⟩
  · intro j hj
    rw [List.mem_append, mo, mu] at hj
    rcases hj with (hj | ⟨rfl, _⟩) | (hj | ⟨rfl, _⟩)
    · exact h.ltT j (by simp [ho, hj])
    · exact hoT
    · exact h.ltT j (by simp [hu, hj])
    · exact hoT
  · intro j hj
    rw [mo] at hj; rw [gc]
    rcases hj with hj | ⟨rfl, hB⟩
    · rw [if_neg (by intro e; subst e; exact n1 hj)]
      exact h.over_gt j (by simp [ho, hj])
    · rw [if_pos rfl]; exact hB
  · intro j hj
    rw [mu] at hj; rw [gc]
    rcases hj with hj | ⟨rfl, hB⟩
    · rw [if_neg (by intro e; subst e; exact n2 hj)]
      exact h.under_lt j (by simp [hu, hj])
    · rw [if_pos rfl]; exact hB
  · intro j hjT hj
    rw [mo] at hj; rw [gc]
    split
    · rename_i e; subst e
      by_cases hc : B < co'
      · exact absurd (Or.inr ⟨rfl, hc⟩) hj
      · omega
    · rename_i hne
      apply h.rest j hjT
      rw [mo']; rintro (e | e)
      · exact hne e.symm
      · exact hj (Or.inl e)
  · intro j hjT
    rw [gc]
    split
    · rename_i e; subst e
      have := h.cle o hjT
      omega
    · exact h.cle j hjT
  · intro hF j hjT
    rw [gc]
    split
    · have := h.nn hF u huT; omega
    · exact h.nn hF j hjT
  · have hb := h.bal
    rw [ho, hu] at hb
    simp only [List.map_cons, List.sum_cons] at hb
    have k1 : (over.map fun i => (aliasTurn B o u over under st).cutoffs.getD i 0 - B) = over.map fun i => st.cutoffs.getD i 0 - B := by
      apply List.map_congr_left
      intro j hj
      rw [gc, if_neg (by intro e; subst e; exact n1 hj)]
    have k2 : (under.map fun i => B - (aliasTurn B o u over under st).cutoffs.getD i 0) = under.map fun i => B - st.cutoffs.getD i 0 := by
      apply List.map_congr_left
      intro j hj
      rw [gc, if_neg (by intro e; subst e; exact n2 hj)]
    rw [eo, eu]
    split
    · rw [List.map_cons, List.sum_cons, k1, k2, gc, if_pos rfl]; omega
    · split
      · rw [List.map_cons, List.sum_cons, k1, k2, gc, if_pos rfl]; omega
      · rw [k1, k2]; omega
  · intro v hvT h1 h2 h3
    obtain ⟨hvo, hv⟩ := set_iff v hvT ⟨h1, h2, h3⟩
    rw [gc v, if_neg (Ne.symm hvo), gs, go]
    rcases hv with rfl | ⟨g1, g2, g3⟩
    · refine ⟨o, hoT, ?_, ?_, ?_, ?_⟩
      · rw [if_pos rfl]
      · rw [if_pos rfl, gc, if_pos rfl]; omega
      · rw [if_pos rfl]
        have := h.cle o hoT
        omega
      · have := h.cle o hoT
        omega
    · obtain ⟨hvu, _⟩ := notset_u v ⟨g1, g2⟩
      obtain ⟨s, e1, e2, e3, e4⟩ := h.settled v hvT g1 g2 g3
      rw [if_neg (Ne.symm hvu), if_neg (Ne.symm hvu)]
      refine ⟨s, e1, e2, ?_, e4⟩
      rw [gc]
      split
      · rename_i e; subst e; omega
      · exact e3
  · intro s hsT k hk1 hk2
    rw [gc] at hk1
    by_cases hso : o = s
    · subst hso
      rw [if_pos rfl] at hk1
      by_cases hk : k < st.cutoffs.getD o 0
      · obtain ⟨m1, m2, m3⟩ := set_mpr u (Ne.symm hou) (Or.inl rfl)
        refine ⟨u, huT, m1, m2, m3, ?_, ?_, ?_⟩
        · rw [gs, if_pos rfl]
        · rw [go, if_pos rfl]; exact hk1
        · rw [go, if_pos rfl, gc, if_neg hou]; omega
      · obtain ⟨v, g0, g1, g2, g3, g4, g5, g6⟩ := h.cover o hsT k (by omega) hk2
        obtain ⟨hvu, hvo⟩ := notset_u v ⟨g1, g2⟩
        obtain ⟨m1, m2, m3⟩ := set_mpr v hvo (Or.inr ⟨g1, g2, g3⟩)
        refine ⟨v, g0, m1, m2, m3, ?_, ?_, ?_⟩
        · rw [gs, if_neg (Ne.symm hvu)]; exact g4
        · rw [go, if_neg (Ne.symm hvu)]; exact g5
        · rw [go, if_neg (Ne.symm hvu), gc, if_neg (Ne.symm hvo)]; exact g6
    · rw [if_neg hso] at hk1
      obtain ⟨v, g0, g1, g2, g3, g4, g5, g6⟩ := h.cover s hsT k hk1 hk2
      obtain ⟨hvu, hvo⟩ := notset_u v ⟨g1, g2⟩
      obtain ⟨m1, m2, m3⟩ := set_mpr v hvo (Or.inr ⟨g1, g2, g3⟩)
      refine ⟨v, g0, m1, m2, m3, ?_, ?_, ?_⟩
      · rw [gs, if_neg (Ne.symm hvu)]; exact g4
      · rw [go, if_neg (Ne.symm hvu)]; exact g5
      · rw [go, if_neg (Ne.symm hvu), gc, if_neg (Ne.symm hvo)]; exact g6
  · intro v w hvT a1 a2 a3 hwT b1 b2 b3 hvw hsym
    obtain ⟨hvo, hv⟩ := set_iff v hvT ⟨a1, a2, a3⟩
    obtain ⟨hwo, hw⟩ := set_iff w hwT ⟨b1, b2, b3⟩
    rw [gs, gs] at hsym
    rw [go, go, gc, gc, if_neg (Ne.symm hvo), if_neg (Ne.symm hwo)]
    rcases hv with rfl | ⟨p1, p2, p3⟩ <;> rcases hw with rfl | ⟨q1, q2, q3⟩
    · exact absurd rfl hvw
    · obtain ⟨hwu, _⟩ := notset_u w ⟨q1, q2⟩
      rw [if_pos rfl, if_neg (Ne.symm hwu)] at hsym
      rw [if_pos rfl, if_neg (Ne.symm hwu)]
      obtain ⟨s, e1, e2, e3, e4⟩ := h.settled w hwT q1 q2 q3
      have : s = o := by omega
      subst this
      left; omega
    · obtain ⟨hvu, _⟩ := notset_u v ⟨p1, p2⟩
      rw [if_pos rfl, if_neg (Ne.symm hvu)] at hsym
      rw [if_pos rfl, if_neg (Ne.symm hvu)]
      obtain ⟨s, e1, e2, e3, e4⟩ := h.settled v hvT p1 p2 p3
      have : s = o := by omega
      subst this
      right; omega
    · obtain ⟨hvu, _⟩ := notset_u v ⟨p1, p2⟩
      obtain ⟨hwu, _⟩ := notset_u w ⟨q1, q2⟩
      rw [if_neg (Ne.symm hvu), if_neg (Ne.symm hwu)] at hsym
      rw [if_neg (Ne.symm hvu), if_neg (Ne.symm hwu)]
      exact h.disj v w hvT p1 p2 p3 hwT q1 q2 q3 hvw hsym

theorem aliasLoop_spec {F : Nat → Int} {B : Int} {T : Nat} (fuel : Nat) (st : Alias) (h : AInv F B T st)
    (hf : st.over.length + st.under.length ≤ fuel) :
    ∃ st', aliasLoop B fuel st = .ok st' ∧ AInv F B T st' ∧ st'.over = [] ∧ st'.under = [] := by
  induction fuel generalizing st with
  | zero =>
    have h1 : st.over = [] := List.length_eq_zero_iff.1 (by omega)
    have h2 : st.under = [] := List.length_eq_zero_iff.1 (by omega)
    refine ⟨st, ?_, h, h1, h2⟩
    unfold aliasLoop; rw [h1]
  | succ fuel ih =>
    unfold aliasLoop
    cases ho : st.over with
    | nil =>
      refine ⟨st, rfl, h, ho, ?_⟩
      have hb := h.bal
      rw [ho] at hb
      simp only [List.map_nil, List.sum_nil] at hb
      exact (sum_pos_of st.under (fun i => B - st.cutoffs.getD i 0) (by
        intro i hi; have := h.under_lt i hi; omega)).2 hb.symm
    | cons o over =>
      cases hu : st.under with
      | nil =>
        exfalso
        have hb := h.bal
        rw [hu] at hb
        simp only [List.map_nil, List.sum_nil] at hb
        have := (sum_pos_of st.over (fun i => st.cutoffs.getD i 0 - B) (by
          intro i hi; have := h.over_gt i hi; omega)).2 hb
        rw [ho] at this; cases this
      | cons u under =>
        have hoT : o < T := h.ltT o (by simp [ho])
        have huT : u < T := h.ltT u (by simp [hu])
        dsimp only
        rw [idx_getD _ _ (by rw [h.lc]; exact huT)]
        simp only [Res.bind_ok]
        rw [idx_getD _ _ (by rw [h.lc]; exact hoT)]
        simp only [Res.bind_ok]
        rw [setAt_nat' _ _ _ (by rw [h.lc]; exact hoT)]
        simp only [Res.bind_ok]
        rw [setAt_nat' _ _ _ (by rw [h.ls]; exact huT)]
        simp only [Res.bind_ok]
        rw [setAt_nat' _ _ _ (by rw [h.lo]; exact huT)]
        simp only [Res.bind_ok]
        apply ih (aliasTurn B o u over under st) (aliasTurn_inv h ho hu)
        rw [ho, hu] at hf
        simp only [List.length_cons] at hf
        simp only [aliasTurn]
        split
        · simp; omega
        · split
          · simp; omega
          · omega


/-- The state of the set-up loops after the first `i` table entries. -/
structure InitInv (F : Nat → Int) (B : Int) (T i : Nat) (st : Alias) : Prop where
  lc : st.cutoffs.length = T
  ls : st.symbols.length = T
  lo : st.offsets.length = T
  cut : ∀ j, st.cutoffs.getD j 0 = if j < i then F j else 0
  nd : (st.over ++ st.under).Nodup
  mo : ∀ j, j ∈ st.over ↔ j < i ∧ B < F j
  mu : ∀ j, j ∈ st.under ↔ j < i ∧ F j < B
  bal : (st.over.map fun j => F j - B).sum - (st.under.map fun j => B - F j).sum = ((List.range i).map fun j => F j - B).sum

theorem initInv_step {F : Nat → Int} {B : Int} {T i : Nat} {st : Alias} (h : InitInv F B T i st) (hi : i < T)
    (cut' : List Int) (hl : cut'.length = T) (hc : ∀ j, cut'.getD j 0 = if j < i + 1 then F j else 0) :
    InitInv F B T (i + 1) { st with
        cutoffs := cut'
        over := if B < F i then i :: st.over else st.over
        under := if F i < B then i :: st.under else st.under } := by
  have hio : i ∉ st.over := by rw [h.mo]; omega
  have hiu : i ∉ st.under := by rw [h.mu]; omega
  have hnd := h.nd
  rw [List.nodup_append] at hnd
  obtain ⟨m1, m2, m3⟩ := hnd
  refine { lc := hl, ls := h.ls, lo := h.lo, cut := hc, nd := ?_, mo := ?_, mu := ?_, bal := ?_ }
  · dsimp only
    rw [List.nodup_append]
    split
    · rw [if_neg (by omega)]
      refine ⟨List.nodup_cons.2 ⟨hio, m1⟩, m2, ?_⟩
      intro a ha b hb
      rcases List.mem_cons.1 ha with rfl | ha
      · intro e; subst e; exact hiu hb
      · exact m3 a ha b hb
    · split
      · refine ⟨m1, List.nodup_cons.2 ⟨hiu, m2⟩, ?_⟩
        intro a ha b hb
        rcases List.mem_cons.1 hb with rfl | hb
        · intro e; subst e; exact hio ha
        · exact m3 a ha b hb
      · exact ⟨m1, m2, m3⟩
  · intro j
    dsimp only
    by_cases hj : j = i
    · subst hj
      split
      · rename_i hB; simp [hB]
      · rename_i hB; rw [h.mo]; omega
    · have : (j ∈ if B < F i then i :: st.over else st.over) ↔ j ∈ st.over := by
        split
        · simp [hj]
        · rfl
      rw [this, h.mo]; omega
  · intro j
    dsimp only
    by_cases hj : j = i
    · subst hj
      split
      · rename_i hB; simp [hB]
      · rename_i hB; rw [h.mu]; omega
    · have : (j ∈ if F i < B then i :: st.under else st.under) ↔ j ∈ st.under := by
        split
        · simp [hj]
        · rfl
      rw [this, h.mu]; omega
  · have hb := h.bal
    dsimp only
    rw [List.range_succ, List.map_append, List.sum_append]
    simp only [List.map_cons, List.map_nil, List.sum_cons, List.sum_nil]
    split
    · rw [if_neg (by omega)]
      simp only [List.map_cons, List.sum_cons]; omega
    · split
      · simp only [List.map_cons, List.sum_cons]; omega
      · omega

theorem aliasInit_spec {F : Nat → Int} {B : Int} {T : Nat} (fs : List Int) (i : Nat) (st : Alias) (h : InitInv F B T i st)
    (hT : i + fs.length ≤ T) (hF : ∀ k (hk : k < fs.length), F (i + k) = fs[k]) :
    ∃ st', aliasInit B fs i st = .ok st' ∧ InitInv F B T (i + fs.length) st' := by
  induction fs generalizing i st with
  | nil => exact ⟨st, rfl, h⟩
  | cons f fs ih =>
    simp only [List.length_cons] at hT
    have hf : F i = f := hF 0 (by simp)
    simp only [aliasInit]
    rw [setAt_nat' _ _ _ (by rw [h.lc]; omega)]
    simp only [Res.bind_ok]
    have hstep := initInv_step h (by omega) (st.cutoffs.set i (F i)) (by simp [h.lc]) (by
      intro j
      rw [getD_set _ _ _ _ (by rw [h.lc]; omega), h.cut]
      split
      · rename_i e; subst e; simp
      · by_cases h1 : j < i
        · rw [if_pos h1, if_pos (by omega)]
        · rw [if_neg h1, if_neg (by omega)])
    rw [hf] at hstep
    obtain ⟨st', e1, e2⟩ := ih (i + 1) _ hstep (by omega) (by
      intro k hk
      have := hF (k + 1) (by simp; omega)
      rw [show i + 1 + k = i + (k + 1) by omega, this]
      simp)
    refine ⟨st', e1, ?_⟩
    rw [List.length_cons, show i + (fs.length + 1) = i + 1 + fs.length by omega]
    exact e2

theorem aliasRest_spec {F : Nat → Int} {B : Int} {T : Nat} (hB : 0 < B) (n i : Nat) (st : Alias) (h : InitInv F B T i st)
    (hT : i + n ≤ T) (hF : ∀ k, i ≤ k → F k = 0) : InitInv F B T (i + n) (aliasRest n i st) := by
  induction n generalizing i st with
  | zero => exact h
  | succ n ih =>
    simp only [aliasRest]
    have hf := hF i (Nat.le_refl _)
    have hstep := initInv_step h (by omega) st.cutoffs h.lc (by
      intro j
      rw [h.cut]
      by_cases h1 : j < i
      · rw [if_pos h1, if_pos (by omega)]
      · rw [if_neg h1]
        split
        · rw [hF j (by omega)]
        · rfl)
    rw [if_neg (by omega), if_pos (by omega)] at hstep
    rw [show i + (n + 1) = i + 1 + n by omega]
    exact ih (i + 1) _ hstep (by omega) (fun k hk => hF k (by omega))

theorem initInv_done {F : Nat → Int} {B : Int} {T : Nat} {st : Alias} (h : InitInv F B T T st)
    (hsum : ((List.range T).map fun j => F j - B).sum = 0) : AInv F B T st := by
  have hc : ∀ j, j < T → st.cutoffs.getD j 0 = F j := fun j hj => by rw [h.cut, if_pos hj]
  refine
    { lc := h.lc, ls := h.ls, lo := h.lo, nodup := h.nd, ltT := ?_, over_gt := ?_, under_lt := ?_, rest := ?_
      cle := ?_, nn := ?_, bal := ?_, settled := ?_, cover := ?_, disj := ?_ }
  · intro i hi
    rcases List.mem_append.1 hi with hi | hi
    · exact ((h.mo i).1 hi).1
    · exact ((h.mu i).1 hi).1
  · intro i hi
    have := (h.mo i).1 hi
    rw [hc i this.1]; exact this.2
  · intro i hi
    have := (h.mu i).1 hi
    rw [hc i this.1]; exact this.2
  · intro i hi ho
    rw [hc i hi]
    rw [h.mo] at ho
    omega
  · intro i hi; rw [hc i hi]; exact Int.le_refl _
  · intro hF i hi; rw [hc i hi]; exact hF i
  · have hb := h.bal
    rw [hsum] at hb
    have k1 : (st.over.map fun i => st.cutoffs.getD i 0 - B) = st.over.map fun i => F i - B := by
      apply List.map_congr_left
      intro j hj
      rw [hc j ((h.mo j).1 hj).1]
    have k2 : (st.under.map fun i => B - st.cutoffs.getD i 0) = st.under.map fun i => B - F i := by
      apply List.map_congr_left
      intro j hj
      rw [hc j ((h.mu j).1 hj).1]
    rw [k1, k2]; omega
  · intro u hu h1 h2 h3
    rw [hc u hu] at h3
    exact absurd ((h.mu u).2 ⟨hu, h3⟩) h2
  · intro s hs k h1 h2
    rw [hc s hs] at h1
    omega
  · intro u v hu h1 h2 h3
    rw [hc u hu] at h3
    exact absurd ((h.mu u).2 ⟨hu, h3⟩) h2

theorem sum_range_sub (F : Nat → Int) (B : Int) (T : Nat) :
    ((List.range T).map fun j => F j - B).sum = ((List.range T).map F).sum - T * B := by
  induction T with
  | zero => simp
  | succ T ih =>
    rw [List.range_succ, List.map_append, List.sum_append, List.map_append, List.sum_append, ih]
    simp only [List.map_cons, List.map_nil, List.sum_cons, List.sum_nil]
    have : ((T + 1 : Nat) : Int) * B = T * B + B := by
      push_cast; rw [Int.add_mul]; omega
    omega

theorem sum_range_getD (l : List Int) (T : Nat) (h : l.length ≤ T) : ((List.range T).map fun j => l.getD j 0).sum = l.sum := by
  induction l generalizing T with
  | nil =>
    have : ∀ T, ((List.range T).map fun _ => (0 : Int)).sum = 0 := by
      intro T
      induction T with
      | zero => rfl
      | succ T ih => rw [List.range_succ, List.map_append, List.sum_append, ih]; rfl
    simpa [List.getD] using this T
  | cons x l ih =>
    simp only [List.length_cons] at h
    obtain ⟨T', rfl⟩ : ∃ T', T = T' + 1 := ⟨T - 1, by omega⟩
    rw [List.range_succ_eq_map, List.map_cons, List.sum_cons, List.map_map]
    have := ih T' (by omega)
    simp only [List.sum_cons]
    rw [← this]
    rfl

theorem two_pow_split (L : Nat) (h : L ≤ 12) : (2 : Nat) ^ L * 2 ^ (12 - L) = 4096 := by
  rw [← Nat.pow_add, show L + (12 - L) = 12 by omega]

/-- The alias mapping of any list of (possibly negative) frequencies that sum to 4096 is built without panic, and the
look-up is defined on the whole state space. -/
theorem generate_spec (L : Nat) (hL : L ≤ 12) (fs : List Int) (hlen : fs.length ≤ 2 ^ L) (hsum : fs.sum = 4096) :
    ∃ st d, AInv (fun j => fs.getD j 0) (2 ^ (12 - L) : Nat) (2 ^ L) st ∧ st.over = [] ∧ st.under = [] ∧
      generateAliasMapping L fs none = .ok d ∧ d.freqs = fs ∧ d.logAlphabetSize = L ∧
      ∀ i, i < 2 ^ L → ∀ r, r = aliasRow (2 ^ (12 - L) : Nat) i (st.cutoffs.getD i 0) (st.symbols.getD i 0) (st.offsets.getD i 0) →
        idx d.cutoffs (i : Int) = .ok r.1 ∧ idx d.symbols (i : Int) = .ok r.2.1 ∧ idx d.offsets (i : Int) = .ok r.2.2 := by
  have hB : (2 : Int) ^ (12 - L) = ((2 ^ (12 - L) : Nat) : Int) := by push_cast; rfl
  have hBpos : (0 : Int) < ((2 ^ (12 - L) : Nat) : Int) := by have := Nat.two_pow_pos (12 - L); omega
  obtain ⟨B, hBdef⟩ : ∃ B : Int, B = ((2 ^ (12 - L) : Nat) : Int) := ⟨_, rfl⟩
  rw [← hBdef] at hB hBpos ⊢
  have h0 : InitInv (fun j => fs.getD j 0) B (2 ^ L) 0
      { cutoffs := List.replicate (2 ^ L) 0, symbols := List.replicate (2 ^ L) 0, offsets := List.replicate (2 ^ L) 0, over := [], under := [] } := by
    refine { lc := by simp, ls := by simp, lo := by simp, cut := ?_, nd := by simp, mo := by simp, mu := by simp, bal := by simp }
    intro j
    simp only [Nat.not_lt_zero, if_false, List.getD]
    by_cases hj : j < 2 ^ L
    · simp [List.getElem?_replicate, hj]
    · simp [List.getElem?_replicate, hj]
  obtain ⟨st1, e1, i1⟩ := aliasInit_spec fs 0 _ h0 (by omega) (by
    intro k hk; simp [List.getD, hk])
  rw [Nat.zero_add] at i1
  have i2 := aliasRest_spec hBpos (2 ^ L - fs.length) fs.length st1 i1 (by omega) (by
    intro k hk; simp [List.getD, List.getElem?_eq_none hk])
  rw [show fs.length + (2 ^ L - fs.length) = 2 ^ L by omega] at i2
  have hinv := initInv_done i2 (by
    rw [sum_range_sub, sum_range_getD _ _ hlen, hsum, hBdef]
    have := two_pow_split L hL
    have h2 : (((2 ^ L * 2 ^ (12 - L) : Nat)) : Int) = 4096 := by rw [this]; rfl
    rw [← h2]; push_cast; omega)
  obtain ⟨st, e2, hst, ho, hu⟩ := aliasLoop_spec _ _ hinv (Nat.le_refl _)
  refine ⟨st, { logAlphabetSize := L, freqs := fs, cutoffs := (aliasFinish B st).map (·.1), symbols := (aliasFinish B st).map (·.2.1), offsets := (aliasFinish B st).map (·.2.2) }, hst, ho, hu, ?_, rfl, rfl, ?_⟩
  · simp only [generateAliasMapping]
    rw [hB, e1]
    simp only [Res.bind_ok]
    rw [e2]
    simp only [Res.bind_ok]
  · intro i hi r hr
    have hl : (aliasFinish B st).length = 2 ^ L := by simp [aliasFinish, hst.lc]
    have hg : (aliasFinish B st)[i]? = some r := by
      simp only [aliasFinish]
      rw [List.getElem?_map, List.getElem?_range (by rw [hst.lc]; exact hi)]
      simp [hr]
    refine ⟨?_, ?_, ?_⟩ <;> (apply idx_nat; simp [List.getElem?_map, hg])

theorem aliasLookup_row {d : ANSDist} {L : Nat} (hd : d.logAlphabetSize = L) (i pos : Nat) (hpos : pos < 2 ^ (12 - L)) (r : Int × Int × Int)
    (h : idx d.cutoffs (i : Int) = .ok r.1 ∧ idx d.symbols (i : Int) = .ok r.2.1 ∧ idx d.offsets (i : Int) = .ok r.2.2) :
    aliasLookup d (i * 2 ^ (12 - L) + pos) = .ok (if r.1 ≤ (pos : Int) then (r.2.1, r.2.2 + pos) else ((i : Int), (pos : Int))) := by
  have h1 : (i * 2 ^ (12 - L) + pos) / 2 ^ (12 - L) = i := by
    rw [Nat.mul_comm, Nat.mul_add_div (Nat.two_pow_pos _), Nat.div_eq_of_lt hpos]; omega
  have h2 : (i * 2 ^ (12 - L) + pos) % 2 ^ (12 - L) = pos := by
    rw [Nat.mul_comm, Nat.mul_add_mod, Nat.mod_eq_of_lt hpos]
  unfold aliasLookup
  simp only [hd, h1, h2, h.1, Res.bind_ok]
  split
  · simp only [h.2.1, h.2.2, Res.bind_ok]
  · rfl

/-- What one slot of the finished table means. -/
theorem lookup_spec {L : Nat} {fs : List Int} {st : Alias} {d : ANSDist} {B : Nat} (hBd : B = 2 ^ (12 - L))
    (hd : d.logAlphabetSize = L) 
    (hrow : ∀ i, i < 2 ^ L → ∀ r, r = aliasRow (B : Int) i (st.cutoffs.getD i 0) (st.symbols.getD i 0) (st.offsets.getD i 0) →
        idx d.cutoffs (i : Int) = .ok r.1 ∧ idx d.symbols (i : Int) = .ok r.2.1 ∧ idx d.offsets (i : Int) = .ok r.2.2)
    (i pos : Nat) (hi : i < 2 ^ L) (hpos : pos < B) :
    aliasLookup d (i * B + pos) = .ok (
      if st.cutoffs.getD i 0 = B ∨ (pos : Int) < st.cutoffs.getD i 0 then ((i : Int), (pos : Int))
      else (st.symbols.getD i 0, st.offsets.getD i 0 - st.cutoffs.getD i 0 + pos)) := by
  obtain ⟨r, hr⟩ : ∃ r, r = aliasRow (B : Int) i (st.cutoffs.getD i 0) (st.symbols.getD i 0) (st.offsets.getD i 0) := ⟨_, rfl⟩
  have h := aliasLookup_row hd i pos (by omega) _ (hrow i hi r hr)
  rw [hBd, h]
  congr 1
  rw [← hBd]
  simp only [aliasRow] at hr
  by_cases hc : st.cutoffs.getD i 0 = (B : Int)
  · rw [if_pos hc] at hr
    subst hr
    rw [if_pos (by simp), if_pos (Or.inl hc)]; simp
  · rw [if_neg hc] at hr
    subst hr
    by_cases h2 : (pos : Int) < st.cutoffs.getD i 0
    · rw [if_neg (by simp only; omega), if_pos (Or.inr h2)]
    · rw [if_pos (by simp only; omega), if_neg (fun h => h.elim hc h2)]

theorem generate_partitions (L : Nat) (hL : L ≤ 12) (fs : List Nat) (hlen : fs.length ≤ 2 ^ L) (hsum : fs.sum = 4096) :
    ∃ d, generateAliasMapping L (fs.map Int.ofNat) none = .ok d ∧ d.freqs = fs.map Int.ofNat ∧ d.logAlphabetSize = L ∧
      Partitions d (fun s => fs.getD s 0) := by
  have hs : (fs.map Int.ofNat).sum = 4096 := by
    have : ∀ l : List Nat, (l.map Int.ofNat).sum = (l.sum : Int) := by
      intro l
      induction l with
      | nil => rfl
      | cons x l ih => simp only [List.map_cons, List.sum_cons, ih]; push_cast; rfl
    rw [this, hsum]; rfl
  obtain ⟨st, d, hinv, ho, hu, he, hf, hl, hrow⟩ := generate_spec L hL (fs.map Int.ofNat) (by simpa using hlen) hs
  refine ⟨d, he, hf, hl, ?_⟩
  have hF : ∀ j, (fs.map Int.ofNat).getD j 0 = ((fs.getD j 0 : Nat) : Int) := by
    intro j
    simp only [List.getD, List.getElem?_map]
    cases fs[j]? <;> rfl
  obtain ⟨B, hB⟩ : ∃ B : Nat, B = 2 ^ (12 - L) := ⟨_, rfl⟩
  have hTB : 2 ^ L * B = 4096 := by rw [hB]; exact two_pow_split L hL
  rw [← hB] at hinv hrow
  have hBpos : 0 < B := by rw [hB]; exact Nat.two_pow_pos _
  have hnn := hinv.nn (by intro i; rw [hF]; omega)
  have hlook := fun i pos hi hpos => lookup_spec (d := d) (st := st) (fs := fs.map Int.ofNat) hB hl hrow i pos hi hpos
  have hle : ∀ i, i < 2 ^ L → st.cutoffs.getD i 0 ≤ B := fun i hi => hinv.rest i hi (by rw [ho]; simp)
  have hset := fun u hu' hc => hinv.settled u hu' (by rw [ho]; simp) (by rw [hu]; simp) hc
  -- slots in coordinates
  have hcoord : ∀ x, x < 4096 → ∃ i pos, i < 2 ^ L ∧ pos < B ∧ x = i * B + pos := by
    intro x hx
    refine ⟨x / B, x % B, ?_, Nat.mod_lt _ hBpos, ?_⟩
    · rw [Nat.div_lt_iff_lt_mul hBpos, hTB]; exact hx
    · rw [Nat.mul_comm]; exact (Nat.div_add_mod x B).symm
  have hbound : ∀ i pos, i < 2 ^ L → pos < B → i * B + pos < 4096 := by
    intro i pos hi hpos
    have : (i + 1) * B ≤ 2 ^ L * B := Nat.mul_le_mul_right _ hi
    rw [hTB, Nat.add_mul] at this
    omega
  refine ⟨?_, ?_, ?_⟩
  · intro x hx
    obtain ⟨i, pos, hi, hpos, rfl⟩ := hcoord x hx
    rw [hlook i pos hi hpos]
    split
    · rename_i hc
      refine ⟨i, pos, ?_, rfl⟩
      have h1 := hinv.cle i hi
      have h2 := hle i hi
      rw [hF] at h1
      omega
    · rename_i hc
      have hlt : st.cutoffs.getD i 0 < B := by
        have := hle i hi
        have h1 : ¬ st.cutoffs.getD i 0 = B := fun h => hc (Or.inl h)
        omega
      have hge : ¬ (pos : Int) < st.cutoffs.getD i 0 := fun h => hc (Or.inr h)
      obtain ⟨s, e1, e2, e3, e4⟩ := hset i hi hlt
      rw [hF] at e4
      have hn := hnn s e1
      refine ⟨s, (st.offsets.getD i 0 - st.cutoffs.getD i 0 + pos).toNat, ?_, ?_⟩
      · omega
      · rw [e2]
        rw [Int.toNat_of_nonneg (by omega)]
  · intro s k hk
    by_cases hsT : s < 2 ^ L
    · by_cases hc : (k : Int) < st.cutoffs.getD s 0
      · have hkB : k < B := by have := hle s hsT; omega
        refine ⟨s * B + k, hbound s k hsT hkB, ?_⟩
        rw [hlook s k hsT hkB, if_pos (Or.inr hc)]
      · obtain ⟨u, g0, _, _, g3, g4, g5, g6⟩ := hinv.cover s hsT k (by omega) (by rw [hF]; omega)
        have hn := hnn u g0
        have hpos : ((k : Int) - st.offsets.getD u 0 + st.cutoffs.getD u 0).toNat < B := by omega
        refine ⟨u * B + ((k : Int) - st.offsets.getD u 0 + st.cutoffs.getD u 0).toNat, hbound u _ g0 hpos, ?_⟩
        rw [hlook u _ g0 hpos, if_neg (by omega), g4]
        congr 2
        omega
    · exfalso
      have : fs.getD s 0 = 0 := by simp [List.getD, List.getElem?_eq_none (show fs.length ≤ s by omega)]
      omega
  · intro x y hx hy hxy
    obtain ⟨i, p, hi, hp, rfl⟩ := hcoord x hx
    obtain ⟨j, q, hj, hq, rfl⟩ := hcoord y hy
    rw [hlook i p hi hp, hlook j q hj hq] at hxy
    have hxy := Res.ok.inj hxy
    have hli := hle i hi
    have hlj := hle j hj
    split at hxy <;> split at hxy <;> rename_i c1 c2
    · have := (Prod.mk.inj hxy)
      have h1 : i = j := by omega
      have h2 : p = q := by omega
      rw [h1, h2]
    · exfalso
      obtain ⟨h1, h2⟩ := Prod.mk.inj hxy
      obtain ⟨s, e1, e2, e3, e4⟩ := hset j hj (by omega)
      have : s = i := by omega
      subst this
      have := hnn j hj
      omega
    · exfalso
      obtain ⟨h1, h2⟩ := Prod.mk.inj hxy
      obtain ⟨s, e1, e2, e3, e4⟩ := hset i hi (by omega)
      have : s = j := by omega
      subst this
      omega
    · obtain ⟨h1, h2⟩ := Prod.mk.inj hxy
      by_cases hij : i = j
      · subst hij
        have : p = q := by omega
        rw [this]
      · exfalso
        have := hinv.disj i j hi (by rw [ho]; simp) (by rw [hu]; simp) (by omega) hj (by rw [ho]; simp) (by rw [hu]; simp) (by omega) hij h1
        omega

theorem generate_uniq (L : Nat) (hL : L ≤ 12) (x : Nat) (fs : List Nat) (hx : fs.getD x 0 = 4096) (hz : ∀ s, s ≠ x → fs.getD s 0 = 0) :
    ∃ d, generateAliasMapping L (fs.map Int.ofNat) (some (x : Int)) = .ok d ∧ d.freqs = fs.map Int.ofNat ∧ d.logAlphabetSize = L ∧
      Partitions d (fun s => fs.getD s 0) := by
  refine ⟨_, rfl, rfl, rfl, ?_⟩
  have hTB := two_pow_split L hL
  have hlook : ∀ i, i < 4096 → aliasLookup
      { logAlphabetSize := L, freqs := fs.map Int.ofNat, symbols := List.replicate (2 ^ L) (x : Int), offsets := (List.range (2 ^ L)).map fun (i : Nat) => (i : Int) * 2 ^ (12 - L), cutoffs := List.replicate (2 ^ L) 0 } i
        = .ok ((x : Int), (i : Int)) := by
    intro i hi
    have hiT : i / 2 ^ (12 - L) < 2 ^ L := by
      rw [Nat.div_lt_iff_lt_mul (Nat.two_pow_pos _), hTB]; exact hi
    unfold aliasLookup
    dsimp only
    rw [idx_nat (List.replicate (2 ^ L) (0 : Int)) (i / 2 ^ (12 - L)) 0 (by rw [List.getElem?_replicate, if_pos hiT])]
    simp only [Res.bind_ok]
    rw [if_pos (by omega), idx_nat _ (i / 2 ^ (12 - L)) (x : Int) (by rw [List.getElem?_replicate, if_pos hiT])]
    simp only [Res.bind_ok]
    rw [idx_nat _ (i / 2 ^ (12 - L)) (((i / 2 ^ (12 - L) : Nat) : Int) * 2 ^ (12 - L)) (by rw [List.getElem?_map, List.getElem?_range hiT]; rfl)]
    simp only [Res.bind_ok]
    congr 2
    have := Nat.div_add_mod i (2 ^ (12 - L))
    conv => rhs; rw [← this]
    push_cast
    rw [Int.mul_comm]
  refine ⟨?_, ?_, ?_⟩
  · intro i hi
    exact ⟨x, i, by simp only [hx]; exact hi, hlook i hi⟩
  · intro s k hk
    by_cases hs : s = x
    · subst hs
      simp only [hx] at hk
      exact ⟨k, hk, hlook k hk⟩
    · simp only [hz s hs] at hk; omega
  · intro i j hi hj h
    have h : (Res.ok ((x : Int), (i : Int))) = .ok ((x : Int), (j : Int)) := by
      rw [← hlook i hi, ← hlook j hj]; exact h
    have := (Prod.mk.inj (Res.ok.inj h)).2
    omega

end Jxl
