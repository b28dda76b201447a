import Verif.Proofs.FrameHeader
/-! Lemmas on the passes of a frame. -/
namespace Jxl
open Spec

theorem decU32_ge {d : Fin 4 → Nat × Nat} {l r : List Bool} {v N : Nat} (h : decU32 d l = some (v, r)) (hN : ∀ k, N ≤ (d k).1 ∧ (d k).1 + 2 ^ (d k).2 ≤ 2 ^ 32) : N ≤ v := by
  obtain ⟨sel, r1, h1, h2⟩ := Dec.of_bind h
  obtain ⟨v1, r2, h3, h4⟩ := Dec.of_bind h2
  have h5 := decBits_lt h3
  obtain ⟨h6, h7⟩ := hN ⟨sel % 4, Nat.mod_lt _ (by decide)⟩
  have h8 : ((d ⟨sel % 4, Nat.mod_lt _ (by decide)⟩).1 + v1) % 2 ^ 32 = v := by
    cases h4; rfl
  rw [← h8, Nat.mod_eq_of_lt (by omega)]
  omega

theorem log2_mono {x y : Nat} (h : y ≤ x) : Nat.log2 y ≤ Nat.log2 x := by
  by_cases hy : y = 0
  · subst hy; exact Nat.zero_le _
  · exact (Nat.le_log2 (by omega)).mpr (Nat.le_trans (Nat.log2_self_le hy) h)

theorem Implements.pow2 : Implements (do let v ← readBits 2; Pure.pure (1 <<< v)) (do let v ← decBits 2; Pure.pure (2 ^ v) : Dec Nat) := by
  refine Implements.bind (implements_bits 2 (by decide)) (fun v => ?_)
  rw [Nat.one_shiftLeft]
  exact Implements.pure _

theorem implements_passes : Implements readPasses decPasses := by
  unfold readPasses decPasses
  refine Implements.bind (implements_u32 (fun k => match k with | 0 => (1, 0) | 1 => (2, 0) | 2 => (3, 0) | 3 => (4, 3)) (by decide)) (fun np => ?_)
  refine Implements.bind ?_ (fun nds => ?_)
  · rw [bne_decide]
    unfold readIf decIf
    split
    · exact implements_u32 (fun k => match k with | 0 => (0, 0) | 1 => (1, 0) | 2 => (2, 0) | 3 => (3, 1)) (by decide)
    · exact Implements.pure _
  refine Implements.bind (Implements.list (implements_bits 2 (by decide)) _) (fun sh => ?_)
  refine Implements.bind (Implements.list Implements.pow2 _) (fun ds => ?_)
  refine Implements.bind (Implements.list (implements_u32 (fun k => match k with | 0 => (0, 0) | 1 => (1, 0) | 2 => (2, 0) | 3 => (0, 3)) (by decide)) _) (fun lp => ?_)
  exact Implements.pure _

theorem decList_all {α : Type} {m : Dec α} {P : α → Prop} (hm : ∀ l x r, m l = some (x, r) → P x) {n : Nat} {l r : List Bool} {a : List α} (h : decList m n l = some (a, r)) :
    ∀ x ∈ a, P x := by
  induction n generalizing l a with
  | zero => cases h; intro x hx; cases hx
  | succ n ih =>
    obtain ⟨x, r1, h1, h2⟩ := Dec.of_bind h
    obtain ⟨y, r2, h3, h4⟩ := Dec.of_bind h2
    cases h4
    intro z hz
    rcases List.mem_cons.mp hz with rfl | hz
    · exact hm _ _ _ h1
    · exact ih h3 z hz

/-- What the passes of a stream look like. -/
theorem decPasses_shape {l r : List Bool} {p : Passes} (h : decPasses l = some (p, r)) :
    ∃ (L : List (Nat × Nat)) (sh : List Nat), p = ⟨sh.length + 1, L.length, sh ++ [0], L.map (·.2) ++ [1], L.map (·.1) ++ [sh.length]⟩ ∧ (∀ v ∈ sh, v < 4) ∧
      ∀ x ∈ L, ∃ v < 4, x.2 = 2 ^ v := by
  obtain ⟨np, r1, h1, h⟩ := Dec.of_bind h
  obtain ⟨nds, r2, _, h⟩ := Dec.of_bind h
  obtain ⟨sh, r3, h3, h⟩ := Dec.of_bind h
  obtain ⟨ds, r4, h4, h⟩ := Dec.of_bind h
  obtain ⟨lp, r5, h5, h⟩ := Dec.of_bind h
  cases h
  have hnp : 1 ≤ np := decU32_ge h1 (by decide)
  have l3 := decList_length h3
  have l4 := decList_length h4
  have l5 := decList_length h5
  refine ⟨lp.zip ds, sh, ?_, decList_all (fun _ _ _ h => decBits_lt h) h3, ?_⟩
  · rw [List.map_fst_zip (by omega), List.map_snd_zip (by omega), List.length_zip]
    congr 1
    · omega
    · omega
    · rw [l3]
  · intro x hx
    refine decList_all (P := fun y => ∃ v < 4, y = 2 ^ v) ?_ h4 x.2 (List.of_mem_zip hx).2
    intro l y r hy
    obtain ⟨v, q, hv, hy⟩ := Dec.of_bind hy
    cases hy
    exact ⟨v, decBits_lt hv, rfl⟩

theorem findPass_shape (i e : Nat) (L : List (Nat × Nat)) :
    (match findPass i (L.map (·.1) ++ [e]) with | some n => (L.map (·.2) ++ [1])[n]? | none => none) =
      (match L.find? (fun x => decide (x.1 = i)) with | some x => some x.2 | none => if e = i then some 1 else none) := by
  induction L with
  | nil =>
    simp only [List.map_nil, List.nil_append, findPass, List.find?_nil]
    by_cases h : e = i
    · simp [h]
    · simp [h]
  | cons x L ih =>
    simp only [List.map_cons, List.cons_append, findPass, List.find?_cons]
    by_cases h : x.1 = i
    · simp [h]
    · rw [if_neg h, decide_eq_false h]
      dsimp only
      rw [← ih]
      cases findPass i (L.map (·.1) ++ [e]) with
      | none => rfl
      | some n => simp

theorem findPass_none (i e : Nat) (L : List (Nat × Nat)) : findPass i (L.map (·.1) ++ [e]) = none ↔ L.find? (fun x => decide (x.1 = i)) = none ∧ e ≠ i := by
  induction L with
  | nil =>
    simp only [List.map_nil, List.nil_append, findPass, List.find?_nil]
    by_cases h : e = i
    · simp [h]
    · simp [h]
  | cons x L ih =>
    simp only [List.map_cons, List.cons_append, findPass, List.find?_cons]
    by_cases h : x.1 = i
    · simp [h]
    · rw [if_neg h, decide_eq_false h]
      simp only [Option.map_eq_none_iff]
      exact ih

theorem fold_step (i : Nat) (L : List (Nat × Nat)) (hL : L.Pairwise (fun x y => x.1 < y.1 ∧ y.2 < x.2)) : ∀ d,
    (L.filter (fun x => decide (x.1 ≤ i))).foldl (fun _ x => Nat.log2 x.2) d =
      (match L.find? (fun x => decide (x.1 = i)) with
        | some x => Nat.log2 x.2
        | none => (L.filter (fun x => decide (x.1 < i))).foldl (fun _ x => Nat.log2 x.2) d) := by
  induction L with
  | nil => intro d; rfl
  | cons x L ih =>
    intro d
    rw [List.pairwise_cons] at hL
    simp only [List.filter_cons, List.find?_cons]
    by_cases h1 : x.1 = i
    · have hf : L.filter (fun x => decide (x.1 ≤ i)) = [] := by
        rw [List.filter_eq_nil_iff]
        intro y hy
        have := (hL.1 y hy).1
        simp only [decide_eq_true_eq]
        omega
      rw [decide_eq_true (show x.1 ≤ i by omega), decide_eq_true h1, if_pos rfl, hf]
      rfl
    · rw [decide_eq_false h1]
      dsimp only
      by_cases h2 : x.1 < i
      · rw [decide_eq_true (show x.1 ≤ i by omega), decide_eq_true h2, if_pos rfl, if_pos rfl]
        exact ih hL.2 _
      · rw [decide_eq_false (show ¬ x.1 ≤ i by omega), decide_eq_false h2]
        exact ih hL.2 _

theorem fold_mono (i : Nat) (L : List (Nat × Nat)) (hL : L.Pairwise (fun x y => x.1 < y.1 ∧ y.2 < x.2)) : ∀ d, (∀ x ∈ L, Nat.log2 x.2 ≤ d) →
    (L.filter (fun x => decide (x.1 ≤ i))).foldl (fun _ x => Nat.log2 x.2) d ≤ (L.filter (fun x => decide (x.1 < i))).foldl (fun _ x => Nat.log2 x.2) d := by
  induction L with
  | nil => intro d _; exact Nat.le_refl _
  | cons x L ih =>
    intro d hd
    rw [List.pairwise_cons] at hL
    simp only [List.filter_cons]
    by_cases h1 : x.1 = i
    · have hf : L.filter (fun x => decide (x.1 ≤ i)) = [] := by
        rw [List.filter_eq_nil_iff]
        intro y hy
        have := (hL.1 y hy).1
        simp only [decide_eq_true_eq]
        omega
      have hf2 : L.filter (fun x => decide (x.1 < i)) = [] := by
        rw [List.filter_eq_nil_iff]
        intro y hy
        have := (hL.1 y hy).1
        simp only [decide_eq_true_eq]
        omega
      rw [decide_eq_true (show x.1 ≤ i by omega), decide_eq_false (show ¬ x.1 < i by omega), if_pos rfl, hf, hf2]
      exact hd x (by simp)
    · by_cases h2 : x.1 < i
      · rw [decide_eq_true (show x.1 ≤ i by omega), decide_eq_true h2, if_pos rfl, if_pos rfl]
        refine ih hL.2 _ (fun y hy => ?_)
        have := (hL.1 y hy).2
        exact log2_mono (by omega)
      · rw [decide_eq_false (show ¬ x.1 ≤ i by omega), decide_eq_false h2]
        exact ih hL.2 _ (fun y hy => hd y (by simp [hy]))

theorem log_factor (v : Nat) (h : v < 4) : ceilLog1p (2 ^ v - 1) = Nat.log2 (2 ^ v) ∧ Nat.log2 (2 ^ v) ≤ 3 := by
  have : v = 0 ∨ v = 1 ∨ v = 2 ∨ v = 3 := by omega
  rcases this with rfl | rfl | rfl | rfl <;> decide

/-- Sequences that decrease from above `m` to at most `m` cross `m` once. -/
theorem crossing (g : Nat → Nat) (m : Nat) : ∀ n, (∀ i < n, g (i + 1) ≤ g i) →
    g n ≤ g 0 ∧ ((List.range n).filter (fun i => decide (g (i + 1) ≤ m ∧ m < g i))).length = if g n ≤ m ∧ m < g 0 then 1 else 0 := by
  intro n
  induction n with
  | zero =>
    intro _
    refine ⟨Nat.le_refl _, ?_⟩
    rw [if_neg (by omega)]
    rfl
  | succ n ih =>
    intro h
    obtain ⟨h1, h2⟩ := ih (fun i hi => h i (by omega))
    have h3 := h n (by omega)
    refine ⟨by omega, ?_⟩
    rw [List.range_succ, List.filter_append, List.length_append, h2]
    by_cases hc : g (n + 1) ≤ m ∧ m < g n
    · rw [show [n].filter (fun i => decide (g (i + 1) ≤ m ∧ m < g i)) = [n] by simp [hc], if_neg (by omega), if_pos (by omega)]
      rfl
    · rw [show [n].filter (fun i => decide (g (i + 1) ≤ m ∧ m < g i)) = [] by
        rw [List.filter_eq_nil_iff]
        intro a ha
        rw [List.mem_singleton] at ha
        subst ha
        simpa using hc]
      by_cases h4 : g n ≤ m ∧ m < g 0
      · rw [if_pos h4, if_pos (by omega)]; rfl
      · rw [if_neg h4, if_neg (by omega)]; rfl

theorem stated_shape (L : List (Nat × Nat)) (sh : List Nat) (n : Nat) (e : Nat) :
    Passes.stated ⟨n, L.length, sh, L.map (·.2) ++ [1], L.map (·.1) ++ [e]⟩ = L := by
  unfold Passes.stated
  dsimp only
  rw [List.zip_append (by simp), List.take_left' (by simp)]
  rw [show (L.map (·.1)).zip (L.map (·.2)) = L by
    induction L with
    | nil => rfl
    | cons x L ih => simp [ih]]

theorem idx_some {α : Type} (l : List α) (n : Nat) (a : α) (h : l[n]? = some a) : idx l (n : Int) = .ok a := by
  unfold idx
  rw [if_neg (by omega), Int.toNat_natCast, h]

section
variable (L : List (Nat × Nat)) (sh : List Nat)

/-- The passes of the stream that states the pairs `L` and the shifts `sh`. -/
abbrev mkPasses : Passes := ⟨sh.length + 1, L.length, sh ++ [0], L.map (·.2) ++ [1], L.map (·.1) ++ [sh.length]⟩

theorem passMinShift_eq (hL : L.Pairwise (fun x y => x.1 < y.1 ∧ y.2 < x.2)) (hb : ∀ x ∈ L, x.1 < sh.length) (hd : ∀ x ∈ L, ∃ v < 4, x.2 = 2 ^ v)
    (i : Nat) (hi : i ≤ sh.length) :
    passMinShift (mkPasses L sh) i (if i = 0 then 3 else finestShift (mkPasses L sh) (i - 1)) = .ok (finestShift (mkPasses L sh) i) := by
  have hst : (mkPasses L sh).stated = L := stated_shape L _ _ _
  have hfind := findPass_shape i sh.length L
  have hnone := findPass_none i sh.length L
  unfold passMinShift
  by_cases he : sh.length = i
  · have hn : L.find? (fun x => decide (x.1 = i)) = none := by
      rw [List.find?_eq_none]
      intro x hx
      have := hb x hx
      simp only [decide_eq_true_eq]
      omega
    rw [hn, if_pos he] at hfind
    cases hf : findPass i (L.map (·.1) ++ [sh.length]) with
    | none => exact absurd he (hnone.mp hf).2
    | some n =>
      rw [hf] at hfind
      dsimp only at hfind ⊢
      rw [idx_some _ n 1 hfind, finestShift, if_pos (by dsimp only; omega)]
      rfl
  · have hfs : finestShift (mkPasses L sh) i = (match L.find? (fun x => decide (x.1 = i)) with
        | some x => Nat.log2 x.2
        | none => (L.filter (fun x => decide (x.1 < i))).foldl (fun _ x => Nat.log2 x.2) 3) := by
      rw [finestShift, if_neg (by dsimp only; omega), hst, fold_step i L hL]
    cases hg : L.find? (fun x => decide (x.1 = i)) with
    | some x =>
      rw [hg] at hfind hfs
      cases hf : findPass i (L.map (·.1) ++ [sh.length]) with
      | none => rw [(hnone.mp hf).1] at hg; cases hg
      | some n =>
        rw [hf] at hfind
        dsimp only at hfind hfs ⊢
        rw [idx_some _ n x.2 hfind, hfs]
        obtain ⟨v, hv, hx⟩ := hd x (List.mem_of_find?_eq_some hg)
        show Res.ok (ceilLog1p (x.2 - 1)) = _
        rw [hx, (log_factor v hv).1]
    | none =>
      rw [hg] at hfs
      dsimp only at hfs ⊢
      rw [hnone.mpr ⟨hg, he⟩, hfs]
      dsimp only
      congr 1
      by_cases h0 : i = 0
      · subst h0
        rw [if_pos rfl]
        have : L.filter (fun x => decide (x.1 < 0)) = [] := by
          rw [List.filter_eq_nil_iff]
          intro y _
          simp
        rw [this]
        rfl
      · rw [if_neg h0, finestShift, if_neg (by dsimp only; omega), hst]
        congr 1
        refine List.filter_congr (fun x _ => ?_)
        rw [decide_eq_decide]
        omega

theorem finest_mono (hL : L.Pairwise (fun x y => x.1 < y.1 ∧ y.2 < x.2)) (hd : ∀ x ∈ L, ∃ v < 4, x.2 = 2 ^ v) (i : Nat) :
    finestShift (mkPasses L sh) i ≤ (if i = 0 then 3 else finestShift (mkPasses L sh) (i - 1)) := by
  have hst : (mkPasses L sh).stated = L := stated_shape L _ _ _
  have hle : ∀ x ∈ L, Nat.log2 x.2 ≤ 3 := by
    intro x hx
    obtain ⟨v, hv, hx⟩ := hd x hx
    rw [hx]
    exact (log_factor v hv).2
  by_cases h1 : (mkPasses L sh).numPasses ≤ i + 1
  · rw [finestShift, if_pos h1]
    exact Nat.zero_le _
  · rw [finestShift, if_neg h1, hst]
    refine Nat.le_trans (fold_mono i L hL 3 hle) ?_
    by_cases h0 : i = 0
    · subst h0
      rw [if_pos rfl]
      have : L.filter (fun x => decide (x.1 < 0)) = [] := by
        rw [List.filter_eq_nil_iff]
        intro y _
        simp
      rw [this]
      exact Nat.le_refl _
    · rw [if_neg h0, finestShift, if_neg (by omega), hst]
      refine Nat.le_of_eq ?_
      congr 1
      refine List.filter_congr (fun x _ => ?_)
      rw [decide_eq_decide]
      omega

theorem passesOf_length (hL : L.Pairwise (fun x y => x.1 < y.1 ∧ y.2 < x.2)) (hd : ∀ x ∈ L, ∃ v < 4, x.2 = 2 ^ v) (m : Nat) (hm : m < 3) :
    (passesOf (mkPasses L sh) m).length = 1 := by
  have h := (crossing (fun i => if i = 0 then 3 else finestShift (mkPasses L sh) (i - 1)) m (sh.length + 1) (fun i _ => by
    have := finest_mono L sh hL hd i
    rw [if_neg (Nat.succ_ne_zero i), Nat.add_sub_cancel]
    exact this)).2
  rw [if_neg (Nat.succ_ne_zero _), Nat.add_sub_cancel] at h
  rw [show finestShift (mkPasses L sh) sh.length = 0 by rw [finestShift, if_pos (Nat.le_refl _)]] at h
  rw [if_pos ⟨Nat.zero_le _, by simpa using hm⟩] at h
  rw [← h]
  unfold passesOf
  congr 1

theorem passShifts_eq (hL : L.Pairwise (fun x y => x.1 < y.1 ∧ y.2 < x.2)) (hb : ∀ x ∈ L, x.1 < sh.length) (hd : ∀ x ∈ L, ∃ v < 4, x.2 = 2 ^ v) :
    ∀ n i, i + n = sh.length + 1 → passShifts (mkPasses L sh) n i (if i = 0 then 3 else finestShift (mkPasses L sh) (i - 1)) =
      .ok ((List.range' i n).map (fun j => (finestShift (mkPasses L sh) j, if j = 0 then 3 else finestShift (mkPasses L sh) (j - 1))))
  | 0, _, _ => rfl
  | n + 1, i, hi => by
    rw [passShifts, passMinShift_eq L sh hL hb hd i (by omega)]
    have ih := passShifts_eq hL hb hd n (i + 1) (by omega)
    rw [if_neg (Nat.succ_ne_zero i), Nat.add_sub_cancel] at ih
    show (passShifts (mkPasses L sh) n (i + 1) (finestShift (mkPasses L sh) i) >>= fun l => Res.ok _) = _
    rw [ih]
    rfl

end

end Jxl
