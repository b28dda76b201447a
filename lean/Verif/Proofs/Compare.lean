import Mathlib.Tactic.Linarith
import Mathlib.Algebra.Order.Ring.Abs
import Verif.Model.Compare
import Verif.Spec.Compare
import Verif.Proofs.F32
import Verif.Proofs.Permutation

/-! # Comparing, clamping and filling: lemmas -/
namespace Jxl

theorem whileTrue_ok {f : Nat → Res Bool} (P : Nat → Prop) : ∀ (n i : Nat),
    (∀ k, i ≤ k → k < i + n → ∃ v, f k = .ok v ∧ (v = true ↔ P k)) →
    ∃ v, whileTrue f n i = .ok v ∧ (v = true ↔ ∀ k, i ≤ k → k < i + n → P k)
  | 0, i, _ => ⟨true, rfl, by simp; omega⟩
  | n + 1, i, h => by
    obtain ⟨v, hv, hp⟩ := h i (le_refl _) (by omega)
    obtain ⟨w, hw, hq⟩ := whileTrue_ok P n (i + 1) (fun k h1 h2 => h k (by omega) (by omega))
    unfold whileTrue
    rw [hv, Res.bind_ok]
    cases v with
    | false =>
      refine ⟨false, by simp, ?_⟩
      simp only [Bool.false_eq_true, false_iff] at hp ⊢
      intro hall
      exact hp (hall i (le_refl _) (by omega))
    | true =>
      refine ⟨w, by simpa using hw, ?_⟩
      rw [hq]
      constructor
      · intro hall k h1 h2
        by_cases hk : k = i
        · subst hk; exact hp.mp rfl
        · exact hall k (by omega) (by omega)
      · intro hall k h1 h2
        exact hall k (by omega) (by omega)

/-- The comparison of two lists of equal length by a loop whose body looks at both elements. -/
theorem whileTrue_forall₂ {α : Type} {R : α → α → Prop} {g : α → α → Res Bool} {f : Nat → Res Bool} (a b : List α) (hl : a.length = b.length)
    (hf : ∀ (k : Nat) (x y : α), a[k]? = some x → b[k]? = some y → f k = g x y)
    (hg : ∀ (k : Nat) (x y : α), a[k]? = some x → b[k]? = some y → ∃ v, g x y = .ok v ∧ (v = true ↔ R x y)) :
    ∃ v, whileTrue f a.length 0 = .ok v ∧ (v = true ↔ List.Forall₂ R a b) := by
  obtain ⟨v, hv, hp⟩ := whileTrue_ok (f := f) (fun k => ∀ x y, a[k]? = some x → b[k]? = some y → R x y) a.length 0 (by
    intro k _ hk
    have hk1 : k < a.length := by omega
    have hk2 : k < b.length := by omega
    obtain ⟨v, hv, hp⟩ := hg k a[k] b[k] (List.getElem?_eq_getElem hk1) (List.getElem?_eq_getElem hk2)
    refine ⟨v, ?_, ?_⟩
    · rw [hf k a[k] b[k] (List.getElem?_eq_getElem hk1) (List.getElem?_eq_getElem hk2), hv]
    · rw [hp]
      constructor
      · intro h x y hx hy
        rw [List.getElem?_eq_getElem hk1, Option.some.injEq] at hx
        rw [List.getElem?_eq_getElem hk2, Option.some.injEq] at hy
        rw [← hx, ← hy]; exact h
      · intro h
        exact h _ _ (List.getElem?_eq_getElem hk1) (List.getElem?_eq_getElem hk2))
  refine ⟨v, hv, ?_⟩
  rw [hp, List.forall₂_iff_get]
  constructor
  · intro h
    refine ⟨hl, fun i h1 h2 => ?_⟩
    exact h i (by omega) (by omega) _ _ (by simp [List.getElem?_eq_getElem h1]) (by simp [List.getElem?_eq_getElem h2])
  · rintro ⟨_, h⟩ k _ hk x y hx hy
    have hk1 : k < a.length := by omega
    have hk2 : k < b.length := by omega
    have := h k hk1 hk2
    rw [List.getElem?_eq_getElem hk1, Option.some.injEq] at hx
    rw [List.getElem?_eq_getElem hk2, Option.some.injEq] at hy
    rw [← hx, ← hy]
    simpa using this

theorem whileTrue_row {α : Type} (cmp : α → α → Bool) (a b : List α) (hl : a.length = b.length) :
    ∃ v, whileTrue (fun k => do
        let x ← idx a k
        let y ← idx b k
        .ok (cmp x y)) a.length 0 = .ok v ∧ (v = true ↔ List.Forall₂ (fun x y => cmp x y = true) a b) := by
  refine whileTrue_forall₂ (g := fun x y => .ok (cmp x y)) a b hl ?_ ?_
  · intro k x y hx hy
    rw [idx_of_getElem? _ _ _ hx, Res.bind_ok, idx_of_getElem? _ _ _ hy, Res.bind_ok]
  · intro _ x y _ _
    exact ⟨_, rfl, Iff.rfl⟩

theorem forall₂_length_ne {α : Type} {R : α → α → Prop} {a b : List α} (h : a.length ≠ b.length) : ¬ List.Forall₂ R a b :=
  fun hf => h hf.length_eq

theorem compareMatrix3D_ok {α : Type} (cmp : α → α → Bool) (a b : List (List (List α))) :
    ∃ v, compareMatrix3D cmp a b = .ok v ∧ (v = true ↔ Alike3 (fun x y => cmp x y = true) a b) := by
  unfold compareMatrix3D Alike3
  by_cases hl : a.length = b.length
  · rw [if_neg (by simpa using hl)]
    refine whileTrue_forall₂ (g := fun ai bi => if ai.length ≠ bi.length then .ok false
      else whileTrue (fun j => do
        let aj ← idx ai j
        let bj ← idx bi j
        if aj.length ≠ bj.length then .ok false
        else whileTrue (fun k => do
          let x ← idx aj k
          let y ← idx bj k
          .ok (cmp x y)) aj.length 0) ai.length 0) a b hl ?_ ?_
    · intro k x y hx hy
      rw [idx_of_getElem? _ _ _ hx, Res.bind_ok, idx_of_getElem? _ _ _ hy, Res.bind_ok]
    · intro _ ai bi _ _
      by_cases hl2 : ai.length = bi.length
      · rw [if_neg (by simpa using hl2)]
        refine whileTrue_forall₂ (g := fun aj bj => if aj.length ≠ bj.length then .ok false
          else whileTrue (fun k => do
            let x ← idx aj k
            let y ← idx bj k
            .ok (cmp x y)) aj.length 0) ai bi hl2 ?_ ?_
        · intro k x y hx hy
          rw [idx_of_getElem? _ _ _ hx, Res.bind_ok, idx_of_getElem? _ _ _ hy, Res.bind_ok]
        · intro _ aj bj _ _
          by_cases hl3 : aj.length = bj.length
          · rw [if_neg (by simpa using hl3)]
            exact whileTrue_row cmp aj bj hl3
          · rw [if_pos hl3]
            exact ⟨false, rfl, by simpa using forall₂_length_ne hl3⟩
      · rw [if_pos hl2]
        exact ⟨false, rfl, by simpa [Alike2] using forall₂_length_ne hl2⟩
  · rw [if_pos hl]
    exact ⟨false, rfl, by simpa using forall₂_length_ne hl⟩

theorem forall₂_eq {α : Type} {a b : List α} : List.Forall₂ (fun x y => x = y) a b ↔ a = b := by
  rw [← List.forall₂_eq_eq_eq]

theorem alike2_eq {α : Type} {a b : List (List α)} : Alike2 (fun x y => x = y) a b ↔ a = b := by
  unfold Alike2
  rw [show (List.Forall₂ fun x y : α => x = y) = (fun x y => x = y) from by funext x y; exact propext forall₂_eq]
  exact forall₂_eq

theorem alike3_eq {α : Type} {a b : List (List (List α))} : Alike3 (fun x y => x = y) a b ↔ a = b := by
  unfold Alike3
  rw [show (Alike2 fun x y : α => x = y) = (fun x y => x = y) from by funext x y; exact propext alike2_eq]
  exact forall₂_eq

theorem matrix3Equal_ok {α : Type} [DecidableEq α] (a b : List (List (List α))) (hs : Alike3 (fun _ _ => True) a b) :
    ∃ v, matrix3Equal a b = .ok v ∧ (v = true ↔ a = b) := by
  have hl : a.length = b.length := List.Forall₂.length_eq hs
  have hrow : ∀ (i : Nat) (h1 : i < a.length) (h2 : i < b.length), Alike2 (fun _ _ => True) a[i] b[i] → ∀ (j : Nat) (x y : List α),
      (a[i])[j]? = some x → (b[i])[j]? = some y → x.length = y.length := by
    intro i h1 h2 hs2 j x y hx hy
    have hj1 := (List.getElem?_eq_some_iff.mp hx).1
    have hj2 := (List.getElem?_eq_some_iff.mp hy).1
    have h3 := ((List.forall₂_iff_get.mp hs2).2 j hj1 hj2).length_eq
    rw [List.getElem?_eq_getElem hj1, Option.some.injEq] at hx
    rw [List.getElem?_eq_getElem hj2, Option.some.injEq] at hy
    rw [← hx, ← hy]
    simpa using h3
  unfold matrix3Equal
  rw [if_neg (by simpa using hl)]
  obtain ⟨v, hv, hp⟩ := whileTrue_ok (f := fun i => do
    let ai ← idx a i
    whileTrue (fun j => do
      let aj ← idx ai j
      whileTrue (fun k => do
        let x ← idx aj k
        let bi ← idx b i
        let bj ← idx bi j
        let y ← idx bj k
        .ok (decide (x = y))) aj.length 0) ai.length 0) (fun i => a[i]? = b[i]?) a.length 0 (by
    intro i _ hi
    have hi1 : i < a.length := by omega
    have hi2 : i < b.length := by omega
    have hai : a[i]? = some a[i] := List.getElem?_eq_getElem hi1
    have hbi : b[i]? = some b[i] := List.getElem?_eq_getElem hi2
    have hs2 : Alike2 (fun _ _ => True) a[i] b[i] := by
      have := (List.forall₂_iff_get.mp hs).2 i hi1 hi2
      simpa using this
    rw [idx_of_getElem? _ _ _ hai, Res.bind_ok, hai, hbi, Option.some.injEq]
    rw [← alike2_eq]
    refine whileTrue_forall₂ (g := fun aj bj => if aj.length ≠ bj.length then .panic else whileTrue (fun k => do
        let x ← idx aj k
        let y ← idx bj k
        .ok (decide (x = y))) aj.length 0) a[i] b[i] (List.Forall₂.length_eq hs2) ?_ ?_
    · intro j x y hx hy
      rw [if_neg (by simpa using hrow i hi1 hi2 hs2 j x y hx hy), idx_of_getElem? _ _ _ hx, Res.bind_ok]
      congr 1
      funext k
      rw [idx_of_getElem? _ _ _ hbi]
      simp only [Res.bind_ok]
      rw [idx_of_getElem? _ _ _ hy]
      simp only [Res.bind_ok]
    · intro j x y hx hy
      have hxy := hrow i hi1 hi2 hs2 j x y hx hy
      rw [if_neg (by simpa using hxy)]
      obtain ⟨v, hv, hp⟩ := whileTrue_row (fun x y => decide (x = y)) x y hxy
      refine ⟨v, hv, ?_⟩
      rw [hp]
      simp only [decide_eq_true_eq])
  refine ⟨v, hv, ?_⟩
  rw [hp]
  constructor
  · intro h
    refine List.ext_getElem? (fun i => ?_)
    by_cases hi : i < a.length
    · exact h i (by omega) (by omega)
    · rw [List.getElem?_eq_none (by omega), List.getElem?_eq_none (by omega)]
  · rintro rfl k _ _
    rfl

/-- Rows that are missing on the left are not looked at. -/
theorem matrix3Equal_empty {α : Type} [DecidableEq α] (b : List (List (List α))) : matrix3Equal (b.map fun _ => []) b = .ok true := by
  unfold matrix3Equal
  rw [if_neg (by simp)]
  obtain ⟨v, hv, hp⟩ := whileTrue_ok (f := fun i => do
    let ai ← idx (b.map fun _ => ([] : List (List α))) i
    whileTrue (fun j => do
      let aj ← idx ai j
      whileTrue (fun k => do
        let x ← idx aj k
        let bi ← idx b i
        let bj ← idx bi j
        let y ← idx bj k
        .ok (decide (x = y))) aj.length 0) ai.length 0) (fun _ => True) (b.map fun _ => ([] : List (List α))).length 0 (by
    intro i _ hi
    have hi1 : i < b.length := by simpa using hi
    have : (b.map fun _ => ([] : List (List α)))[i]? = some [] := by simp [hi1]
    rw [idx_of_getElem? _ _ _ this, Res.bind_ok]
    exact ⟨true, rfl, by simp⟩)
  rw [hv, hp.mpr (fun _ _ _ => trivial)]

theorem compareRow_iff {α : Type} {cmp : α → α → Bool} : ∀ r s : List α, r.length = s.length →
    (compareRow cmp r s = true ↔ List.Forall₂ (fun x y => cmp x y = true) r s)
  | [], [], _ => by simp [compareRow]
  | [], _ :: _, h => by simp at h
  | _ :: _, [], h => by simp at h
  | x :: xs, y :: ys, h => by
    have ih := compareRow_iff (cmp := cmp) xs ys (by simpa using h)
    simp only [compareRow, List.forall₂_cons]
    by_cases hc : cmp x y = true <;> simp [hc, ih]

theorem compareRows_iff {α : Type} {cmp : α → α → Bool} : ∀ a b : List (List α), a.length = b.length →
    (compareRows cmp a b = true ↔ Alike2 (fun x y => cmp x y = true) a b)
  | [], [], _ => by simp [compareRows, Alike2]
  | [], _ :: _, h => by simp at h
  | _ :: _, [], h => by simp at h
  | x :: xs, y :: ys, h => by
    have ih := compareRows_iff (cmp := cmp) xs ys (by simpa using h)
    unfold Alike2 at ih ⊢
    simp only [compareRows, List.forall₂_cons]
    by_cases hl : x.length = y.length
    · have := compareRow_iff (cmp := cmp) x y hl
      rw [if_neg (by simpa using hl)]
      by_cases hc : compareRow cmp x y = true
      · rw [if_neg (by simp [hc]), ih]
        exact ⟨fun h => ⟨this.mp hc, h⟩, fun h => h.2⟩
      · rw [if_pos (by simpa using hc)]
        simp only [Bool.false_eq_true, false_iff]
        exact fun h => hc (this.mpr h.1)
    · rw [if_pos hl]
      simp only [Bool.false_eq_true, false_iff]
      exact fun h => forall₂_length_ne hl h.1

theorem compareMatrix2D_iff {α : Type} {cmp : α → α → Bool} (a b : List (List α)) :
    compareMatrix2D cmp a b = true ↔ Alike2 (fun x y => cmp x y = true) a b := by
  unfold compareMatrix2D
  by_cases hl : a.length = b.length
  · rw [if_neg (by simpa using hl)]
    exact compareRows_iff a b hl
  · rw [if_pos hl]
    simp only [Bool.false_eq_true, false_iff]
    exact fun h => forall₂_length_ne hl h

theorem F32.compare_zero (x y : F32) : F32.compare x y = 0 ↔ x = y := by
  unfold F32.compare
  cases x with
  | fin a =>
    cases y with
    | fin b =>
      simp only [reduceCtorEq, if_false, F32.lt, decide_eq_true_eq, F32.fin.injEq]
      rcases lt_trichotomy a b with h | h | h
      · simp [h, h.ne]
      · simp [h]
      · simp [h, h.ne', not_lt.mpr h.le]
    | inf t => cases t <;> simp [F32.lt]
    | nan => simp
  | inf s =>
    cases y with
    | fin b => cases s <;> simp [F32.lt]
    | inf t => cases s <;> cases t <;> simp [F32.lt]
    | nan => simp
  | nan => cases y <;> simp

theorem compareFloats_zero : ∀ a b : List F32, compareFloats a b = 0 ↔ a = b
  | [], [] => by simp [compareFloats]
  | [], _ :: _ => by simp [compareFloats]
  | _ :: _, [] => by simp [compareFloats]
  | x :: xs, y :: ys => by
    have ih := compareFloats_zero xs ys
    have hc := F32.compare_zero x y
    simp only [compareFloats, List.cons.injEq]
    by_cases h : F32.compare x y = 0
    · rw [if_neg (by simpa using h), ih]
      exact ⟨fun e => ⟨hc.mp h, e⟩, fun e => e.2⟩
    · rw [if_pos h]
      exact ⟨fun e => absurd e h, fun e => absurd (hc.mpr e.1) h⟩

theorem near_close (x : ℚ) : |F32.near x - x| ≤ |x| / 16777216 + 1 / 1000000 := by
  by_cases hs : (2 : ℚ) ^ (-126 : ℤ) ≤ |x|
  · have := F32.near_rel x hs
    linarith
  · have := F32.near_tiny hs
    have := abs_nonneg x
    linarith

theorem dist_fin {a b d : ℚ} (h : F32.dist (.fin a) (.fin b) = some d) : d = |F32.near (a - b)| := by
  unfold F32.dist F32.sub F32.neg F32.add F32.round at h
  dsimp only at h
  rw [← sub_eq_add_neg] at h
  by_cases hb : (2 : ℚ) ^ 128 ≤ |F32.near (a - b)|
  · rw [if_pos hb] at h; simp at h
  · rw [if_neg hb] at h
    simpa using h.symm

theorem dist_small {a b : ℚ} (h : |a - b| ≤ 1) : F32.dist (.fin a) (.fin b) = some |F32.near (a - b)| := by
  unfold F32.dist F32.sub F32.neg F32.add
  dsimp only
  rw [← sub_eq_add_neg, F32.round_fin _ (le_trans h (by norm_num))]

theorem dist_some {x y : F32} {d : ℚ} (h : F32.dist x y = some d) : ∃ a b : ℚ, x = .fin a ∧ y = .fin b := by
  cases x with
  | fin a =>
    cases y with
    | fin b => exact ⟨a, b, rfl, rfl⟩
    | inf t => simp [F32.dist, F32.sub, F32.neg, F32.add] at h
    | nan => simp [F32.dist, F32.sub, F32.neg, F32.add] at h
  | inf s =>
    cases y with
    | fin b => simp [F32.dist, F32.sub, F32.neg, F32.add] at h
    | inf t => cases s <;> cases t <;> simp [F32.dist, F32.sub, F32.neg, F32.add] at h
    | nan => simp [F32.dist, F32.sub, F32.neg, F32.add] at h
  | nan => cases y <;> simp [F32.dist, F32.sub, F32.neg, F32.add] at h

theorem CIEXY.matches_of_within {a b : CIEXY} (h : PointsWithin (9 / 100000) a b) : a.matches b = true := by
  obtain ⟨ax, ay, bx, bY, rfl, rfl, hd⟩ := h
  have h1 := abs_nonneg (ax - bx)
  have h2 := abs_nonneg (ay - bY)
  unfold CIEXY.matches
  rw [dist_small (by linarith), dist_small (by linarith)]
  have n1 := near_close (ax - bx)
  have n2 := near_close (ay - bY)
  have m1 := abs_sub_abs_le_abs_sub (F32.near (ax - bx)) (ax - bx)
  have m2 := abs_sub_abs_le_abs_sub (F32.near (ay - bY)) (ay - bY)
  simp only [decide_eq_true_eq]
  linarith

theorem CIEXY.within_of_matches {a b : CIEXY} (h : a.matches b = true) : PointsWithin (11 / 100000) a b := by
  unfold CIEXY.matches at h
  split at h
  · rename_i dx dy hx hy
    obtain ⟨ax, bx, e1, e2⟩ := dist_some hx
    obtain ⟨ay, bY, e3, e4⟩ := dist_some hy
    rw [e1, e2] at hx
    rw [e3, e4] at hy
    rw [dist_fin hx, dist_fin hy] at h
    refine ⟨ax, ay, bx, bY, ?_, ?_, ?_⟩
    · cases a; simp_all
    · cases b; simp_all
    · have n1 := near_close (ax - bx)
      have n2 := near_close (ay - bY)
      have m1 := abs_sub_abs_le_abs_sub (ax - bx) (F32.near (ax - bx))
      have m2 := abs_sub_abs_le_abs_sub (ay - bY) (F32.near (ay - bY))
      rw [abs_sub_comm (ax - bx) (F32.near _)] at m1
      rw [abs_sub_comm (ay - bY) (F32.near _)] at m2
      have h1 := abs_nonneg (ax - bx)
      have h2 := abs_nonneg (ay - bY)
      simp only [decide_eq_true_eq] at h
      linarith
  · simp at h

theorem fillFrom_ok {α : Type} (v : α) : ∀ (n i : Nat) (l : List α), i + n ≤ l.length →
    ∃ r, fillFrom v n i l = .ok r ∧ r.length = l.length ∧ ∀ k, r[k]? = if i ≤ k ∧ k < i + n then some v else l[k]?
  | 0, i, l, _ => ⟨l, rfl, rfl, fun k => by rw [if_neg (by omega)]⟩
  | n + 1, i, l, h => by
    obtain ⟨r, hr, hl, hk⟩ := fillFrom_ok v n (i + 1) (l.set i v) (by rw [List.length_set]; omega)
    refine ⟨r, ?_, by rw [hl, List.length_set], fun k => ?_⟩
    · unfold fillFrom
      have : setAt l (i : Int) v = .ok (l.set i v) := by
        unfold setAt
        rw [if_neg (by omega), if_pos (by simp; omega)]
        simp
      rw [this, Res.bind_ok, hr]
    · rw [hk k]
      by_cases h1 : k = i
      · subst h1
        rw [if_neg (by omega), if_pos (by omega), List.getElem?_set_self (by omega)]
      · rw [List.getElem?_set_ne (by omega)]
        by_cases h2 : i ≤ k ∧ k < i + (n + 1)
        · rw [if_pos (by omega), if_pos h2]
        · rw [if_neg (by omega), if_neg h2]

theorem fillFrom_panic {α : Type} (v : α) : ∀ (n i : Nat) (l : List α), 0 < n → l.length < i + n → fillFrom v n i l = .panic
  | 0, _, _, h, _ => by omega
  | n + 1, i, l, _, h => by
    unfold fillFrom setAt
    rw [if_neg (by omega)]
    by_cases hi : i < l.length
    · rw [if_pos (by simpa using hi), Res.bind_ok]
      exact fillFrom_panic v n (i + 1) _ (by omega) (by rw [List.length_set]; omega)
    · rw [if_neg (by simpa using hi)]
      rfl

end Jxl
