import Verif.Model.Filters
import Verif.Proofs.Image
import Verif.Proofs.BlendLoops

/-! # Steps that commute, and ranges of rows -/
namespace Jxl

/-! ## Panics but no errors -/

/-- The function never returns an error. -/
def NoErr {α : Type} (r : Res α) : Prop := r ≠ .err

theorem NoErr.ok {α : Type} (a : α) : NoErr (.ok a : Res α) := by simp [NoErr]
theorem NoErr.panic {α : Type} : NoErr (.panic : Res α) := by simp [NoErr]

theorem NoErr.bind {α β : Type} {r : Res α} {f : α → Res β} (h : NoErr r) (hf : ∀ a, NoErr (f a)) : NoErr (r >>= f) := by
  cases r with
  | ok a => exact hf a
  | err => exact absurd rfl h
  | panic => exact NoErr.panic

theorem idx_noErr {α : Type} (l : List α) (i : Int) : NoErr (idx l i) := by
  unfold idx
  split
  · exact NoErr.panic
  · split
    · exact NoErr.ok _
    · exact NoErr.panic

theorem setAt_noErr {α : Type} (l : List α) (i : Int) (a : α) : NoErr (setAt l i a) := by
  unfold setAt
  split
  · exact NoErr.panic
  · split
    · exact NoErr.ok _
    · exact NoErr.panic

theorem at2_noErr {α : Type} (l : List (List α)) (y x : Int) : NoErr (at2 l y x) := (idx_noErr _ _).bind fun _ => idx_noErr _ _

theorem mirrorCoord_noErr (c s : Int) : NoErr (mirrorCoord c s) := by
  unfold mirrorCoord
  split
  · exact NoErr.ok _
  · split
    · exact NoErr.ok _
    · exact NoErr.panic

/-- The first thing to be done does not matter if nothing is an error. -/
theorem bind_swap {α β γ : Type} {r : Res α} {q : Res β} (f : α → β → Res γ) (hr : NoErr r) (hq : NoErr q) :
    (r >>= fun a => q >>= fun b => f a b) = (q >>= fun b => r >>= fun a => f a b) := by
  cases r with
  | ok a => cases q <;> rfl
  | err => exact absurd rfl hr
  | panic =>
    cases q with
    | ok b => rfl
    | err => exact absurd rfl hq
    | panic => rfl

theorem Res.bind_assoc' {α β γ : Type} (r : Res α) (f : α → Res β) (g : β → Res γ) : ((r >>= f) >>= g) = (r >>= fun a => f a >>= g) := by
  cases r <;> rfl

/-! ## Updates of rows -/

/-- Something is done to a row. -/
def updRow {α : Type} (y : Int) (f : List α → Res (List α)) (m : List (List α)) : Res (List (List α)) := do
  let r ← idx m y
  let r ← f r
  setAt m y r

theorem updRow_noErr {α : Type} {y : Int} {f : List α → Res (List α)} (hf : ∀ r, NoErr (f r)) (m : List (List α)) : NoErr (updRow y f m) :=
  (idx_noErr _ _).bind fun _ => (hf _).bind fun _ => setAt_noErr _ _ _

theorem updRow_eval {α : Type} {y : Int} {f : List α → Res (List α)} (m : List (List α)) :
    updRow y f m = if y < 0 then .panic else match m[y.toNat]? with
      | none => .panic
      | some r => (f r >>= fun r => .ok (m.set y.toNat r)) := by
  unfold updRow idx
  split
  · rfl
  · rename_i hy
    cases hm : m[y.toNat]? with
    | none => rfl
    | some r =>
      simp only [Res.bind_ok]
      congr 1
      funext r'
      have : y.toNat < m.length := by
        by_contra h
        rw [List.getElem?_eq_none (by omega)] at hm
        cases hm
      unfold setAt
      rw [if_neg hy, if_pos this]

/-- Updates of different rows commute. -/
theorem updRow_comm {α : Type} {y y' : Int} (h : y ≠ y') {f g : List α → Res (List α)} (hf : ∀ r, NoErr (f r)) (hg : ∀ r, NoErr (g r))
    (m : List (List α)) : (updRow y f m >>= updRow y' g) = (updRow y' g m >>= updRow y f) := by
  by_cases h0 : y < 0
  · have e1 : ∀ m, updRow y f m = .panic := fun m => by rw [updRow_eval, if_pos h0]
    rw [e1, Res.bind_panic]
    have : (updRow y' g m >>= updRow y f) = (updRow y' g m >>= fun _ => .panic) := by
      congr 1
      funext m'
      exact e1 m'
    rw [this]
    have hn := updRow_noErr hg (y := y') m
    cases hu : updRow y' g m with
    | ok a => rfl
    | err => exact absurd hu hn
    | panic => rfl
  · by_cases h0' : y' < 0
    · have e1 : ∀ m, updRow y' g m = .panic := fun m => by rw [updRow_eval, if_pos h0']
      rw [e1, Res.bind_panic]
      have : (updRow y f m >>= updRow y' g) = (updRow y f m >>= fun _ => .panic) := by
        congr 1
        funext m'
        exact e1 m'
      rw [this]
      have hn := updRow_noErr hf (y := y) m
      cases hu : updRow y f m with
      | ok a => rfl
      | err => exact absurd hu hn
      | panic => rfl
    · have hne : y.toNat ≠ y'.toNat := by omega
      rw [updRow_eval, updRow_eval, if_neg h0, if_neg h0']
      cases hm : m[y.toNat]? with
      | none =>
        simp only [Res.bind_panic]
        cases hm' : m[y'.toNat]? with
        | none => rfl
        | some r' =>
          simp only
          have hn := hg r'
          cases hr : g r' with
          | ok a =>
            simp only [Res.bind_ok]
            rw [updRow_eval, if_neg h0, List.getElem?_set_ne (by omega), hm]
          | err => exact absurd hr hn
          | panic => rfl
      | some r =>
        simp only
        have hn := hf r
        cases hr : f r with
        | err => exact absurd hr hn
        | panic =>
          simp only [Res.bind_panic]
          cases hm' : m[y'.toNat]? with
          | none => rfl
          | some r' =>
            simp only
            have hn := hg r'
            cases hr' : g r' with
            | ok a =>
              simp only [Res.bind_ok]
              rw [updRow_eval, if_neg h0, List.getElem?_set_ne (by omega), hm]
              simp only [hr, Res.bind_panic]
            | err => exact absurd hr' hn
            | panic => rfl
        | ok a =>
          simp only [Res.bind_ok]
          rw [updRow_eval, if_neg h0', List.getElem?_set_ne (by omega)]
          cases hm' : m[y'.toNat]? with
          | none => rfl
          | some r' =>
            simp only
            have hn := hg r'
            cases hr' : g r' with
            | ok b =>
              simp only [Res.bind_ok]
              rw [updRow_eval, if_neg h0, List.getElem?_set_ne (by omega), hm]
              simp only [hr, Res.bind_ok]
              rw [List.set_comm _ _ hne]
            | err => exact absurd hr' hn
            | panic => rfl

/-- Two updates of the same row are one. -/
theorem updRow_same {α : Type} (y : Int) (f g : List α → Res (List α)) (hg : ∀ r, NoErr (g r)) (m : List (List α)) :
    (updRow y f m >>= updRow y g) = updRow y (fun r => f r >>= g) m := by
  rw [updRow_eval, updRow_eval]
  split
  · rfl
  · rename_i h0
    cases hm : m[y.toNat]? with
    | none => rfl
    | some r =>
      simp only
      have hlt : y.toNat < m.length := by
        by_contra h
        rw [List.getElem?_eq_none (by omega)] at hm
        cases hm
      cases hr : f r with
      | err => rfl
      | panic => rfl
      | ok a =>
        simp only [Res.bind_ok]
        rw [updRow_eval, if_neg h0, List.getElem?_set_self hlt]
        simp only [List.set_set]

/-! ## Orders of steps -/

theorem runSteps_append {ε σ : Type} (act : ε → σ → Res σ) (a b : List ε) (s : σ) :
    runSteps act (a ++ b) s = (runSteps act a s >>= runSteps act b) := by
  induction a generalizing s with
  | nil => rfl
  | cons e a ih =>
    show (act e s >>= fun s => runSteps act (a ++ b) s) = ((act e s >>= fun s => runSteps act a s) >>= runSteps act b)
    rw [Res.bind_assoc']
    congr 1
    funext s'
    exact ih s'

/-- Two steps whose order does not matter. -/
def Commute2 {ε σ : Type} (act : ε → σ → Res σ) (e e' : ε) : Prop := ∀ s, (act e s >>= act e') = (act e' s >>= act e)

/-- A step that commutes with those before it may be done first. -/
theorem runSteps_front {ε σ : Type} (act : ε → σ → Res σ) (a t : List ε) (e : ε) (h : ∀ e' ∈ a, Commute2 act e e') (s : σ) :
    runSteps act (a ++ e :: t) s = runSteps act (e :: (a ++ t)) s := by
  induction a generalizing s with
  | nil => rfl
  | cons b a ih =>
    show (act b s >>= fun s => runSteps act (a ++ e :: t) s) = (act e s >>= fun s => act b s >>= fun s => runSteps act (a ++ t) s)
    have h1 : (fun s => runSteps act (a ++ e :: t) s) = fun s => act e s >>= fun s => runSteps act (a ++ t) s := by
      funext s'
      exact ih (fun e' he' => h e' (by simp [he'])) s'
    rw [h1, ← Res.bind_assoc', ← Res.bind_assoc']
    congr 1
    exact (h b (by simp) s).symm

/-- If the steps of different goroutines commute, every order of them does what the goroutines do one after the other. -/
theorem interleaving_run {ε σ : Type} {act : ε → σ → Res σ} {ls : List (List ε)} {es : List ε} (h : Interleaving ls es)
    (hc : ∀ (i j : Nat) (li lj : List ε), i ≠ j → ls[i]? = some li → ls[j]? = some lj → ∀ e ∈ li, ∀ e' ∈ lj, Commute2 act e e') (s : σ) :
    runSteps act es s = runSteps act ls.flatten s := by
  induction h generalizing s with
  | @done ls h =>
    have : ls.flatten = [] := by
      rw [List.flatten_eq_nil_iff]
      exact h
    rw [this]
  | @step ls es i e rest hi hrun ih =>
    have hlt : i < ls.length := by
      by_contra hn
      rw [List.getElem?_eq_none (by omega)] at hi
      cases hi
    have hc' : ∀ (i' j : Nat) (li lj : List ε), i' ≠ j → (ls.set i rest)[i']? = some li → (ls.set i rest)[j]? = some lj → ∀ e ∈ li, ∀ e' ∈ lj, Commute2 act e e' := by
      intro i' j li lj hij h1 h2 a ha b hb
      have key : ∀ {k : Nat} {lk : List ε} {c : ε}, (ls.set i rest)[k]? = some lk → c ∈ lk → ∃ lk', ls[k]? = some lk' ∧ c ∈ lk' := by
        intro k lk c hk hcm
        by_cases hki : k = i
        · subst hki
          rw [List.getElem?_set_self hlt] at hk
          cases hk
          exact ⟨_, hi, by simp [hcm]⟩
        · rw [List.getElem?_set_ne (by omega)] at hk
          exact ⟨lk, hk, hcm⟩
      obtain ⟨l1, k1, m1⟩ := key h1 ha
      obtain ⟨l2, k2, m2⟩ := key h2 hb
      exact hc i' j l1 l2 hij k1 k2 a m1 b m2
    have hsplit : ls = ls.take i ++ (e :: rest) :: ls.drop (i + 1) := by
      have h1 : ls[i] = e :: rest := by
        have := List.getElem?_eq_getElem hlt
        rw [hi] at this
        exact (Option.some.inj this).symm
      rw [← h1, List.getElem_cons_drop, List.take_append_drop]
    have hset : (ls.set i rest).flatten = (ls.take i).flatten ++ (rest ++ (ls.drop (i + 1)).flatten) := by
      rw [List.set_eq_take_append_cons_drop, if_pos hlt]
      simp
    have hfl : ls.flatten = (ls.take i).flatten ++ e :: (rest ++ (ls.drop (i + 1)).flatten) := by
      conv_lhs => rw [hsplit]
      simp
    rw [hfl, runSteps_front]
    · show (act e s >>= fun s => runSteps act es s) = (act e s >>= fun s => runSteps act _ s)
      congr 1
      funext s'
      rw [ih hc' s', hset]
    · intro e' he'
      obtain ⟨l, hl, hel⟩ := List.mem_flatten.1 he'
      obtain ⟨k, hk⟩ := List.mem_iff_getElem?.1 hl
      have hki : k < i := by
        by_contra hn
        rw [List.getElem?_take, if_neg hn] at hk
        cases hk
      rw [List.getElem?_take, if_pos hki] at hk
      exact hc i k _ l (by omega) hi hk e (by simp) e' hel

/-! ## Ranges of rows -/

theorem rowCells_append (w : Int) {a b c : Int} (h1 : a ≤ b) (h2 : b ≤ c) : rowCells w a b ++ rowCells w b c = rowCells w a c := by
  unfold rowCells
  have hl : (c - a).toNat = (b - a).toNat + (c - b).toNat := by omega
  rw [hl, List.range_add, List.flatMap_append]
  congr 1
  rw [List.flatMap_map]
  congr 1
  funext i
  have : a + (((b - a).toNat + i : Nat) : Int) = b + (i : Int) := by omega
  simp only [Function.comp_apply, this]

theorem rowCells_nil (w : Int) {a b : Int} (h : b ≤ a) : rowCells w a b = [] := by
  unfold rowCells
  rw [show (b - a).toNat = 0 by omega]
  rfl

theorem mem_rowCells {w a b y x : Int} : (y, x) ∈ rowCells w a b ↔ a ≤ y ∧ y < b ∧ 0 ≤ x ∧ x < w := by
  unfold rowCells
  simp only [List.mem_flatMap, List.mem_map, List.mem_range, Prod.mk.injEq]
  constructor
  · rintro ⟨i, hi, k, hk, rfl, rfl⟩
    omega
  · rintro ⟨h1, h2, h3, h4⟩
    exact ⟨(y - a).toNat, by omega, x.toNat, by omega, by omega, by omega⟩

/-- Ranges one after the other from `a` to `b`. -/
inductive Chain : Int → Int → List (Int × Int) → Prop where
  | nil (a) : Chain a a []
  | cons {a b c ss} : a ≤ b → Chain b c ss → Chain a c ((a, b) :: ss)

theorem Chain.le {a b : Int} {ss : List (Int × Int)} (h : Chain a b ss) : a ≤ b := by
  induction h with
  | nil => exact le_refl _
  | cons h _ ih => omega

theorem Chain.cells {a b : Int} {ss : List (Int × Int)} (h : Chain a b ss) (w : Int) :
    (ss.map fun s => rowCells w s.1 s.2).flatten = rowCells w a b := by
  induction h with
  | nil a => rw [rowCells_nil w (le_refl _)]; rfl
  | cons h1 h2 ih =>
    rw [List.map_cons, List.flatten_cons, ih]
    exact rowCells_append w h1 h2.le

/-- Rows of a range lie between the ends of the chain. -/
theorem Chain.mem {a b : Int} {ss : List (Int × Int)} (h : Chain a b ss) {s : Int × Int} (hs : s ∈ ss) : a ≤ s.1 ∧ s.1 ≤ s.2 ∧ s.2 ≤ b := by
  induction h with
  | nil a => cases hs
  | @cons a b c ss h1 h2 ih =>
    rcases List.mem_cons.1 hs with rfl | hs
    · exact ⟨le_refl _, h1, h2.le⟩
    · have := ih hs
      omega

/-- Different ranges have no row in common. -/
theorem Chain.disjoint {a b : Int} {ss : List (Int × Int)} (h : Chain a b ss) {i j : Nat} (hij : i ≠ j) {s t : Int × Int} (hi : ss[i]? = some s)
    (hj : ss[j]? = some t) {y : Int} (h1 : s.1 ≤ y ∧ y < s.2) (h2 : t.1 ≤ y ∧ y < t.2) : False := by
  induction h generalizing i j with
  | nil a => simp at hi
  | @cons a b c ss _ h4 ih =>
    cases i with
    | zero =>
      cases j with
      | zero => exact hij rfl
      | succ j =>
        simp only [List.getElem?_cons_zero, List.getElem?_cons_succ] at hi hj
        cases hi
        have := h4.mem (List.mem_of_getElem? hj)
        simp only at h1
        omega
    | succ i =>
      cases j with
      | zero =>
        simp only [List.getElem?_cons_zero, List.getElem?_cons_succ] at hi hj
        cases hj
        have := h4.mem (List.mem_of_getElem? hi)
        simp only at h2
        omega
      | succ j =>
        simp only [List.getElem?_cons_succ] at hi hj
        exact ih (by omega) hi hj

theorem spansLoop_chain {height rows : Int} (h0 : 0 ≤ height) (hh : height < 1073741824) (hr : 1 ≤ rows) (hr2 : rows ≤ height) :
    ∀ (n : Nat) (w : Int), 0 ≤ w → w * rows ≤ height + rows → w + n < 2147483648 → height ≤ (w + n) * rows → w * rows ≤ height →
      Chain (w * rows) height (spansLoop height rows n w) ∨ (w * rows = height ∧ spansLoop height rows n w = [])
  | 0, w, hw, h1, h2, h3, h4 => by
    right
    have : w * rows = height := by simp at h3; omega
    exact ⟨this, rfl⟩
  | n + 1, w, hw, h1, h2, h3, h4 => by
    have hw' : i32 w = w := i32_in (by omega) (by omega)
    have hp0 : 0 ≤ w * rows := mul_nonneg hw (by omega)
    have hs : (w + 1) * rows = w * rows + rows := by ring
    have h3' : height ≤ (w + 1 + n) * rows := by
      have : (w + ((n + 1 : Nat) : Int)) * rows = (w + 1 + n) * rows := by push_cast; ring
      rw [← this]; exact h3
    have e1 : i32 (i32 w * rows) = w * rows := by
      rw [hw']
      generalize w * rows = q at *
      exact i32_in (by omega) (by omega)
    have e2 : i32 (w * rows + rows) = w * rows + rows := by
      generalize w * rows = q at *
      exact i32_in (by omega) (by omega)
    unfold spansLoop
    simp only [e1, e2]
    by_cases hle : height ≤ w * rows
    · rw [if_pos hle]
      right
      exact ⟨by omega, rfl⟩
    · rw [if_neg hle]
      left
      by_cases hlt : height < w * rows + rows
      · rw [if_pos hlt]
        have hrest : spansLoop height rows n (w + 1) = [] := by
          cases n with
          | zero => rfl
          | succ n =>
            have hw1 : i32 (w + 1) = w + 1 := i32_in (by omega) (by omega)
            unfold spansLoop
            have e3 : i32 (i32 (w + 1) * rows) = w * rows + rows := by
              rw [hw1, hs]; exact e2
            simp only [e3]
            rw [if_pos (by omega)]
        rw [hrest]
        exact .cons (by omega) (.nil _)
      · rw [if_neg hlt]
        have ih := spansLoop_chain h0 hh hr hr2 n (w + 1) (by omega) (by rw [hs]; omega) (by omega) h3' (by rw [hs]; omega)
        rw [hs] at ih
        rcases ih with h | ⟨h, hn⟩
        · exact .cons (by omega) h
        · rw [hn]
          refine .cons (by omega) ?_
          rw [h]
          exact .nil _

/-- The ranges are the whole picture, in order. -/
theorem spans_chain {height mg : Int} (h0 : 0 ≤ height) (hh : height < 1073741824) (hm : mg + height < 2147483648) :
    ∃ ss, spans height mg = .ok ss ∧ Chain 0 height ss := by
  unfold spans
  simp only
  generalize hn : (if mg < 1 then 1 else mg) = n
  have hn1 : 1 ≤ n := by split at hn <;> omega
  have hn2 : n + height - 1 < 2147483648 := by split at hn <;> omega
  have hn3 : n < 2147483648 := by split at hn <;> omega
  have e0 : i32 n = n := i32_in (by omega) (by omega)
  rw [e0, if_neg (by omega)]
  have e1 : i32 (i32 (height + n) - 1) = height + n - 1 := by
    unfold i32
    omega
  rw [e1]
  have hq : Int.tdiv (height + n - 1) n = (height + n - 1) / n := Int.tdiv_eq_ediv_of_nonneg (by omega)
  rw [hq]
  have hd1 : (height + n - 1) / n * n ≤ height + n - 1 := Int.ediv_mul_le _ (by omega)
  have hd2 : height + n - 1 < ((height + n - 1) / n + 1) * n := Int.lt_ediv_add_one_mul_self _ (by omega)
  have hd0 : 0 ≤ (height + n - 1) / n := Int.ediv_nonneg (by omega) (by omega)
  have hd3 : (height + n - 1) / n ≤ height + n - 1 := Int.ediv_le_self _ (by omega)
  generalize (height + n - 1) / n = rows at *
  have e2 : i32 rows = rows := i32_in (by omega) (by omega)
  rw [e2]
  refine ⟨_, rfl, ?_⟩
  by_cases hz : height = 0
  · subst hz
    have : spansLoop 0 rows n.toNat 0 = [] := by
      cases hnn : n.toNat with
      | zero => rfl
      | succ k =>
        unfold spansLoop
        simp only [show i32 0 = 0 from rfl, Int.zero_mul]
        rw [if_pos (le_refl _)]
    rw [this]
    exact .nil _
  · have hr1 : 1 ≤ rows := by
      by_contra hlt
      have : rows = 0 := by omega
      subst this
      omega
    have hr2 : rows ≤ height := by
      by_contra hlt
      have h1 : height + 1 ≤ rows := by omega
      have h2 : (height + 1) * n ≤ rows * n := Int.mul_le_mul_of_nonneg_right h1 (by omega)
      have h3 : (height + 1) * n = height * n + n := by ring
      have h4 : height * 1 ≤ height * n := Int.mul_le_mul_of_nonneg_left hn1 h0
      omega
    have hc := spansLoop_chain h0 hh hr1 hr2 n.toNat 0 (le_refl _) (by omega) (by omega) (by
      have : (0 + (n.toNat : Int)) * rows = rows * n := by rw [Int.toNat_of_nonneg (by omega)]; ring
      rw [this]
      have : (rows + 1) * n = rows * n + n := by ring
      omega) (by omega)
    rw [Int.zero_mul] at hc
    rcases hc with h | ⟨h, hn⟩
    · exact h
    · omega

theorem upSpansLoop_chain {rows per : Int} (hr : 1 ≤ per) :
    ∀ (n : Nat) (w : Int), rows ≤ (w + n) * per → w * per ≤ rows → Chain (w * per) rows (upSpansLoop rows per n w)
  | 0, w, h3, h4 => by
    have : w * per = rows := by simp at h3; omega
    rw [this]
    exact .nil _
  | n + 1, w, h3, h4 => by
    have hs : (w + 1) * per = w * per + per := by ring
    have h3' : rows ≤ (w + 1 + n) * per := by
      have : (w + ((n + 1 : Nat) : Int)) * per = (w + 1 + n) * per := by push_cast; ring
      rw [← this]; exact h3
    unfold upSpansLoop
    simp only
    by_cases hle : rows ≤ w * per
    · rw [if_pos hle, show w * per = rows by omega]
      exact .nil _
    · rw [if_neg hle]
      by_cases hlt : rows < w * per + per
      · rw [if_pos hlt]
        have hrest : upSpansLoop rows per n (w + 1) = [] := by
          cases n with
          | zero => rfl
          | succ n =>
            unfold upSpansLoop
            simp only
            rw [if_pos (by rw [hs]; omega)]
        rw [hrest]
        exact .cons (by omega) (.nil _)
      · rw [if_neg hlt]
        have ih := upSpansLoop_chain hr n (w + 1) h3' (by rw [hs]; omega)
        rw [hs] at ih
        exact .cons (by omega) ih

theorem goroutines_pos (options : Option Int) : 0 < goroutines options := by
  cases options with
  | none => decide
  | some n =>
    show 0 < if n < 1 then 1 else n.toNat
    split <;> omega

theorem upSpans_chain (rows : Nat) (options : Option Int) : Chain 0 rows (upSpans rows options) := by
  unfold upSpans
  simp only
  have hn1 : 0 < goroutines options := goroutines_pos options
  generalize goroutines options = n0 at *
  obtain ⟨n, hn⟩ : ∃ n : Int, n = n0 := ⟨_, rfl⟩
  rw [← hn]
  have hn0 : n0 = n.toNat := by omega
  rw [hn0]
  have hq : Int.tdiv ((rows : Int) + n - 1) n = ((rows : Int) + n - 1) / n := Int.tdiv_eq_ediv_of_nonneg (by omega)
  rw [hq]
  have hd2 : (rows : Int) + n - 1 < (((rows : Int) + n - 1) / n + 1) * n := Int.lt_ediv_add_one_mul_self _ (by omega)
  have hd0 : 0 ≤ ((rows : Int) + n - 1) / n := Int.ediv_nonneg (by omega) (by omega)
  generalize ((rows : Int) + n - 1) / n = per at *
  by_cases hz : rows = 0
  · subst hz
    have : upSpansLoop ((0 : Nat) : Int) per n.toNat 0 = [] := by
      cases hnn : n.toNat with
      | zero => rfl
      | succ k =>
        unfold upSpansLoop
        simp
    rw [this]
    exact .nil _
  · have hr1 : 1 ≤ per := by
      by_contra hlt
      have : per = 0 := by omega
      subst this
      omega
    have := upSpansLoop_chain hr1 n.toNat 0 (rows := (rows : Int)) (by
      have : (0 + (n.toNat : Int)) * per = per * n := by rw [Int.toNat_of_nonneg (by omega)]; ring
      rw [this]
      have : (per + 1) * n = per * n + n := by ring
      omega) (by omega)
    simpa using this

end Jxl
