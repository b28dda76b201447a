import Mathlib.Tactic.IntervalCases
import Verif.Spec.HFGlobal
import Verif.Proofs.LFSmoothing
import Verif.Proofs.Safe

/-! # Building quantization matrices -/
namespace Jxl

section
variable {α : Type} [Arith α]

omit [Arith α] in
theorem tabRow_cases {f : Nat → Res α} : ∀ (n x : Nat), (∀ k, x ≤ k → k < x + n → f k ≠ .panic) →
    tabRow f n x = .err ∨ ∃ r : List α, tabRow f n x = .ok r ∧ r.length = n ∧ ∀ k, k < n → ∃ v, r[k]? = some v ∧ f (x + k) = .ok v
  | 0, _, _ => Or.inr ⟨[], rfl, rfl, fun k hk => absurd hk (Nat.not_lt_zero k)⟩
  | n + 1, x, h => by
    rw [tabRow]
    cases hf : f x with
    | panic => exact absurd hf (h x (Nat.le_refl x) (by omega))
    | err => exact Or.inl rfl
    | ok v =>
      rcases tabRow_cases n (x + 1) (fun k h1 h2 => h k (by omega) (by omega)) with e | ⟨r, e, l, hr⟩
      · left
        show (tabRow f n (x + 1) >>= _) = _
        rw [e]
        rfl
      · right
        refine ⟨v :: r, ?_, by simp [l], ?_⟩
        · show (tabRow f n (x + 1) >>= _) = _
          rw [e]
          rfl
        · intro k hk
          rcases k with _ | k
          · exact ⟨v, rfl, hf⟩
          · obtain ⟨u, h1, h2⟩ := hr k (by omega)
            refine ⟨u, h1, ?_⟩
            rw [show x + (k + 1) = x + 1 + k by omega]
            exact h2

omit [Arith α] in
theorem tabulate_from {f : Nat → Nat → Res α} (w : Nat) : ∀ (n y : Nat), (∀ j k, y ≤ j → j < y + n → k < w → f j k ≠ .panic) →
    tabulate f w n y = .err ∨ ∃ m : List (List α), tabulate f w n y = .ok m ∧ Table n w m ∧ ∀ j k, j < n → k < w → ∃ v, sample m j k = some v ∧ f (y + j) k = .ok v
  | 0, _, _ => Or.inr ⟨[], rfl, ⟨rfl, fun r hr => by cases hr⟩, fun j _ hj => absurd hj (Nat.not_lt_zero j)⟩
  | n + 1, y, h => by
    rw [tabulate]
    rcases tabRow_cases (f := f y) w 0 (fun k _ h2 => h y k (Nat.le_refl y) (by omega) (by omega)) with e | ⟨r, e, l, hr⟩
    · left
      rw [e]
      rfl
    · rcases tabulate_from w n (y + 1) (fun j k h1 h2 h3 => h j k (by omega) (by omega) h3) with e' | ⟨m, e', hT, hm⟩
      · left
        rw [e]
        show (tabulate f w n (y + 1) >>= _) = _
        rw [e']
        rfl
      · right
        refine ⟨r :: m, ?_, ⟨by simp [hT.1], ?_⟩, ?_⟩
        · rw [e]
          show (tabulate f w n (y + 1) >>= _) = _
          rw [e']
          rfl
        · intro r' hr'
          rcases List.mem_cons.1 hr' with rfl | hr'
          · exact l
          · exact hT.2 _ hr'
        · intro j k hj hk
          rcases j with _ | j
          · obtain ⟨v, h1, h2⟩ := hr k hk
            rw [Nat.zero_add] at h2
            exact ⟨v, h1, h2⟩
          · obtain ⟨v, h1, h2⟩ := hm j k (by omega) hk
            refine ⟨v, h1, ?_⟩
            rw [show y + (j + 1) = y + 1 + j by omega]
            exact h2

omit [Arith α] in
/-- A matrix is computed, or one of its cells is not. -/
theorem tabulate_cases {f : Nat → Nat → Res α} {h w : Nat} (hf : ∀ j k, j < h → k < w → f j k ≠ .panic) :
    tabulate f w h 0 = .err ∨ ∃ m : List (List α), tabulate f w h 0 = .ok m ∧ Table h w m ∧ ∀ j k, j < h → k < w → ∃ v, sample m j k = some v ∧ f j k = .ok v := by
  rcases tabulate_from (f := f) w h 0 (fun j k _ h2 h3 => hf j k (by omega) h3) with e | ⟨m, e, hT, hm⟩
  · exact Or.inl e
  · refine Or.inr ⟨m, e, hT, fun j k hj hk => ?_⟩
    have := hm j k hj hk
    rwa [Nat.zero_add] at this

omit [Arith α] in
theorem tabRow_err {f : Nat → Res α} : ∀ (n x : Nat), tabRow f n x = .err → ∃ k, x ≤ k ∧ k < x + n ∧ f k = .err
  | 0, _, h => by cases h
  | n + 1, x, h => by
    rw [tabRow] at h
    cases hf : f x with
    | panic => rw [hf] at h; cases h
    | err => exact ⟨x, Nat.le_refl x, by omega, hf⟩
    | ok v =>
      rw [hf] at h
      have h' : (tabRow f n (x + 1) >>= fun r => Res.ok (v :: r)) = .err := h
      cases ht : tabRow f n (x + 1) with
      | ok r => rw [ht] at h'; cases h'
      | panic => rw [ht] at h'; cases h'
      | err =>
        obtain ⟨k, h1, h2, h3⟩ := tabRow_err n (x + 1) ht
        exact ⟨k, by omega, by omega, h3⟩

omit [Arith α] in
theorem tabulate_err {f : Nat → Nat → Res α} {w : Nat} : ∀ (n y : Nat), tabulate f w n y = .err → ∃ j k, y ≤ j ∧ j < y + n ∧ k < w ∧ f j k = .err
  | 0, _, h => by cases h
  | n + 1, y, h => by
    rw [tabulate] at h
    cases hr : tabRow (f y) w 0 with
    | panic => rw [hr] at h; cases h
    | err =>
      obtain ⟨k, h1, h2, h3⟩ := tabRow_err w 0 hr
      exact ⟨y, k, Nat.le_refl y, by omega, by omega, h3⟩
    | ok r =>
      rw [hr] at h
      have h' : (tabulate f w n (y + 1) >>= fun m => Res.ok (r :: m)) = .err := h
      cases ht : tabulate f w n (y + 1) with
      | ok r => rw [ht] at h'; cases h'
      | panic => rw [ht] at h'; cases h'
      | err =>
        obtain ⟨j, k, h1, h2, h3, h4⟩ := tabulate_err n (y + 1) ht
        exact ⟨j, k, by omega, by omega, h3, h4⟩

omit [Arith α] in
theorem tabulate_ok {f : Nat → Nat → Res α} {h w : Nat} {g : Nat → Nat → α} (hf : ∀ j k, j < h → k < w → f j k = .ok (g j k)) :
    ∃ m, tabulate f w h 0 = .ok m ∧ HoldsMat h w g m := by
  rcases tabulate_cases (f := f) (h := h) (w := w) (fun j k hj hk => by rw [hf j k hj hk]; simp) with e | ⟨m, e, hT, hm⟩
  · obtain ⟨j, k, _, h2, h3, h4⟩ := tabulate_err h 0 e
    rw [hf j k (by omega) h3] at h4
    cases h4
  · refine ⟨m, e, hT, fun j k hj hk => ?_⟩
    obtain ⟨v, h1, h2⟩ := hm j k hj hk
    rw [hf j k hj hk] at h2
    cases h2
    exact h1

theorem bandsFrom_length (ps : List ℚ) : ∀ b : α, (bandsFrom b ps).length = ps.length + 1 := by
  induction ps with
  | nil => intro b; rfl
  | cons p ps ih => intro b; simp [bandsFrom, ih]

theorem bandsFrom_get (ps : List ℚ) : ∀ (b : α) (i : Nat), i ≤ ps.length → ∃ v, (bandsFrom b ps)[i]? = some v := by
  intro b i hi
  have : i < (bandsFrom b ps).length := by rw [bandsFrom_length]; omega
  exact ⟨_, List.getElem?_eq_getElem this⟩

/-- Every place with a number that is not negative is between bands. -/
theorem interpolate_ok (F : QuantFuncs α) {pos : α} {bands : List α} (hb : bands ≠ []) (hp : 0 ≤ F.trunc pos) : ∃ v, interpolate F pos bands = .ok v := by
  have hl : 0 < bands.length := List.length_pos_iff.2 hb
  unfold interpolate
  have key : ∀ i : Int, 0 ≤ i → i < bands.length → ∃ v, idx bands i = .ok v := by
    intro i h0 h1
    refine ⟨bands[i.toNat]'(by omega), ?_⟩
    unfold idx
    rw [if_neg (by omega), List.getElem?_eq_getElem (by omega)]
  dsimp only
  by_cases h1 : (bands.length : Int) - 1 = 0
  · rw [if_pos h1]
    exact key 0 (by omega) (by omega)
  · rw [if_neg h1]
    by_cases h2 : (bands.length : Int) - 1 < F.trunc pos + 1
    · rw [if_pos h2]
      exact key _ (by omega) (by omega)
    · rw [if_neg h2]
      obtain ⟨a, ea⟩ := key (F.trunc pos) hp (by omega)
      obtain ⟨b, eb⟩ := key (F.trunc pos + 1) (by omega) (by omega)
      rw [ea, eb]
      exact ⟨_, rfl⟩

/-- The last of the values assigned to a cell. -/
def lastRes (ws : List (Nat × Nat × Res α)) (j k : Nat) : Option (Res α) := (ws.reverse.find? fun w => w.1 == j && w.2.1 == k).map (·.2.2)

omit [Arith α] in
theorem assign_ok {h w : Nat} : ∀ (ws : List (Nat × Nat × Res α)) (m : List (List α)), Table h w m → (∀ a ∈ ws, a.1 < h ∧ a.2.1 < w ∧ ∃ v, a.2.2 = .ok v) →
    ∃ m', assign ws m = .ok m' ∧ Table h w m' ∧ ∀ j k, (lastRes ws j k = none → sample m' j k = sample m j k) ∧ ∀ v, lastRes ws j k = some (.ok v) → sample m' j k = some v
  | [], m, hT, _ => ⟨m, rfl, hT, fun j k => ⟨fun _ => rfl, fun v hv => by cases hv⟩⟩
  | (y, x, r) :: ws, m, hT, hw => by
    obtain ⟨hy, hx, v, hv⟩ := hw _ List.mem_cons_self
    have hv' : r = .ok v := hv
    subst hv'
    obtain ⟨m1, e1, t1, s1⟩ := set2_table hT hy hx v
    obtain ⟨m2, e2, t2, s2⟩ := assign_ok ws m1 t1 (fun a ha => hw a (List.mem_cons_of_mem _ ha))
    refine ⟨m2, ?_, t2, fun j k => ?_⟩
    · rw [assign]
      show (set2 m (y : Int) (x : Int) v >>= _) = _
      rw [e1]
      exact e2
    · have hl : lastRes ((y, x, .ok v) :: ws) j k = match lastRes ws j k with | some r => some r | none => if y = j ∧ x = k then some (.ok v) else none := by
        unfold lastRes
        rw [List.reverse_cons, List.find?_append]
        cases hf : ws.reverse.find? (fun w => w.1 == j && w.2.1 == k) with
        | some a => rfl
        | none =>
          by_cases hjk : y = j ∧ x = k
          · rw [if_pos hjk]
            simp [hjk.1, hjk.2]
          · rw [if_neg hjk]
            have : ((y == j) && (x == k)) = false := by
              rw [Bool.and_eq_false_iff]
              by_cases h : y = j
              · right; simp; exact fun hh => hjk ⟨h, hh⟩
              · left; simp [h]
            simp [this]
      rw [hl]
      cases hlw : lastRes ws j k with
      | some r =>
        refine ⟨fun h => (by cases h), fun u hu => (s2 j k).2 u ?_⟩
        rw [hlw]
        exact hu
      | none =>
        dsimp only
        have h0 := (s2 j k).1 hlw
        rw [s1 j k] at h0
        by_cases hjk : y = j ∧ x = k
        · rw [if_pos hjk]
          rw [if_pos ⟨hjk.1.symm, hjk.2.symm⟩] at h0
          refine ⟨fun h => (by cases h), fun u hu => ?_⟩
          rw [h0]
          cases hu
          rfl
        · rw [if_neg hjk]
          rw [if_neg (fun h => hjk ⟨h.1.symm, h.2.symm⟩)] at h0
          exact ⟨fun _ => h0, fun u hu => by cases hu⟩

omit [Arith α] in
theorem divideCell_ok [Arith α] {h w : Nat} {m : List (List α)} {g : Nat → Nat → α} (hm : HoldsMat h w g m) {y x : Nat} (hy : y < h) (hx : x < w) {r : Res α} {d : α} (hd : r = .ok d) :
    ∃ m', divideCell m y x r = .ok m' ∧ HoldsMat h w (fun j k => if j = y ∧ k = x then g y x / d else g j k) m' := by
  obtain ⟨m', e, h'⟩ := hm.set hy hx (g y x / d)
  refine ⟨m', ?_, h'⟩
  unfold divideCell
  rw [hm.at2 hy hx, hd]
  exact e

theorem zeros8_table : Table 8 8 (zeros8 : List (List α)) := (holds_const (h := 8) (w := 8) (Arith.lit 0 : α)).1

theorem paramAt_get {ps : List ℚ} {i : Nat} {q : ℚ} (h : ps[i]? = some q) : (paramAt ps i : Res α) = .ok (Arith.lit q) := by
  unfold paramAt
  rw [idx_nat h]
  rfl

theorem paramAt_ok {ps : List ℚ} {i : Nat} (h : i < ps.length) : (paramAt ps i : Res α) = .ok (Arith.lit (ps[i]'h)) := paramAt_get (List.getElem?_eq_getElem h)

/-- The matrix of a curve: every cell is on the curve. -/
theorem dctQuantWeights_ok {F : QuantFuncs α} (hF : Spec.Grounded F) {h w : Nat} (hh : 2 ≤ h ∧ h ≤ 256) (hw : 2 ≤ w ∧ w ≤ 256) {ps : List ℚ} (hp : ps ≠ [] ∧ ps.length ≤ 16) :
    ∃ bands m g, bandsOf ps = .ok bands ∧ bands.length = ps.length ∧ dctQuantWeights F h w ps = .ok m ∧ HoldsMat h w g m ∧
      ∀ y x, y < h → x < w → interpolate F (bandPos F ps.length h w y x) bands = .ok (g y x) := by
  obtain ⟨hp, hl⟩ := hp
  rcases ps with _ | ⟨p, ps⟩
  · exact absurd rfl hp
  · have e0 : bandsOf (p :: ps) = .ok (bandsFrom (Arith.lit p : α) ps) := rfl
    have el : (bandsFrom (Arith.lit p : α) ps).length = (p :: ps).length := by rw [bandsFrom_length]; rfl
    have hne : bandsFrom (Arith.lit p : α) ps ≠ [] := by
      intro h
      rw [h] at el
      simp at el
    have key : ∀ y x, ∃ v, y < h → x < w → interpolate F (bandPos F (p :: ps).length h w y x) (bandsFrom (Arith.lit p : α) ps) = .ok v := by
      intro y x
      by_cases hyx : y < h ∧ x < w
      · obtain ⟨v, e⟩ := interpolate_ok F hne (hF.1 (p :: ps).length h w y x (by simp) hl hh.1 hh.2 hw.1 hw.2 hyx.1 hyx.2)
        exact ⟨v, fun _ _ => e⟩
      · exact ⟨Arith.lit 0, fun h1 h2 => absurd ⟨h1, h2⟩ hyx⟩
    choose g hg using key
    obtain ⟨m, e, hm⟩ := tabulate_ok (h := h) (w := w) (g := g) (f := fun y x => interpolate F (bandPos F (bandsFrom (Arith.lit p : α) ps).length h w y x) (bandsFrom (Arith.lit p : α) ps)) (by
      intro y x hy hx
      rw [el]
      exact hg y x hy hx)
    exact ⟨_, m, g, e0, el, e, hm, hg⟩

omit [Arith α] in
theorem lastRes_cells (f : Nat → Nat → Res α) {j k : Nat} (hj : j < 8) (hk : k < 8) : lastRes ((cells 8 8).map fun p => (p.1, p.2, f p.1 p.2)) j k = some (f j k) := by
  interval_cases j <;> interval_cases k <;> rfl

theorem mem_hfCells {h w : Nat} {p : Nat × Nat} : p ∈ cells h w ↔ p.1 < h ∧ p.2 < w := by
  unfold cells
  rw [List.mem_flatMap]
  constructor
  · rintro ⟨y, hy, hp⟩
    obtain ⟨x, hx, rfl⟩ := List.mem_map.1 hp
    exact ⟨List.mem_range.1 hy, List.mem_range.1 hx⟩
  · rintro ⟨h1, h2⟩
    exact ⟨p.1, List.mem_range.2 h1, List.mem_map.2 ⟨p.2, List.mem_range.2 h2, rfl⟩⟩

/-- All cells are assigned. -/
theorem assign_cells {f : Nat → Nat → Res α} {g : Nat → Nat → α} (hf : ∀ y x, y < 8 → x < 8 → f y x = .ok (g y x)) :
    ∃ m, assign ((cells 8 8).map fun p => (p.1, p.2, f p.1 p.2)) zeros8 = .ok m ∧ HoldsMat 8 8 g m := by
  obtain ⟨m, e, hT, hm⟩ := assign_ok ((cells 8 8).map fun p => (p.1, p.2, f p.1 p.2)) zeros8 zeros8_table (by
    intro a ha
    obtain ⟨p, hp, rfl⟩ := List.mem_map.1 ha
    obtain ⟨h1, h2⟩ := mem_hfCells.1 hp
    exact ⟨h1, h2, _, hf _ _ h1 h2⟩)
  exact ⟨m, e, hT, fun y x hy hx => (hm y x).2 _ (by rw [lastRes_cells f hy hx, hf y x hy hx])⟩

theorem weightsDCT4_ok {F : QuantFuncs α} {dct : List ℚ} {w : List (List α)} {g : Nat → Nat → α} (e : dctQuantWeights F 4 4 dct = .ok w) (hw : HoldsMat 4 4 g w) (a b : ℚ) :
    ∃ m, weightsDCT4 F dct [a, b] = .ok m ∧ HoldsMat 8 8 (fun y x => if y = 1 ∧ x = 1 then g 0 0 / Arith.lit b else if y + x = 1 then g 0 0 / Arith.lit a else g (y / 2) (x / 2)) m := by
  obtain ⟨m0, e0, h0⟩ := assign_cells (f := fun y x => at2 w ((y / 2 : Nat) : Int) ((x / 2 : Nat) : Int)) (g := fun y x => g (y / 2) (x / 2)) (by
    intro y x hy hx
    exact hw.at2 (by omega) (by omega))
  obtain ⟨m1, e1, h1⟩ := divideCell_ok h0 (y := 1) (x := 0) (by omega) (by omega) (r := paramAt [a, b] 0) rfl
  obtain ⟨m2, e2, h2⟩ := divideCell_ok h1 (y := 0) (x := 1) (by omega) (by omega) (r := paramAt [a, b] 0) rfl
  obtain ⟨m3, e3, h3⟩ := divideCell_ok h2 (y := 1) (x := 1) (by omega) (by omega) (r := paramAt [a, b] 1) rfl
  refine ⟨m3, ?_, h3.congr ?_⟩
  · unfold weightsDCT4
    rw [e]
    show (assign _ _ >>= _) = _
    rw [e0]
    show (divideCell _ _ _ _ >>= _) = _
    rw [e1]
    show (divideCell _ _ _ _ >>= _) = _
    rw [e2]
    exact e3
  · intro y x hy hx
    interval_cases y <;> interval_cases x <;> rfl

theorem weightsDCT48_ok {F : QuantFuncs α} {dct : List ℚ} {w : List (List α)} {g : Nat → Nat → α} (e : dctQuantWeights F 4 8 dct = .ok w) (hw : HoldsMat 4 8 g w) (a : ℚ) :
    ∃ m, weightsDCT48 F dct [a] = .ok m ∧ HoldsMat 8 8 (fun y x => if y = 1 ∧ x = 0 then g 0 0 / Arith.lit a else g (y / 2) x) m := by
  obtain ⟨m0, e0, h0⟩ := assign_cells (f := fun y x => at2 w ((y / 2 : Nat) : Int) (x : Int)) (g := fun y x => g (y / 2) x) (by
    intro y x hy hx
    exact hw.at2 (by omega) (by omega))
  obtain ⟨m1, e1, h1⟩ := divideCell_ok h0 (y := 1) (x := 0) (by omega) (by omega) (r := paramAt [a] 0) rfl
  refine ⟨m1, ?_, h1⟩
  unfold weightsDCT48
  rw [e]
  show (assign _ _ >>= _) = _
  rw [e0]
  exact e1

theorem weightsHornuss_ok (a b c : ℚ) :
    ∃ m, weightsHornuss (α := α) [a, b, c] = .ok m ∧ HoldsMat 8 8 (fun y x => if y = 0 ∧ x = 0 then Arith.lit 1 else if y = 1 ∧ x = 1 then Arith.lit c else
      if y ≤ 1 ∧ x ≤ 1 then Arith.lit b else Arith.lit a) m := by
  unfold weightsHornuss
  obtain ⟨m, e, hT, hm⟩ := assign_ok (((cells 8 8).map fun p => (p.1, p.2, paramAt [a, b, c] 0)) ++
    [(1, 1, paramAt [a, b, c] 2), (0, 1, paramAt [a, b, c] 1), (1, 0, paramAt [a, b, c] 1), (0, 0, .ok (Arith.lit 1 : α))]) zeros8 zeros8_table (by
    intro r hr
    rcases List.mem_append.1 hr with hr | hr
    · obtain ⟨p, hp, rfl⟩ := List.mem_map.1 hr
      obtain ⟨h1, h2⟩ := mem_hfCells.1 hp
      exact ⟨h1, h2, _, rfl⟩
    · simp only [List.mem_cons, List.not_mem_nil, or_false] at hr
      rcases hr with rfl | rfl | rfl | rfl <;> exact ⟨by dsimp only; omega, by dsimp only; omega, _, rfl⟩)
  refine ⟨m, e, hT, fun y x hy hx => (hm y x).2 _ ?_⟩
  interval_cases y <;> interval_cases x <;> rfl

theorem weightsDCT2_ok (a b c d e f : ℚ) :
    ∃ m, weightsDCT2 (α := α) [a, b, c, d, e, f] = .ok m ∧ HoldsMat 8 8 (fun y x => if y = 0 ∧ x = 0 then Arith.lit 1 else if max y x = 1 then Arith.lit (if y = x then b else a) else
      if max y x ≤ 3 then Arith.lit (if 2 ≤ y ∧ 2 ≤ x then d else c) else Arith.lit (if 4 ≤ y ∧ 4 ≤ x then f else e)) m := by
  unfold weightsDCT2
  obtain ⟨m, e0, hT, hm⟩ := assign_ok (α := α) (h := 8) (w := 8) ([(0, 0, .ok (Arith.lit 1)), (0, 1, paramAt [a, b, c, d, e, f] 0), (1, 0, paramAt [a, b, c, d, e, f] 0), (1, 1, paramAt [a, b, c, d, e, f] 1)] ++
    ((cells 2 2).flatMap fun p => [(p.1, p.2 + 2, paramAt [a, b, c, d, e, f] 2), (p.2 + 2, p.1, paramAt [a, b, c, d, e, f] 2), (p.1 + 2, p.2 + 2, paramAt [a, b, c, d, e, f] 3)]) ++
    ((cells 4 4).flatMap fun p => [(p.1, p.2 + 4, paramAt [a, b, c, d, e, f] 4), (p.2 + 4, p.1, paramAt [a, b, c, d, e, f] 4), (p.1 + 4, p.2 + 4, paramAt [a, b, c, d, e, f] 5)])) zeros8 zeros8_table (by
    intro r hr
    rcases List.mem_append.1 hr with hr | hr
    · rcases List.mem_append.1 hr with hr | hr
      · simp only [List.mem_cons, List.not_mem_nil, or_false] at hr
        rcases hr with rfl | rfl | rfl | rfl <;> exact ⟨by dsimp only; omega, by dsimp only; omega, _, rfl⟩
      · obtain ⟨p, hp, hr⟩ := List.mem_flatMap.1 hr
        obtain ⟨h1, h2⟩ := mem_hfCells.1 hp
        simp only [List.mem_cons, List.not_mem_nil, or_false] at hr
        rcases hr with rfl | rfl | rfl <;> exact ⟨by dsimp only; omega, by dsimp only; omega, _, rfl⟩
    · obtain ⟨p, hp, hr⟩ := List.mem_flatMap.1 hr
      obtain ⟨h1, h2⟩ := mem_hfCells.1 hp
      simp only [List.mem_cons, List.not_mem_nil, or_false] at hr
      rcases hr with rfl | rfl | rfl <;> exact ⟨by dsimp only; omega, by dsimp only; omega, _, rfl⟩)
  refine ⟨m, e0, hT, fun y x hy hx => (hm y x).2 _ ?_⟩
  interval_cases y <;> interval_cases x <;> rfl

/-- The bands of an AFV matrix, when they are accepted. -/
theorem afvBands_cases (p : List ℚ) (hp : p.length = 9) : (afvBands p : Res (List α)) = .err ∨
    ∃ b2 b3 : α, afvBands p = .ok [Arith.lit (p[5]'(by omega)), (Arith.lit (p[5]'(by omega)) : α) * quantMult (Arith.lit (p[6]'(by omega))), b2, b3] := by
  unfold afvBands
  rw [paramAt_ok (show 5 < p.length by omega), paramAt_ok (show 6 < p.length by omega), paramAt_ok (show 7 < p.length by omega), paramAt_ok (show 8 < p.length by omega)]
  simp only [Res.bind_ok]
  by_cases h1 : Arith.lt (Arith.lit (p[5]'(by omega)) : α) (Arith.lit 0) = true
  · rw [if_pos h1]; exact Or.inl rfl
  · rw [if_neg h1]
    by_cases h2 : Arith.lt ((Arith.lit (p[5]'(by omega)) : α) * quantMult (Arith.lit (p[6]'(by omega)))) (Arith.lit 0) = true
    · rw [if_pos h2]; exact Or.inl rfl
    · rw [if_neg h2]
      split
      · exact Or.inl rfl
      · split
        · exact Or.inl rfl
        · exact Or.inr ⟨_, _, rfl⟩

/-- The cell of an AFV matrix is one of its parts. -/
def afvPart {β : Type} (one : β) (q : Nat → β) (I A B : Nat → Nat → β) (y x : Nat) : β :=
  if y % 2 = 1 then (if y = 1 ∧ x = 0 then q 0 else A (y / 2) x)
  else if x % 2 = 1 then (if y = 0 ∧ x = 1 then q 1 else B (y / 2) (x / 2))
  else if y = 0 ∧ x = 0 then one
  else if y = 2 ∧ x = 0 then q 2
  else if y = 0 ∧ x = 2 then q 3
  else if y = 2 ∧ x = 2 then q 4
  else I (x / 2) (y / 2)

theorem lastRes_afv (q : Nat → Res α) (I A B : Nat → Nat → Res α) {j k : Nat} (hj : j < 8) (hk : k < 8) :
    lastRes (afvWrites q I A B) j k = some (afvPart (.ok (Arith.lit 1)) q I A B j k) := by
  interval_cases j <;> interval_cases k <;> rfl

theorem afvPos_range : ∀ y ∈ List.range 4, ∀ x ∈ List.range 4, ¬(x < 2 ∧ y < 2) → 0 ≤ afvPos (y * 4 + x) ∧ afvPos (y * 4 + x) ≤ 1 := by decide +kernel

theorem weightsAFV_ok {F : QuantFuncs α} {dct p44 : List ℚ} {w48 w44 : List (List α)} {g48 g44 : Nat → Nat → α} (e48 : dctQuantWeights F 4 8 dct = .ok w48) (h48 : HoldsMat 4 8 g48 w48)
    (e44 : dctQuantWeights F 4 4 p44 = .ok w44) (h44 : HoldsMat 4 4 g44 w44) {p : List ℚ} (hp : p.length = 9) {bands : List α} (eb : afvBands p = .ok bands) {v : Nat → Nat → α}
    (hv : ∀ y x, y < 4 → x < 4 → ¬(x < 2 ∧ y < 2) → 0 ≤ afvPos (y * 4 + x) → afvPos (y * 4 + x) ≤ 1 → interpolate F (Arith.lit (afvPos (y * 4 + x))) bands = .ok (v y x)) :
    ∃ m, weightsAFV F dct p44 p = .ok m ∧ HoldsMat 8 8 (afvPart (Arith.lit 1) (fun i => Arith.lit (p.getD i 0)) v g48 g44) m := by
  unfold weightsAFV
  rw [e48, Res.bind_ok, e44, Res.bind_ok, eb, Res.bind_ok]
  have hpos : ∀ y x : Nat, y < 4 → x < 4 → ¬(x < 2 ∧ y < 2) → interpolate F (Arith.lit (afvPos (y * 4 + x))) bands = .ok (v y x) := by
    intro y x hy hx h
    obtain ⟨h2, h3⟩ := afvPos_range y (List.mem_range.2 hy) x (List.mem_range.2 hx) h
    exact hv y x hy hx h h2 h3
  have hq : ∀ i, i < 9 → (paramAt p i : Res α) = .ok (Arith.lit (p.getD i 0)) := by
    intro i hi
    rw [paramAt_ok (show i < p.length by omega), List.getD_eq_getElem?_getD, List.getElem?_eq_getElem (by omega)]
    rfl
  obtain ⟨m, e, hT, hm⟩ := assign_ok (α := α) (h := 8) (w := 8) (afvWrites (paramAt p) (fun y x => interpolate F (Arith.lit (afvPos (y * 4 + x))) bands) (fun y x => at2 w48 (y : Int) (x : Int))
      (fun y x => at2 w44 (y : Int) (x : Int))) zeros8 zeros8_table (by
    intro r hr
    unfold afvWrites at hr
    rcases List.mem_append.1 hr with hr | hr
    · simp only [List.mem_cons, List.not_mem_nil, or_false] at hr
      rcases hr with rfl | rfl | rfl | rfl | rfl | rfl
      · exact ⟨by dsimp only; omega, by dsimp only; omega, _, rfl⟩
      all_goals exact ⟨by dsimp only; omega, by dsimp only; omega, _, hq _ (by omega)⟩
    · obtain ⟨y, hy, hr⟩ := List.mem_flatMap.1 hr
      rw [List.mem_range] at hy
      rcases List.mem_append.1 hr with hr | hr
      · rcases List.mem_append.1 hr with hr | hr
        · obtain ⟨x, hx, rfl⟩ := List.mem_map.1 hr
          obtain ⟨hx, hf⟩ := List.mem_filter.1 hx
          rw [List.mem_range] at hx
          simp only [Bool.not_eq_true', Bool.and_eq_false_iff, decide_eq_false_iff_not] at hf
          exact ⟨by dsimp only; omega, by dsimp only; omega, _, hpos y x hy hx (by omega)⟩
        · obtain ⟨x, hx, rfl⟩ := List.mem_map.1 hr
          have hx := List.mem_range.1 (List.mem_filter.1 hx).1
          exact ⟨by dsimp only; omega, by dsimp only; omega, _, h48.at2 (by omega) (by omega)⟩
      · obtain ⟨x, hx, rfl⟩ := List.mem_map.1 hr
        have hx := List.mem_range.1 (List.mem_filter.1 hx).1
        exact ⟨by dsimp only; omega, by dsimp only; omega, _, h44.at2 (by omega) (by omega)⟩)
  refine ⟨m, e, hT, fun y x hy hx => (hm y x).2 _ ?_⟩
  rw [lastRes_afv _ _ _ _ hy hx]
  refine congrArg some ?_
  unfold afvPart
  by_cases h1 : y % 2 = 1
  · rw [if_pos h1, if_pos h1]
    by_cases h2 : y = 1 ∧ x = 0
    · rw [if_pos h2, if_pos h2]
      exact hq 0 (by omega)
    · rw [if_neg h2, if_neg h2]
      exact h48.at2 (by omega) (by omega)
  · rw [if_neg h1, if_neg h1]
    by_cases h2 : x % 2 = 1
    · rw [if_pos h2, if_pos h2]
      by_cases h3 : y = 0 ∧ x = 1
      · rw [if_pos h3, if_pos h3]
        exact hq 1 (by omega)
      · rw [if_neg h3, if_neg h3]
        exact h44.at2 (by omega) (by omega)
    · rw [if_neg h2, if_neg h2]
      by_cases h3 : y = 0 ∧ x = 0
      · rw [if_pos h3, if_pos h3]
      · rw [if_neg h3, if_neg h3]
        by_cases h4 : y = 2 ∧ x = 0
        · rw [if_pos h4, if_pos h4]
          exact hq 2 (by omega)
        · rw [if_neg h4, if_neg h4]
          by_cases h5 : y = 0 ∧ x = 2
          · rw [if_pos h5, if_pos h5]
            exact hq 3 (by omega)
          · rw [if_neg h5, if_neg h5]
            by_cases h6 : y = 2 ∧ x = 2
            · rw [if_pos h6, if_pos h6]
              exact hq 4 (by omega)
            · rw [if_neg h6, if_neg h6]
              exact hpos _ _ (by omega) (by omega) (by omega)

end

end Jxl
