import Verif.Spec.Image
import Verif.Proofs.Transforms

/-! # Tables and nested loops -/
namespace Jxl

theorem Table.row {α : Type} {h w : Nat} {m : List (List α)} (hT : Table h w m) {y : Nat} (hy : y < h) :
    ∃ r, m[y]? = some r ∧ r.length = w := by
  have hy' : y < m.length := by rw [hT.1]; exact hy
  exact ⟨m[y], List.getElem?_eq_getElem hy', hT.2 _ (List.getElem_mem hy')⟩

theorem Table.sample {α : Type} {h w : Nat} {m : List (List α)} (hT : Table h w m) {y x : Nat} (hy : y < h) (hx : x < w) :
    ∃ v, sample m y x = some v := by
  obtain ⟨r, hr, hl⟩ := hT.row hy
  refine ⟨r[x]'(by omega), ?_⟩
  simp only [Jxl.sample, hr, Option.bind_some]
  exact List.getElem?_eq_getElem _

theorem Table.sample_none {α : Type} {h w : Nat} {m : List (List α)} (hT : Table h w m) {y x : Nat} (hyx : h ≤ y ∨ w ≤ x) :
    Jxl.sample m y x = none := by
  by_cases hy : y < h
  · obtain ⟨r, hr, hl⟩ := hT.row hy
    simp only [Jxl.sample, hr, Option.bind_some]
    exact List.getElem?_eq_none (by omega)
  · have : m[y]? = none := List.getElem?_eq_none (by rw [hT.1]; omega)
    simp only [Jxl.sample, this, Option.bind_none]

theorem Table.ext {α : Type} {h w : Nat} {a b : List (List α)} (ha : Table h w a) (hb : Table h w b)
    (hs : ∀ y x, y < h → x < w → Jxl.sample a y x = Jxl.sample b y x) : a = b := by
  apply List.ext_getElem?
  intro y
  by_cases hy : y < h
  · obtain ⟨r, hr, hl⟩ := ha.row hy
    obtain ⟨s, hs', hl'⟩ := hb.row hy
    rw [hr, hs']
    congr 1
    apply List.ext_getElem?
    intro x
    by_cases hx : x < w
    · have := hs y x hy hx
      simpa only [Jxl.sample, hr, hs', Option.bind_some] using this
    · rw [List.getElem?_eq_none (by omega), List.getElem?_eq_none (by omega)]
  · rw [List.getElem?_eq_none (by rw [ha.1]; omega), List.getElem?_eq_none (by rw [hb.1]; omega)]

theorem at2_sample {α : Type} {m : List (List α)} {y x : Nat} {v : α} (h : sample m y x = some v) : at2 m (y : Int) (x : Int) = .ok v := by
  unfold sample at h
  cases hm : m[y]? with
  | none => rw [hm] at h; cases h
  | some r =>
    rw [hm] at h
    simp only [Option.bind_some] at h
    have h1 : idx m (y : Int) = .ok r := by simp [idx, hm]
    have h2 : idx r (x : Int) = .ok v := by simp [idx, h]
    rw [at2, h1, Res.bind_ok, h2]

theorem makeMatrix_table {α : Type} (z : α) (h w : Nat) : makeMatrix z (h : Int) (w : Int) = .ok (List.replicate h (List.replicate w z)) := by
  unfold makeMatrix
  rw [if_neg (by omega), if_neg (by omega)]
  rfl

theorem table_replicate {α : Type} (z : α) (h w : Nat) : Table h w (List.replicate h (List.replicate w z)) := by
  refine ⟨List.length_replicate, fun r hr => ?_⟩
  rw [(List.mem_replicate.1 hr).2, List.length_replicate]

/-- Writing one sample. -/
theorem set2_table {α : Type} {h w : Nat} {m : List (List α)} (hT : Table h w m) {y x : Nat} (hy : y < h) (hx : x < w) (v : α) :
    ∃ m', set2 m (y : Int) (x : Int) v = .ok m' ∧ Table h w m' ∧
      ∀ j k, sample m' j k = if j = y ∧ k = x then some v else sample m j k := by
  obtain ⟨r, hr, hl⟩ := hT.row hy
  have hy' : y < m.length := by rw [hT.1]; exact hy
  have h1 : idx m (y : Int) = .ok r := by simp [idx, hr]
  have h2 : setAt r (x : Int) v = .ok (r.set x v) := by
    unfold setAt
    rw [if_neg (by omega), Int.toNat_natCast, if_pos (by omega)]
  have h3 : setAt m (y : Int) (r.set x v) = .ok (m.set y (r.set x v)) := by
    unfold setAt
    rw [if_neg (by omega), Int.toNat_natCast, if_pos hy']
  refine ⟨m.set y (r.set x v), ?_, ⟨?_, ?_⟩, ?_⟩
  · rw [set2, h1, Res.bind_ok, h2, Res.bind_ok, h3]
  · rw [List.length_set]; exact hT.1
  · intro s hs
    rcases List.mem_or_eq_of_mem_set hs with h | h
    · exact hT.2 s h
    · rw [h, List.length_set]; exact hl
  · intro j k
    unfold sample
    by_cases hj : j = y
    · subst hj
      rw [List.getElem?_set_self hy', hr]
      simp only [Option.bind_some, true_and]
      by_cases hk : k = x
      · subst hk
        rw [if_pos rfl, List.getElem?_set_self (by omega)]
      · rw [if_neg hk, List.getElem?_set_ne (by omega)]
    · rw [if_neg (by omega), List.getElem?_set_ne (by omega)]

/-- The inner loop. -/
theorem scatter_row {α : Type} {H W w y : Nat} (at_ : Nat → Nat → Int × Int) (f : Nat → Nat → Res α) (Y X : Nat → Nat) (g : Nat → α)
    (hat : ∀ x, x < w → at_ y x = ((Y x : Int), (X x : Int))) (hin : ∀ x, x < w → Y x < H ∧ X x < W)
    (hf : ∀ x, x < w → f y x = .ok (g x)) (hinj : ∀ x x', x < w → x' < w → Y x = Y x' → X x = X x' → x = x') :
    ∀ (n i : Nat) (d : List (List α)), n + i = w → Table H W d →
      ∃ d', forFrom (fun x d => do let v ← f y x; set2 d (at_ y x).1 (at_ y x).2 v) n i d = .ok d' ∧ Table H W d' ∧
        (∀ x, i ≤ x → x < w → sample d' (Y x) (X x) = some (g x)) ∧
        (∀ j k, (∀ x, i ≤ x → x < w → ¬ (Y x = j ∧ X x = k)) → sample d' j k = sample d j k)
  | 0, i, d, hn, hd => ⟨d, rfl, hd, fun x h1 h2 => by omega, fun _ _ _ => rfl⟩
  | n + 1, i, d, hn, hd => by
    have hi : i < w := by omega
    obtain ⟨d1, e1, t1, s1⟩ := set2_table hd (hin i hi).1 (hin i hi).2 (g i)
    obtain ⟨d2, e2, t2, s2, s2'⟩ := scatter_row at_ f Y X g hat hin hf hinj n (i + 1) d1 (by omega) t1
    refine ⟨d2, ?_, t2, ?_, ?_⟩
    · rw [forFrom]
      simp only [hf i hi, hat i hi, Res.bind_ok, e1]
      exact e2
    · intro x h1 h2
      by_cases hx : x = i
      · subst hx
        rw [s2' (Y x) (X x) (fun x' h3 h4 h5 => by
          have := hinj x' x h4 h2 h5.1 h5.2
          omega), s1, if_pos ⟨rfl, rfl⟩]
      · exact s2 x (by omega) h2
    · intro j k hjk
      rw [s2' j k (fun x h1 h2 => hjk x (by omega) h2), s1, if_neg]
      intro h
      exact hjk i (Nat.le_refl _) hi ⟨h.1.symm, h.2.symm⟩

/-- The outer loop, from row `i` on. -/
theorem scatter_rows {α : Type} {H W h w : Nat} (at_ : Nat → Nat → Int × Int) (f : Nat → Nat → Res α) (Y X : Nat → Nat → Nat) (g : Nat → Nat → α)
    (hat : ∀ y x, y < h → x < w → at_ y x = ((Y y x : Int), (X y x : Int))) (hin : ∀ y x, y < h → x < w → Y y x < H ∧ X y x < W)
    (hf : ∀ y x, y < h → x < w → f y x = .ok (g y x))
    (hinj : ∀ y x y' x', y < h → x < w → y' < h → x' < w → Y y x = Y y' x' → X y x = X y' x' → y = y' ∧ x = x') :
    ∀ (n i : Nat) (d : List (List α)), n + i = h → Table H W d →
      ∃ d', forFrom (fun y d => forFrom (fun x d => do let v ← f y x; set2 d (at_ y x).1 (at_ y x).2 v) w 0 d) n i d = .ok d' ∧ Table H W d' ∧
        (∀ y x, i ≤ y → y < h → x < w → sample d' (Y y x) (X y x) = some (g y x)) ∧
        (∀ j k, (∀ y x, i ≤ y → y < h → x < w → ¬ (Y y x = j ∧ X y x = k)) → sample d' j k = sample d j k)
  | 0, i, d, hn, hd => ⟨d, rfl, hd, fun y x h1 h2 => by omega, fun _ _ _ => rfl⟩
  | n + 1, i, d, hn, hd => by
    have hi : i < h := by omega
    obtain ⟨d1, e1, t1, s1, s1'⟩ := scatter_row (H := H) (W := W) (w := w) (y := i) at_ f (Y i) (X i) (g i) (hat i · hi) (hin i · hi) (hf i · hi)
      (fun x x' hx hx' h1 h2 => (hinj i x i x' hi hx hi hx' h1 h2).2) w 0 d (by omega) hd
    obtain ⟨d2, e2, t2, s2, s2'⟩ := scatter_rows at_ f Y X g hat hin hf hinj n (i + 1) d1 (by omega) t1
    refine ⟨d2, ?_, t2, ?_, ?_⟩
    · rw [forFrom]
      simp only [e1, Res.bind_ok]
      exact e2
    · intro y x h1 h2 h3
      by_cases hy : y = i
      · subst hy
        rw [s2' (Y y x) (X y x) (fun y' x' h4 h5 h6 h7 => by
          have := hinj y' x' y x h5 h6 h2 h3 h7.1 h7.2
          omega)]
        exact s1 x (Nat.zero_le _) h3
      · exact s2 y x (by omega) h2 h3
    · intro j k hjk
      rw [s2' j k (fun y x h1 h2 h3 => hjk y x (by omega) h2 h3), s1' j k (fun x _ h2 => hjk i x (Nat.le_refl _) hi h2)]

theorem scatterTo_ok {α : Type} {H W h w : Nat} (at_ : Nat → Nat → Int × Int) (f : Nat → Nat → Res α) (Y X : Nat → Nat → Nat) (g : Nat → Nat → α)
    (d : List (List α)) (hd : Table H W d)
    (hat : ∀ y x, y < h → x < w → at_ y x = ((Y y x : Int), (X y x : Int))) (hin : ∀ y x, y < h → x < w → Y y x < H ∧ X y x < W)
    (hf : ∀ y x, y < h → x < w → f y x = .ok (g y x))
    (hinj : ∀ y x y' x', y < h → x < w → y' < h → x' < w → Y y x = Y y' x' → X y x = X y' x' → y = y' ∧ x = x') :
    ∃ d', scatterTo h w at_ f d = .ok d' ∧ Table H W d' ∧
      (∀ y x, y < h → x < w → sample d' (Y y x) (X y x) = some (g y x)) ∧
      (∀ j k, (∀ y x, y < h → x < w → ¬ (Y y x = j ∧ X y x = k)) → sample d' j k = sample d j k) := by
  obtain ⟨d', e, t, s, s'⟩ := scatter_rows (H := H) (W := W) at_ f Y X g hat hin hf hinj h 0 d (by omega) hd
  exact ⟨d', e, t, fun y x => s y x (Nat.zero_le _), fun j k hjk => s' j k (fun y x _ => hjk y x)⟩

theorem fillLoop_ok {α : Type} {h w : Nat} (f : Nat → Nat → Res α) (g : Nat → Nat → α) (d : List (List α)) (hd : Table h w d)
    (hf : ∀ y x, y < h → x < w → f y x = .ok (g y x)) :
    ∃ d', fillLoop h w f d = .ok d' ∧ Table h w d' ∧ ∀ y x, y < h → x < w → sample d' y x = some (g y x) := by
  obtain ⟨d', e, t, s, _⟩ := scatterTo_ok (H := h) (W := w) (h := h) (w := w) (fun y x => ((y : Int), (x : Int))) f (fun y _ => y) (fun _ x => x) g d hd
    (fun _ _ _ _ => rfl) (fun y x hy hx => ⟨hy, hx⟩) hf (fun y x y' x' _ _ _ _ h1 h2 => ⟨h1, h2⟩)
  exact ⟨d', e, t, s⟩

end Jxl
