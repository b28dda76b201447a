import Verif.Spec.Blocks
import Verif.Proofs.Image
import Verif.Proofs.PNGSize

/-!
# Placing transform blocks
-/
namespace Jxl
open Spec

theorem forFrom_of_ok {σ : Type} {f : Nat → σ → Res σ} (P : Nat → σ → Prop) : ∀ (n i : Nat) (s s' : σ), forFrom f n i s = .ok s' → P i s →
    (∀ k s s', i ≤ k → k < i + n → P k s → f k s = .ok s' → P (k + 1) s') → P (i + n) s'
  | 0, i, s, s', h, hp, _ => by cases h; exact hp
  | n + 1, i, s, s', h, hp, hs => by
    rw [forFrom] at h
    obtain ⟨s1, e1, h1⟩ := Res.of_bind h
    have := forFrom_of_ok P n (i + 1) s1 s' h1 (hs i s s1 (Nat.le_refl _) (by omega) hp e1) (fun k s s' a b => hs k s s' (by omega) (by omega))
    rwa [show i + (n + 1) = i + 1 + n by omega]

theorem set2_inv {α : Type} {h w : Nat} {m m' : List (List α)} (hT : Table h w m) {y x : Nat} {v : α} (hs : set2 m (y : Int) (x : Int) v = .ok m') :
    y < h ∧ x < w ∧ Table h w m' ∧ ∀ j k, sample m' j k = if j = y ∧ k = x then some v else sample m j k := by
  have hyx : y < h ∧ x < w := by
    unfold set2 at hs
    obtain ⟨r, e1, hs⟩ := Res.of_bind hs
    obtain ⟨r', e2, hs⟩ := Res.of_bind hs
    have h1 := (setAt_other hs).1
    have h2 := (setAt_other e2).1
    have h3 := idx_ok_some e1
    rw [hT.1] at h1
    have := hT.2 r (List.mem_of_getElem? h3)
    omega
  obtain ⟨m2, e, h1, h2⟩ := set2_table hT hyx.1 hyx.2 v
  rw [hs] at e
  cases e
  exact ⟨hyx.1, hyx.2, h1, h2⟩

/-- The tables after a block of `r` rows and part of another row. -/
structure Marked (h w : Nat) (tt : TransformType) (mul : Int) (m : HFMetadata) (y x r c : Nat) (m' : HFMetadata) : Prop where
  types : Table h w m'.dctSelect
  muls : Table h w m'.hfMultiplier
  sel : ∀ j k, sample m'.dctSelect j k =
    if x ≤ k ∧ y ≤ j ∧ (j < y + r ∧ k < x + tt.dctWidth.toNat ∨ j = y + r ∧ k < x + c) then some (some tt) else sample m.dctSelect j k
  mulv : ∀ j k, sample m'.hfMultiplier j k =
    if x ≤ k ∧ y ≤ j ∧ (j < y + r ∧ k < x + tt.dctWidth.toNat ∨ j = y + r ∧ k < x + c) then some mul else sample m.hfMultiplier j k

theorem Marked.zero {h w : Nat} {m : HFMetadata} (h1 : Table h w m.dctSelect) (h2 : Table h w m.hfMultiplier) (tt : TransformType) (mul : Int) (y x : Nat) :
    Marked h w tt mul m y x 0 0 m :=
  ⟨h1, h2, fun j k => by rw [if_neg (by omega)], fun j k => by rw [if_neg (by omega)]⟩

theorem Marked.row {h w : Nat} {tt : TransformType} {mul : Int} {m m' : HFMetadata} {y x r : Nat} (hm : Marked h w tt mul m y x r tt.dctWidth.toNat m') :
    Marked h w tt mul m y x (r + 1) 0 m' := by
  refine ⟨hm.types, hm.muls, fun j k => ?_, fun j k => ?_⟩
  · rw [hm.sel]
    exact if_congr (by omega) rfl rfl
  · rw [hm.mulv]
    exact if_congr (by omega) rfl rfl

/-- Marking one cell. -/
def markCell (tt : TransformType) (mul : Int) (y x : Int) (m : HFMetadata) : Res HFMetadata := do
  let d ← set2 m.dctSelect y x (some tt)
  let u ← set2 m.hfMultiplier y x mul
  .ok ⟨d, u⟩

theorem Marked.step {h w : Nat} {tt : TransformType} {mul : Int} {m m' : HFMetadata} {y x r c : Nat} (hm : Marked h w tt mul m y x r c m')
    (hc : c < tt.dctWidth.toNat) (hy : y + r < h) (hx : x + c < w) :
    ∃ m2, markCell tt mul ((y + r : Nat) : Int) ((x + c : Nat) : Int) m' = .ok m2 ∧ Marked h w tt mul m y x r (c + 1) m2 := by
  obtain ⟨d, e1, t1, s1⟩ := set2_table hm.types hy hx (some tt)
  obtain ⟨u, e2, t2, s2⟩ := set2_table hm.muls hy hx mul
  refine ⟨⟨d, u⟩, by rw [markCell, e1, Res.bind_ok, e2, Res.bind_ok], t1, t2, fun j k => ?_, fun j k => ?_⟩
  · rw [s1, hm.sel]
    by_cases hjk : j = y + r ∧ k = x + c
    · rw [if_pos hjk, if_pos (by omega)]
    · rw [if_neg hjk]
      exact if_congr (by omega) rfl rfl
  · rw [s2, hm.mulv]
    by_cases hjk : j = y + r ∧ k = x + c
    · rw [if_pos hjk, if_pos (by omega)]
    · rw [if_neg hjk]
      exact if_congr (by omega) rfl rfl

theorem Marked.of_step {h w : Nat} {tt : TransformType} {mul : Int} {m m' m2 : HFMetadata} {y x r c : Nat} (hm : Marked h w tt mul m y x r c m')
    (hc : c < tt.dctWidth.toNat) (hs : markCell tt mul ((y + r : Nat) : Int) ((x + c : Nat) : Int) m' = .ok m2) :
    y + r < h ∧ x + c < w ∧ Marked h w tt mul m y x r (c + 1) m2 := by
  have hb : y + r < h ∧ x + c < w := by
    unfold markCell at hs
    obtain ⟨d, e1, _⟩ := Res.of_bind hs
    have := set2_inv hm.types e1
    exact ⟨this.1, this.2.1⟩
  obtain ⟨m3, e, h3⟩ := hm.step hc hb.1 hb.2
  rw [hs] at e
  cases e
  exact ⟨hb.1, hb.2, h3⟩

theorem markBlock_eq (tt : TransformType) (mul : Int) (y x : Nat) (m : HFMetadata) : markBlock tt mul y x m =
    forFrom (fun iy m => forFrom (fun ix m => markCell tt mul ((y + iy : Nat) : Int) ((x + ix : Nat) : Int) m) tt.dctWidth.toNat 0 m) tt.dctHeight.toNat 0 m := by
  unfold markBlock markCell
  simp only [Int.natCast_add]

theorem markBlock_ok {h w : Nat} {m : HFMetadata} (h1 : Table h w m.dctSelect) (h2 : Table h w m.hfMultiplier) (tt : TransformType) (mul : Int) (y x : Nat)
    (hy : y + tt.dctHeight.toNat ≤ h) (hx : x + tt.dctWidth.toNat ≤ w) :
    ∃ m', markBlock tt mul y x m = .ok m' ∧ Marked h w tt mul m y x tt.dctHeight.toNat 0 m' := by
  rw [markBlock_eq]
  exact fill_loop (f := fun iy ix m => markCell tt mul ((y + iy : Nat) : Int) ((x + ix : Nat) : Int) m)
    (fun r c m' => Marked h w tt mul m y x r c m') tt.dctHeight.toNat tt.dctWidth.toNat m (Marked.zero h1 h2 tt mul y x)
    (fun r c s hr hc hm => hm.step hc (by omega) (by omega)) (fun r s _ hm => hm.row)

theorem markBlock_inv {h w : Nat} {m m' : HFMetadata} (h1 : Table h w m.dctSelect) (h2 : Table h w m.hfMultiplier) {tt : TransformType} {mul : Int} {y x : Nat}
    (ht : 0 < tt.dctHeight.toNat) (hw : 0 < tt.dctWidth.toNat) (hm : markBlock tt mul y x m = .ok m') :
    y + tt.dctHeight.toNat ≤ h ∧ x + tt.dctWidth.toNat ≤ w ∧ Marked h w tt mul m y x tt.dctHeight.toNat 0 m' := by
  rw [markBlock_eq] at hm
  have key := forFrom_of_ok (fun r m' => Marked h w tt mul m y x r 0 m' ∧ (0 < r → y + r ≤ h ∧ x + tt.dctWidth.toNat ≤ w)) _ _ _ _ hm
    ⟨Marked.zero h1 h2 tt mul y x, by omega⟩ ?_
  · rw [Nat.zero_add] at key
    exact ⟨(key.2 ht).1, (key.2 ht).2, key.1⟩
  · intro r s s' _ hr hs e
    have inner := forFrom_of_ok (fun c m' => Marked h w tt mul m y x r c m' ∧ (0 < c → y + r < h ∧ x + c ≤ w)) _ _ _ _ e ⟨hs.1, by omega⟩ ?_
    · rw [Nat.zero_add] at inner
      exact ⟨inner.1.row, fun _ => by have := inner.2 hw; omega⟩
    · intro c t t' _ hc ht e
      have := ht.1.of_step (by omega) e
      exact ⟨this.2.2, by omega⟩

/-! ## The search in a row -/

theorem rowHit_ok (row : List (Option TransformType)) : ∀ (n x : Nat), x + n ≤ row.length →
    (rowHit row n x = .ok none ∧ ∀ k, x ≤ k → k < x + n → row[k]? = some none) ∨
      ∃ k tt, x ≤ k ∧ k < x + n ∧ row[k]? = some (some tt) ∧ rowHit row n x = .ok (some tt) ∧ ∀ j, x ≤ j → j < k → row[j]? = some none
  | 0, x, _ => Or.inl ⟨rfl, by omega⟩
  | n + 1, x, h => by
    have hx : x < row.length := by omega
    have e : idx row (x : Int) = .ok row[x] := by simp [idx, hx]
    rw [rowHit, e, Res.bind_ok]
    cases hc : row[x] with
    | some tt =>
      refine Or.inr ⟨x, tt, Nat.le_refl _, by omega, by rw [List.getElem?_eq_getElem hx, hc], rfl, by omega⟩
    | none =>
      dsimp only
      have e2 : ((x : Int) + 1) = ((x + 1 : Nat) : Int) := by omega
      rw [e2]
      have hx0 : row[x]? = some none := by rw [List.getElem?_eq_getElem hx, hc]
      rcases rowHit_ok row n (x + 1) (by omega) with ⟨h1, h2⟩ | ⟨k, tt, h1, h2, h3, h4, h5⟩
      · refine Or.inl ⟨h1, fun k hk hk2 => ?_⟩
        by_cases hkx : k = x
        · rw [hkx, hx0]
        · exact h2 k (by omega) (by omega)
      · refine Or.inr ⟨k, tt, by omega, by omega, h3, h4, fun j hj hj2 => ?_⟩
        by_cases hkx : j = x
        · rw [hkx, hx0]
        · exact h5 j (by omega) hj2

/-- The blocks in a row are not empty. -/
def RowSized (row : List (Option TransformType)) : Prop := ∀ (k : Nat) (tt : TransformType), row[k]? = some (some tt) → 0 < tt.dctWidth

/-- The search always ends; it finds `n` free cells or nothing. -/
theorem rowScan_ok {row : List (Option TransformType)} (hr : RowSized row) (n : Nat) : ∀ (fuel x : Nat), 0 < fuel → row.length < fuel + x →
    rowScan row (n : Int) fuel x = .ok none ∨
      ∃ p : Nat, rowScan row (n : Int) fuel x = .ok (some (p : Int)) ∧ p < row.length ∧ p + n ≤ row.length ∧ ∀ k, p ≤ k → k < p + n → row[k]? = some none
  | 0, x, h, _ => by omega
  | fuel + 1, x, _, h => by
    rw [rowScan]
    by_cases hx : x < row.length
    · rw [if_pos (by omega)]
      by_cases hn : row.length < n + x
      · rw [if_pos (by omega)]
        exact Or.inl rfl
      · rw [if_neg (by omega), Int.toNat_natCast]
        rcases rowHit_ok row n x (by omega) with ⟨h1, h2⟩ | ⟨k, tt, h1, h2, h3, h4, h5⟩
        · rw [h1, Res.bind_ok]
          exact Or.inr ⟨x, rfl, hx, by omega, h2⟩
        · rw [h4, Res.bind_ok]
          dsimp only
          have hw := hr k tt h3
          obtain ⟨c, hc⟩ : ∃ c : Nat, tt.dctWidth = c := ⟨tt.dctWidth.toNat, by omega⟩
          rw [hc, show (x : Int) + (c : Int) = ((x + c : Nat) : Int) by omega]
          exact rowScan_ok hr n fuel (x + c) (by omega) (by omega)
    · rw [if_neg (by omega)]
      exact Or.inl rfl

/-- Every cell of the row is covered up to column `f`, the blocks fill the row without gaps, and there is room at `f`: it is found. -/
theorem rowScan_first {row : List (Option TransformType)} (n f : Nat) (hn : f + n ≤ row.length) (hf : f < row.length)
    (hfree : ∀ k, f ≤ k → k < f + n → row[k]? = some none)
    (start : Nat → Prop)
    (hstep : ∀ x, start x → x < f → ∃ tt c, row[x]? = some (some tt) ∧ tt.dctWidth = ((c : Nat) : Int) ∧ 0 < c ∧ x + c ≤ f ∧ start (x + c)) (hn0 : 0 < n) :
    ∀ (fuel x : Nat), start x → x ≤ f → f < fuel + x → rowScan row (n : Int) fuel x = .ok (some (f : Int))
  | 0, x, _, _, _ => by omega
  | fuel + 1, x, hs, hxf, hfu => by
    rw [rowScan, if_pos (by omega), if_neg (by omega), Int.toNat_natCast]
    by_cases hx : x < f
    · obtain ⟨tt, c, h1, h2, h3, h4, h5⟩ := hstep x hs hx
      rcases rowHit_ok row n x (by omega) with ⟨e1, e2⟩ | ⟨k, tt', e1, e2, e3, e4, e5⟩
      · rw [e2 x (Nat.le_refl _) (by omega)] at h1
        cases h1
      · have hk : k = x := by
          by_contra hk
          rw [e5 x (Nat.le_refl _) (by omega)] at h1
          cases h1
        rw [hk, h1] at e3
        cases e3
        rw [e4, Res.bind_ok]
        dsimp only
        rw [h2, show (x : Int) + (c : Int) = ((x + c : Nat) : Int) by omega]
        exact rowScan_first n f hn hf hfree start hstep hn0 fuel (x + c) h5 h4 (by omega)
    · obtain rfl : x = f := by omega
      rcases rowHit_ok row n x (by omega) with ⟨e1, e2⟩ | ⟨k, tt', e1, e2, e3, e4, e5⟩
      · rw [e1, Res.bind_ok]
      · rw [hfree k e1 e2] at e3
        cases e3

/-- No room in a row without free cells. -/
theorem rowScan_full {row : List (Option TransformType)} (hr : RowSized row) (n : Nat) (hn : 0 < n) (hf : ∀ k : Nat, row[k]? ≠ some none) (fuel : Nat)
    (h : row.length < fuel) : rowScan row (n : Int) fuel ((0 : Nat) : Int) = .ok none := by
  rcases rowScan_ok hr n fuel 0 (by omega) (by omega) with h1 | ⟨p, _, _, _, h2⟩
  · exact h1
  · exact absurd (h2 p (Nat.le_refl _) (by omega)) (hf p)

/-! ## Placing a block -/

theorem table_row_idx {α : Type} {h w : Nat} {m : List (List α)} (hT : Table h w m) {y : Nat} (hy : y < h) :
    ∃ r, idx m (y : Int) = .ok r ∧ r.length = w ∧ ∀ k, r[k]? = sample m y k := by
  obtain ⟨r, h1, h2⟩ := hT.row hy
  exact ⟨r, by simp [idx, h1], h2, fun k => by simp [sample, h1]⟩

/-- The types in the tables are not empty. -/
def CellsSized (m : HFMetadata) : Prop := ∀ (y x : Nat) (tt : TransformType), sample m.dctSelect y x = some (some tt) → 0 < tt.dctWidth

theorem placeBlock_inv {h w : Nat} {tt : TransformType} {mul : Int} (hw : 0 < tt.dctWidth) : ∀ (n y : Nat) (m m' : HFMetadata) (p : Point),
    Table h w m.dctSelect → CellsSized m → n + y = h → placeBlock tt mul n y m = .ok (p, m') →
    ∃ y' x' : Nat, p = ⟨y', x'⟩ ∧ y ≤ y' ∧ y' < h ∧ (∀ k, x' ≤ k → k < x' + tt.dctWidth.toNat → sample m.dctSelect y' k = some none) ∧
      markBlock tt mul y' x' m = .ok m'
  | 0, _, _, _, _, _, _, _, e => by cases e
  | n + 1, y, m, m', p, hT, hc, hn, e => by
    obtain ⟨row, h1, h2, h3⟩ := table_row_idx hT (y := y) (by omega)
    obtain ⟨c, hcw⟩ : ∃ c : Nat, tt.dctWidth = c := ⟨tt.dctWidth.toNat, by omega⟩
    rw [placeBlock, h1, Res.bind_ok] at e
    have hr : RowSized row := fun k t hk => hc y k t (by rw [← h3, hk])
    rcases rowScan_ok hr c (row.length + 1) 0 (by omega) (by omega) with s | ⟨x', s, s1, s2, s3⟩
    · rw [hcw, show (0 : Int) = ((0 : Nat) : Int) from rfl, s, Res.bind_ok] at e
      dsimp only at e
      rw [show (y : Int) + 1 = ((y + 1 : Nat) : Int) by omega] at e
      obtain ⟨y', x', a1, a2, a3, a4, a5⟩ := placeBlock_inv hw n (y + 1) m m' p hT hc (by omega) e
      exact ⟨y', x', a1, by omega, a3, a4, a5⟩
    · rw [hcw, show (0 : Int) = ((0 : Nat) : Int) from rfl, s, Res.bind_ok] at e
      dsimp only at e
      obtain ⟨m2, e1, e2⟩ := Res.of_bind e
      cases e2
      refine ⟨y, x', rfl, Nat.le_refl _, by omega, fun k k1 k2 => ?_, e1⟩
      rw [← h3]
      exact s3 k k1 (by omega)

end Jxl
