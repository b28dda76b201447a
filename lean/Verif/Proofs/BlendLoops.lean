import Verif.Spec.Blend
import Verif.Proofs.Output

/-! # The loops of blending -/
namespace Jxl
open Spec

/-- A place inside the canvas (`H × W`) and inside the frame (`Fh × Fw`). -/
structure Fits (p : Place) (H W Fh Fw sy sx oy ox n m : Nat) : Prop where
  eq : p = ⟨sy, sx, oy, ox, n, m⟩
  row : sy + n ≤ H
  col : sx + m ≤ W
  frow : oy + n ≤ Fh
  fcol : ox + m ≤ Fw
  hH : H < 2 ^ 31
  hW : W < 2 ^ 31
  hFh : Fh < 2 ^ 31
  hFw : Fw < 2 ^ 31

theorem i32_in {z : Int} (h0 : -2147483648 ≤ z) (h1 : z < 2147483648) : i32 z = z := by unfold i32; omega

theorem i32_sum {s y : Nat} (h : s + y < 2 ^ 31) : i32 ((y : Int) + (s : Int)) = ((s + y : Nat) : Int) := by
  rw [i32_in (by omega) (by omega)]
  omega

theorem toU32_of {n : Nat} (h : n < 4294967296) : toU32 (n : Int) = n := by
  unfold toU32
  omega

/-- A canvas pixel lies in the window of the place. -/
def InWindow (sy sx n m y x : Nat) : Prop := sy ≤ y ∧ y < sy + n ∧ sx ≤ x ∧ x < sx + m

instance (sy sx n m y x : Nat) : Decidable (InWindow sy sx n m y x) := by unfold InWindow; infer_instance

theorem copyRow_ok {α : Type} (d s : List α) (sx ox m : Nat) (hd : sx + m ≤ d.length) (hs : ox + m ≤ s.length) :
    ∃ d', copyRow d s (sx : Int) (ox : Int) ((ox + m : Nat) : Int) = .ok d' ∧ d'.length = d.length ∧
      ∀ x, d'[x]? = if sx ≤ x ∧ x < sx + m then s[x - sx + ox]? else d[x]? := by
  have hlen : ((s.take (ox + m)).drop ox).length = m := by rw [List.length_drop, List.length_take]; omega
  refine ⟨d.take (sx : Int).toNat ++ overlay (d.drop (sx : Int).toNat) ((s.take ((ox + m : Nat) : Int).toNat).drop (ox : Int).toNat), ?_, ?_, ?_⟩
  · unfold copyRow
    rw [if_neg (by omega), if_neg (by omega)]
  · simp only [Int.toNat_natCast, overlay, List.length_append, List.length_take, List.length_drop]
    omega
  · intro x
    simp only [Int.toNat_natCast, overlay]
    rw [List.take_of_length_le (l := (s.take (ox + m)).drop ox) (by rw [hlen, List.length_drop]; omega), hlen]
    by_cases h1 : x < sx
    · rw [if_neg (by omega), List.getElem?_append_left (by rw [List.length_take]; omega), List.getElem?_take_of_lt h1]
    · rw [List.getElem?_append_right (by rw [List.length_take]; omega), List.length_take, Nat.min_eq_left (by omega)]
      by_cases h2 : x < sx + m
      · rw [if_pos (by omega), List.getElem?_append_left (by rw [hlen]; omega), List.getElem?_drop, List.getElem?_take_of_lt (by omega)]
        congr 1
        omega
      · rw [if_neg (by omega), List.getElem?_append_right (by rw [hlen]; omega), hlen, List.drop_drop, List.getElem?_drop]
        congr 1
        omega

theorem copyPlane_ok {α : Type} {p : Place} {H W Fh Fw sy sx oy ox n m : Nat} (hp : Fits p H W Fh Fw sy sx oy ox n m) {src dest : List (List α)}
    (hs : Table Fh Fw src) (hd : Table H W dest) :
    ∃ d', copyPlane p src dest = .ok d' ∧ Table H W d' ∧
      ∀ y x, sample d' y x = if InWindow sy sx n m y x then sample src (y - sy + oy) (x - sx + ox) else sample dest y x := by
  obtain ⟨e, h1, h2, h3, h4, h5, h6, h7, h8⟩ := hp
  subst e
  have := forFrom_inv (f := fun (y : Nat) d => do
      let r ← idx d (u32 (y + toU32 (sy : Int)) : Nat)
      let s ← idx src (u32 (y + toU32 (oy : Int)) : Nat)
      let r ← copyRow r s (sx : Int) (ox : Int) (u32 (toU32 (ox : Int) + toU32 (m : Int)) : Nat)
      setAt d (u32 (y + toU32 (sy : Int)) : Nat) r)
    (fun k d => Table H W d ∧ ∀ y x, sample d y x = if InWindow sy sx k m y x then sample src (y - sy + oy) (x - sx + ox) else sample dest y x)
    n 0 dest ⟨hd, fun y x => by rw [if_neg]; unfold InWindow; omega⟩ ?_
  · obtain ⟨d', e, t, s⟩ := this
    rw [Nat.zero_add] at s
    refine ⟨d', ?_, t, s⟩
    unfold copyPlane
    simp only [toU32_of (show n < 4294967296 by omega)]
    exact e
  · rintro k d _ hk ⟨ht, hsm⟩
    obtain ⟨r, hr, hrl⟩ := ht.row (y := sy + k) (by omega)
    obtain ⟨f, hf, hfl⟩ := hs.row (y := oy + k) (by omega)
    obtain ⟨r', er, rl, rs⟩ := copyRow_ok r f sx ox m (by omega) (by omega)
    have e1 : (u32 (k + toU32 (sy : Int)) : Nat) = sy + k := by rw [toU32_of (by omega)]; unfold u32; omega
    have e2 : (u32 (k + toU32 (oy : Int)) : Nat) = oy + k := by rw [toU32_of (by omega)]; unfold u32; omega
    have e3 : (u32 (toU32 (ox : Int) + toU32 (m : Int)) : Nat) = ox + m := by rw [toU32_of (by omega), toU32_of (by omega)]; unfold u32; omega
    have hy' : sy + k < d.length := by rw [ht.1]; omega
    refine ⟨d.set (sy + k) r', ?_, ⟨by rw [List.length_set]; exact ht.1, ?_⟩, ?_⟩
    · rw [e1, e2, e3, idx_some hr, Res.bind_ok, idx_some hf, Res.bind_ok, er, Res.bind_ok]
      unfold setAt
      rw [if_neg (by omega), Int.toNat_natCast, if_pos hy']
    · intro s hs'
      rcases List.mem_or_eq_of_mem_set hs' with h | h
      · exact ht.2 s h
      · rw [h, rl, hrl]
    · intro y x
      by_cases hy : y = sy + k
      · subst hy
        have := hsm (sy + k) x
        rw [if_neg (by unfold InWindow; omega)] at this
        unfold sample at this ⊢
        rw [List.getElem?_set_self hy', Option.bind_some, rs]
        by_cases hx : sx ≤ x ∧ x < sx + m
        · rw [if_pos hx, if_pos (by unfold InWindow; omega), show sy + k - sy + oy = oy + k by omega, hf, Option.bind_some]
        · rw [if_neg hx, if_neg (by unfold InWindow; omega), ← this, hr, Option.bind_some]
      · have := hsm y x
        have hi : InWindow sy sx (k + 1) m y x ↔ InWindow sy sx k m y x := by unfold InWindow; omega
        simp only [hi]
        rw [← this]
        unfold sample
        rw [List.getElem?_set_ne (by omega)]

/-- What has been written when rows before `k` are done, and `j` pixels of row `k`. -/
def Written (sy sx n m k j y x : Nat) : Prop := InWindow sy sx k m y x ∨ (y = sy + k ∧ k < n ∧ sx ≤ x ∧ x < sx + j)

instance (sy sx n m k j y x : Nat) : Decidable (Written sy sx n m k j y x) := by unfold Written; infer_instance

theorem written_none (sy sx n m y x : Nat) : ¬ Written sy sx n m 0 0 y x := by
  rintro (h | h)
  · unfold InWindow at h; omega
  · omega

theorem written_all (sy sx n m y x : Nat) : Written sy sx n m n 0 y x ↔ InWindow sy sx n m y x := by
  refine ⟨?_, Or.inl⟩
  rintro (h | h)
  · exact h
  · omega

theorem written_fresh {sy sx n m y x : Nat} : ¬ Written sy sx n m y x (sy + y) (sx + x) := by
  rintro (h | h)
  · unfold InWindow at h; omega
  · omega

theorem written_here {sy sx n m y x : Nat} (hy : y < n) : Written sy sx n m y (x + 1) (sy + y) (sx + x) := Or.inr ⟨rfl, hy, by omega, by omega⟩

theorem written_step {sy sx n m y x j k : Nat} (h : ¬ (j = sy + y ∧ k = sx + x)) : Written sy sx n m y (x + 1) j k ↔ Written sy sx n m y x j k := by
  constructor
  · rintro (h1 | h1)
    · exact Or.inl h1
    · exact Or.inr ⟨h1.1, h1.2.1, h1.2.2.1, by omega⟩
  · rintro (h1 | h1)
    · exact Or.inl h1
    · exact Or.inr ⟨h1.1, h1.2.1, h1.2.2.1, by omega⟩

theorem written_row {sy sx n m y j k : Nat} (hy : y < n) : Written sy sx n m y m j k ↔ Written sy sx n m (y + 1) 0 j k := by
  constructor
  · rintro (h1 | h1)
    · left
      unfold InWindow at h1 ⊢
      omega
    · left
      unfold InWindow
      omega
  · rintro (h1 | h1)
    · unfold InWindow at h1
      by_cases hj : j = sy + y
      · exact Or.inr ⟨hj, hy, by omega, by omega⟩
      · left
        unfold InWindow
        omega
    · omega

/-- The pixel loop: each pixel is read at most before it is written, so `f` may look at the pixel of the plane that is written. -/
theorem blendLoop_ok {α : Type} {p : Place} {H W Fh Fw sy sx oy ox n m : Nat} (hp : Fits p H W Fh Fw sy sx oy ox n m)
    (f : List (List α) → Int → Int → Int → Int → Res α) (g : Nat → Nat → α) {dest : List (List α)} (hd : Table H W dest)
    (hf : ∀ d y x, y < n → x < m → sample d (sy + y) (sx + x) = sample dest (sy + y) (sx + x) →
      f d ((sy + y : Nat) : Int) ((sx + x : Nat) : Int) ((oy + y : Nat) : Int) ((ox + x : Nat) : Int) = .ok (g (sy + y) (sx + x))) :
    ∃ d', blendLoop p f dest = .ok d' ∧ Table H W d' ∧
      ∀ y x, sample d' y x = if InWindow sy sx n m y x then some (g y x) else sample dest y x := by
  obtain ⟨e, h1, h2, h3, h4, h5, h6, h7, h8⟩ := hp
  subst e
  have := fill_loop (f := fun (y x : Nat) d => do
      let v ← f d (i32 (y + (sy : Int))) (i32 (x + (sx : Int))) (i32 (y + (oy : Int))) (i32 (x + (ox : Int)))
      set2 d (i32 (y + (sy : Int))) (i32 (x + (sx : Int))) v)
    (fun k j d => Table H W d ∧ ∀ y x, sample d y x = if Written sy sx n m k j y x then some (g y x) else sample dest y x) n m dest
    ⟨hd, fun y x => by rw [if_neg (written_none sy sx n m y x)]⟩ ?_ ?_
  · obtain ⟨d', e, t, s⟩ := this
    refine ⟨d', ?_, t, fun y x => ?_⟩
    · unfold blendLoop
      simp only [Int.toNat_natCast]
      exact e
    · rw [s]
      simp only [written_all]
  · rintro y x d hy hx ⟨ht, hsm⟩
    have b1 : sy + y < H := by omega
    have b2 : sx + x < W := by omega
    have b3 : oy + y < Fh := by omega
    have b4 : ox + x < Fw := by omega
    have e1 := i32_sum (show sy + y < 2 ^ 31 from Nat.lt_trans b1 h5)
    have e2 := i32_sum (show sx + x < 2 ^ 31 from Nat.lt_trans b2 h6)
    have e3 := i32_sum (show oy + y < 2 ^ 31 from Nat.lt_trans b3 h7)
    have e4 := i32_sum (show ox + x < 2 ^ 31 from Nat.lt_trans b4 h8)
    have hv := hf d y x hy hx (by rw [hsm, if_neg written_fresh])
    obtain ⟨d1, ed, td, sd⟩ := set2_table ht (y := sy + y) (x := sx + x) b1 b2 (g (sy + y) (sx + x))
    refine ⟨d1, ?_, td, fun j k => ?_⟩
    · rw [e1, e2, e3, e4, hv, Res.bind_ok, ed]
    · rw [sd, hsm]
      by_cases hjk : j = sy + y ∧ k = sx + x
      · rw [if_pos hjk, hjk.1, hjk.2, if_pos (written_here hy)]
      · rw [if_neg hjk]
        simp only [written_step hjk]
  · rintro y d hy ⟨ht, hsm⟩
    refine ⟨ht, fun j k => ?_⟩
    rw [hsm]
    simp only [written_row hy]

/-- Where a frame overlaps the canvas, or touches it from outside, and is not above it without being to the left nor the other way round, the
window is the covered part of the canvas. -/
theorem blendPlace_ok (r : Rectangle) (W H : Nat) (hW : W < 2 ^ 30) (hH : H < 2 ^ 30) (hw : r.width < 2 ^ 30) (hh : r.height < 2 ^ 30)
    (hq : (0 ≤ r.x ∧ 0 ≤ r.y) ∨ (r.x < 0 ∧ r.y ≤ 0)) (hx0 : r.x ≤ W) (hy0 : r.y ≤ H) (hx1 : 0 ≤ r.x + r.width) (hy1 : 0 ≤ r.y + r.height) :
    ∃ sy sx oy ox n m : Nat, Fits (blendPlace r ⟨W, H⟩) H W r.height r.width sy sx oy ox n m ∧
      (∀ y x, y < H → x < W → (InWindow sy sx n m y x ↔ Covered r y x)) ∧
      (∀ y, sy ≤ y → y - sy + oy = frameRow r y) ∧ (∀ x, sx ≤ x → x - sx + ox = frameCol r x) := by
  have e1 : i32 (r.x + i32 r.width) = r.x + r.width := by rw [i32_in (z := r.width) (by omega) (by omega), i32_in (by omega) (by omega)]
  have e2 : i32 (r.y + i32 r.height) = r.y + r.height := by rw [i32_in (z := r.height) (by omega) (by omega), i32_in (by omega) (by omega)]
  have e3 : i32 (W : Int) = W := i32_in (by omega) (by omega)
  have e4 : i32 (H : Int) = H := i32_in (by omega) (by omega)
  rcases hq with ⟨hx, hy⟩ | ⟨hx, hy⟩
  · refine ⟨r.y.toNat, r.x.toNat, 0, 0, (min (r.y + r.height) H - r.y).toNat, (min (r.x + r.width) W - r.x).toNat, ⟨?_, ?_, ?_, ?_, ?_, ?_, ?_, ?_, ?_⟩, ?_, ?_, ?_⟩
    · unfold blendPlace Rectangle.lowerCorner
      simp only [if_pos hx, e1, e2, e3, e4, Int.sub_self]
      rw [i32_in (z := 0) (by omega) (by omega), i32_in (by omega) (by omega), i32_in (by omega) (by omega)]
      simp only [Place.mk.injEq]
      omega
    · omega
    · omega
    · omega
    · omega
    · omega
    · omega
    · omega
    · omega
    · intro y x hy' hx'
      unfold InWindow Covered
      omega
    · intro y hy'
      unfold frameRow
      omega
    · intro x hx'
      unfold frameCol
      omega
  · refine ⟨0, 0, (-r.y).toNat, (-r.x).toNat, (min (r.y + r.height) H).toNat, (min (r.x + r.width) W).toNat, ⟨?_, ?_, ?_, ?_, ?_, ?_, ?_, ?_, ?_⟩, ?_, ?_, ?_⟩
    · unfold blendPlace Rectangle.lowerCorner
      simp only [if_neg (show ¬ 0 ≤ r.x by omega), e1, e2, e3, e4]
      rw [i32_in (z := 0 - r.y) (by omega) (by omega), i32_in (z := 0 - r.x) (by omega) (by omega), i32_in (by omega) (by omega), i32_in (by omega) (by omega)]
      simp only [Place.mk.injEq]
      omega
    · omega
    · omega
    · omega
    · omega
    · omega
    · omega
    · omega
    · omega
    · intro y x hy' hx'
      unfold InWindow Covered
      omega
    · intro y hy'
      unfold frameRow
      omega
    · intro x hx'
      unfold frameCol
      omega

theorem Fits.mono {p : Place} {H W Fh Fw Fh' Fw' sy sx oy ox n m : Nat} (h : Fits p H W Fh Fw sy sx oy ox n m) (h1 : Fh ≤ Fh') (h2 : Fw ≤ Fw')
    (h3 : Fh' < 2 ^ 31) (h4 : Fw' < 2 ^ 31) : Fits p H W Fh' Fw' sy sx oy ox n m :=
  ⟨h.eq, h.row, h.col, by have := h.frow; omega, by have := h.fcol; omega, h.hH, h.hW, h3, h4⟩

end Jxl
