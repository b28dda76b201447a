import Verif.Proofs.Orders
import Mathlib.Tactic.Ring

/-!
# The natural order is the one of the format
-/
namespace Jxl
open Spec

/-- A block of `8 * h` by `8 * w` pixels. -/
structure Dims (tt : TransformType) (h w : Nat) : Prop where
  height : tt.pixelHeight = ((8 * h : Nat) : Int)
  width : tt.pixelWidth = ((8 * w : Nat) : Int)
  hpos : 0 < h
  wpos : 0 < w

theorem Dims.dct {tt : TransformType} {h w : Nat} (d : Dims tt h w) : tt.dctHeight = h ∧ tt.dctWidth = w := by
  unfold TransformType.dctHeight TransformType.dctWidth
  rw [d.height, d.width]
  omega

theorem Dims.sized {tt : TransformType} {h w : Nat} (d : Dims tt h w) : Sized tt := by
  obtain ⟨h1, h2⟩ := d.dct
  have := d.hpos; have := d.wpos
  exact ⟨by omega, by omega⟩

theorem Dims.perm {tt : TransformType} {h w : Nat} (d : Dims tt h w) : (naturalOrder tt).Perm (rowMajor (8 * h) (8 * w)) := by
  have := naturalOrder_perm tt
  rwa [d.height, d.width, Int.toNat_natCast, Int.toNat_natCast] at this

/-- The test for low frequencies. -/
def isLow (h w : Nat) (p : Point) : Bool := decide (p.y < h ∧ p.x < w)

theorem natural_split {tt : TransformType} {h w : Nat} (d : Dims tt h w) :
    naturalOrder tt = rowMajor h w ++ (naturalOrder tt).filter (fun p => !isLow h w p) := by
  obtain ⟨e1, e2⟩ := d.dct
  have hcorner : (rowMajor h w).Perm ((naturalOrder tt).filter (isLow h w)) := by
    rw [List.perm_ext_iff_of_nodup (rowMajor_nodup h w) (((d.perm.nodup_iff).2 (rowMajor_nodup _ _)).filter _)]
    intro p
    rw [List.mem_filter, d.perm.mem_iff, mem_rowMajor, mem_rowMajor]
    unfold InBlock isLow
    rw [decide_eq_true_eq]
    omega
  refine (naturalOrder_unique tt d.sized _ ?_ ?_).symm
  · refine List.Perm.trans ?_ (naturalOrder_perm tt)
    exact (hcorner.append_right _).trans (List.filter_append_perm _ _)
  · rw [List.pairwise_append]
    refine ⟨?_, (naturalOrder_sorted tt).filter _, ?_⟩
    · have := (rowMajor_lt h w)
      refine List.Pairwise.imp_of_mem ?_ this
      intro a b ha hb hab
      have ha' := mem_rowMajor.1 ha
      have hb' := mem_rowMajor.1 hb
      unfold InBlock at ha' hb'
      rw [naturalCmp_le]
      unfold rank lexLe
      rw [if_pos (by omega), if_pos (by omega)]
      dsimp only
      omega
    · intro a ha b hb
      have ha' := mem_rowMajor.1 ha
      have hb' := (List.mem_filter.1 hb).2
      unfold InBlock at ha'
      simp only [isLow, Bool.not_eq_true', decide_eq_false_iff_not] at hb'
      rw [naturalCmp_le]
      unfold rank lexLe
      rw [if_pos (by omega), if_neg (by omega)]
      dsimp only
      omega

theorem scale_eq {m d : Nat} (hd : 0 < d) : ((m : Int) / (d : Int)) = ((8 * m / (8 * d) : Nat) : Int) := by
  rw [Nat.mul_div_mul_left m d (by omega)]
  rfl

theorem before_of_rank {tt : TransformType} {h w : Nat} (d : Dims tt h w) {a b : Point} (ha : isLow h w a = false) (hb : isLow h w b = false)
    (hle : naturalCmp tt a b ≤ 0) (hne : a ≠ b) : Before (8 * h) (8 * w) a b := by
  obtain ⟨e1, e2⟩ := d.dct
  have hp := d.hpos; have wp := d.wpos
  rw [naturalCmp_le] at hle
  have hnr : rank tt a ≠ rank tt b := fun h => hne (rank_inj tt d.sized h)
  simp only [isLow, decide_eq_false_iff_not] at ha hb
  have hmax : max tt.dctHeight tt.dctWidth = ((max h w : Nat) : Int) := by omega
  have s1 : max tt.dctHeight tt.dctWidth / tt.dctHeight = ((max (8 * h) (8 * w) / (8 * h) : Nat) : Int) := by
    rw [hmax, e1, scale_eq hp, show 8 * max h w = max (8 * h) (8 * w) by omega]
  have s2 : max tt.dctHeight tt.dctWidth / tt.dctWidth = ((max (8 * h) (8 * w) / (8 * w) : Nat) : Int) := by
    rw [hmax, e2, scale_eq wp, show 8 * max h w = max (8 * h) (8 * w) by omega]
  have hpos : 0 < max (8 * h) (8 * w) / (8 * w) := Nat.div_pos (by omega) (by omega)
  unfold rank at hle hnr
  rw [e1, e2] at hle hnr
  rw [if_neg ha, if_neg hb] at hle hnr
  rw [← e1, ← e2] at hle hnr
  dsimp only at hle hnr
  rw [s1, s2] at hle hnr
  unfold Before diagonal
  generalize hhs : max (8 * h) (8 * w) / (8 * h) = hs at *
  generalize hws : max (8 * h) (8 * w) / (8 * w) = ws at *
  have hmono : ∀ p q : Int, p * (ws : Int) < q * ws → p < q := fun p q hpq => Int.lt_of_mul_lt_mul_right hpq (by omega)
  have hx1 := hmono a.x b.x
  have hx2 := hmono b.x a.x
  generalize a.y * (hs : Int) = ay at *
  generalize b.y * (hs : Int) = b_y at *
  generalize a.x * (ws : Int) = ax at *
  generalize b.x * (ws : Int) = bx at *
  unfold lexLe at hle
  dsimp only at hle
  by_cases hlt : ay + ax < b_y + bx
  · exact Or.inl hlt
  · have heq : ay + ax = b_y + bx := by
      split at hle <;> split at hle <;> omega
    refine Or.inr ⟨heq, ?_⟩
    have hkey : ¬ (ax = bx) := by
      intro h'
      apply hnr
      rw [heq, show ay = b_y by omega, h']
    rw [← heq] at hle
    by_cases hpar : (ay + ax) % 2 = 0
    · rw [if_pos hpar]
      rw [if_neg (by omega), if_neg (by omega)] at hle
      exact hx1 (by omega)
    · rw [if_neg hpar]
      rw [if_pos (by omega), if_pos (by omega)] at hle
      exact hx2 (by omega)

/-- The natural order of the code is the natural order of the format. -/
theorem naturalOrder_natural {tt : TransformType} {h w : Nat} (d : Dims tt h w) : IsNatural (8 * h) (8 * w) (naturalOrder tt) := by
  have hsp := natural_split d
  have hnd : (naturalOrder tt).Nodup := (d.perm.nodup_iff).2 (rowMajor_nodup _ _)
  have e8 : 8 * h / 8 = h := by omega
  have w8 : 8 * w / 8 = w := by omega
  refine ⟨⟨hnd, fun p => by rw [d.perm.mem_iff, mem_rowMajor]⟩, ?_, ?_⟩
  · unfold CornerFirst
    rw [e8, w8]
    intro y x hy hx
    rw [hsp, List.getElem?_append_left, rowMajor_getElem? h w y x hy hx]
    rw [rowMajor_length]
    have : (y + 1) * w ≤ h * w := Nat.mul_le_mul_right w hy
    rw [Nat.add_mul] at this
    omega
  · rw [e8, w8]
    have hdrop : (naturalOrder tt).drop (h * w) = (naturalOrder tt).filter (fun p => !isLow h w p) := by
      conv_lhs => rw [hsp]
      rw [List.drop_left' (rowMajor_length h w)]
    rw [hdrop]
    have hboth := (List.Pairwise.and (naturalOrder_sorted tt) hnd).filter (fun p => !isLow h w p)
    refine List.Pairwise.imp_of_mem ?_ hboth
    intro a b ha hb hab
    exact before_of_rank d (by simpa using (List.mem_filter.1 ha).2) (by simpa using (List.mem_filter.1 hb).2) hab.1 hab.2

theorem natural_length {tt : TransformType} {h w : Nat} (d : Dims tt h w) : (naturalOrder tt).length = 64 * (h * w) := by
  rw [d.perm.length_eq, rowMajor_length]
  ring

end Jxl
