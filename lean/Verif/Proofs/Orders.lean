import Verif.Spec.Orders
import Verif.Props.TOC

/-!
# Coefficient orders: the comparison is a linear order
-/
namespace Jxl
open Spec

/-- The keys the comparison compares one after the other. -/
def rank (tt : TransformType) (p : Point) : Int × Int × Int :=
  if p.y < tt.dctHeight ∧ p.x < tt.dctWidth then (0, p.y, p.x)
  else
    let sy := p.y * (max tt.dctHeight tt.dctWidth / tt.dctHeight)
    let sx := p.x * (max tt.dctHeight tt.dctWidth / tt.dctWidth)
    (1, sy + sx, if (sy + sx) % 2 = 1 then -(sx - sy) else sx - sy)

/-- Lexicographic order. -/
def lexLe (a b : Int × Int × Int) : Prop := a.1 < b.1 ∨ a.1 = b.1 ∧ (a.2.1 < b.2.1 ∨ a.2.1 = b.2.1 ∧ a.2.2 ≤ b.2.2)

theorem lexLe_trans {a b c : Int × Int × Int} (h1 : lexLe a b) (h2 : lexLe b c) : lexLe a c := by
  unfold lexLe at *; omega

theorem lexLe_total (a b : Int × Int × Int) : lexLe a b ∨ lexLe b a := by
  unfold lexLe; omega

theorem lexLe_antisymm {a b : Int × Int × Int} (h1 : lexLe a b) (h2 : lexLe b a) : a = b := by
  obtain ⟨a1, a2, a3⟩ := a
  obtain ⟨b1, b2, b3⟩ := b
  unfold lexLe at *
  dsimp only at *
  have e1 : a1 = b1 := by omega
  have e2 : a2 = b2 := by omega
  have e3 : a3 = b3 := by omega
  rw [e1, e2, e3]

theorem naturalCmp_le (tt : TransformType) (a b : Point) : naturalCmp tt a b ≤ 0 ↔ lexLe (rank tt a) (rank tt b) := by
  unfold naturalCmp rank lexLe
  dsimp only
  by_cases ha : a.y < tt.dctHeight ∧ a.x < tt.dctWidth
  · by_cases hb : b.y < tt.dctHeight ∧ b.x < tt.dctWidth
    · rw [if_neg (by simp [hb]), if_neg (by simp [ha]), if_pos ⟨ha, hb⟩, if_pos ha, if_pos hb]
      dsimp only
      split <;> omega
    · rw [if_pos ⟨ha, hb⟩, if_pos ha, if_neg hb]
      dsimp only
      omega
  · by_cases hb : b.y < tt.dctHeight ∧ b.x < tt.dctWidth
    · rw [if_neg (by simp [ha]), if_pos ⟨ha, hb⟩, if_neg ha, if_pos hb]
      dsimp only
      omega
    · rw [if_neg (by simp [ha]), if_neg (by simp [hb]), if_neg (by simp [ha]), if_neg ha, if_neg hb]
      dsimp only
      generalize a.y * (max tt.dctHeight tt.dctWidth / tt.dctHeight) = p
      generalize a.x * (max tt.dctHeight tt.dctWidth / tt.dctWidth) = q
      generalize b.y * (max tt.dctHeight tt.dctWidth / tt.dctHeight) = r
      generalize b.x * (max tt.dctHeight tt.dctWidth / tt.dctWidth) = s
      split
      · omega
      · split <;> split <;> omega

/-- A block has a positive size. -/
def Sized (tt : TransformType) : Prop := 0 < tt.dctHeight ∧ 0 < tt.dctWidth

theorem stretch_pos {m d : Int} (hd : 0 < d) (h : d ≤ m) : 0 < m / d := by
  have := Int.ediv_le_ediv hd h
  rw [Int.ediv_self (by omega)] at this
  omega

theorem rank_inj (tt : TransformType) (ht : Sized tt) {a b : Point} (h : rank tt a = rank tt b) : a = b := by
  obtain ⟨ay, ax⟩ := a
  obtain ⟨by', bx⟩ := b
  have h1 : 0 < max tt.dctHeight tt.dctWidth / tt.dctHeight := stretch_pos ht.1 (by omega)
  have h2 : 0 < max tt.dctHeight tt.dctWidth / tt.dctWidth := stretch_pos ht.2 (by omega)
  unfold rank at h
  dsimp only at h
  by_cases ha : ay < tt.dctHeight ∧ ax < tt.dctWidth <;> by_cases hb : by' < tt.dctHeight ∧ bx < tt.dctWidth
  · rw [if_pos ha, if_pos hb] at h
    simp only [Prod.mk.injEq] at h
    rw [h.2.1, h.2.2]
  · rw [if_pos ha, if_neg hb] at h
    simp only [Prod.mk.injEq] at h
    omega
  · rw [if_neg ha, if_pos hb] at h
    simp only [Prod.mk.injEq] at h
    omega
  · rw [if_neg ha, if_neg hb] at h
    simp only [Prod.mk.injEq] at h
    have key : ay * (max tt.dctHeight tt.dctWidth / tt.dctHeight) = by' * (max tt.dctHeight tt.dctWidth / tt.dctHeight) ∧
        ax * (max tt.dctHeight tt.dctWidth / tt.dctWidth) = bx * (max tt.dctHeight tt.dctWidth / tt.dctWidth) := by
      generalize ay * (max tt.dctHeight tt.dctWidth / tt.dctHeight) = p at *
      generalize ax * (max tt.dctHeight tt.dctWidth / tt.dctWidth) = q at *
      generalize by' * (max tt.dctHeight tt.dctWidth / tt.dctHeight) = r at *
      generalize bx * (max tt.dctHeight tt.dctWidth / tt.dctWidth) = s at *
      obtain ⟨-, e, f⟩ := h
      split at f <;> split at f <;> omega
    rw [Int.eq_of_mul_eq_mul_right (by omega) key.1, Int.eq_of_mul_eq_mul_right (by omega) key.2]

theorem naturalCmp_antisymm (tt : TransformType) (ht : Sized tt) {a b : Point} (h1 : naturalCmp tt a b ≤ 0) (h2 : naturalCmp tt b a ≤ 0) : a = b :=
  rank_inj tt ht (lexLe_antisymm ((naturalCmp_le tt a b).1 h1) ((naturalCmp_le tt b a).1 h2))

theorem naturalOrder_perm (tt : TransformType) : (naturalOrder tt).Perm (rowMajor tt.pixelHeight.toNat tt.pixelWidth.toNat) :=
  List.mergeSort_perm _ _

theorem naturalOrder_sorted (tt : TransformType) : (naturalOrder tt).Pairwise (fun a b => naturalCmp tt a b ≤ 0) := by
  have h := List.pairwise_mergeSort (le := fun a b => decide (naturalCmp tt a b ≤ 0))
    (fun a b c h1 h2 => by
      simp only [decide_eq_true_eq, naturalCmp_le] at *
      exact lexLe_trans h1 h2)
    (fun a b => by
      simp only [Bool.or_eq_true, decide_eq_true_eq, naturalCmp_le]
      exact lexLe_total _ _) (rowMajor tt.pixelHeight.toNat tt.pixelWidth.toNat)
  exact h.imp (fun h => by simpa using h)

/-- Whatever the sorting algorithm, the result is the natural order. -/
theorem naturalOrder_unique (tt : TransformType) (ht : Sized tt) (l : List Point)
    (hp : l.Perm (rowMajor tt.pixelHeight.toNat tt.pixelWidth.toNat)) (hs : l.Pairwise (fun a b => naturalCmp tt a b ≤ 0)) : l = naturalOrder tt :=
  List.Perm.eq_of_pairwise (fun _ _ _ _ h1 h2 => naturalCmp_antisymm tt ht h1 h2) hs (naturalOrder_sorted tt) (hp.trans (naturalOrder_perm tt).symm)

theorem mem_rowMajor {h w : Nat} {p : Point} : p ∈ rowMajor h w ↔ InBlock h w p := by
  unfold rowMajor InBlock
  simp only [List.mem_flatMap, List.mem_map, List.mem_range]
  constructor
  · rintro ⟨y, hy, x, hx, rfl⟩
    dsimp only
    omega
  · rintro ⟨h1, h2, h3, h4⟩
    obtain ⟨y, x⟩ := p
    dsimp only at *
    exact ⟨y.toNat, by omega, x.toNat, by omega, by rw [Int.toNat_of_nonneg h1, Int.toNat_of_nonneg h3]⟩

theorem rowMajor_lt (h w : Nat) : (rowMajor h w).Pairwise (fun a b => a.y < b.y ∨ a.y = b.y ∧ a.x < b.x) := by
  unfold rowMajor
  rw [List.pairwise_flatMap]
  constructor
  · intro y _
    rw [List.pairwise_map]
    exact List.pairwise_lt_range.imp (fun h => Or.inr ⟨rfl, by simpa using h⟩)
  · refine List.pairwise_lt_range.imp ?_
    intro a b hab p hp q hq
    obtain ⟨x, _, rfl⟩ := List.mem_map.1 hp
    obtain ⟨z, _, rfl⟩ := List.mem_map.1 hq
    exact Or.inl (by simpa using hab)

theorem rowMajor_nodup (h w : Nat) : (rowMajor h w).Nodup :=
  (rowMajor_lt h w).imp (by rintro a b h rfl; omega)

theorem rowMajor_length (h w : Nat) : (rowMajor h w).length = h * w := by
  unfold rowMajor
  simp [List.length_flatMap, List.map_const']

theorem rowMajor_getElem? (h w y x : Nat) (hy : y < h) (hx : x < w) : (rowMajor h w)[y * w + x]? = some ⟨y, x⟩ := by
  induction h generalizing y with
  | zero => omega
  | succ h ih =>
    have hs : rowMajor (h + 1) w = rowMajor h w ++ (List.range w).map (fun (x : Nat) => (⟨(h : Int), (x : Int)⟩ : Point)) := by
      unfold rowMajor
      rw [List.range_succ, List.flatMap_append]
      simp
    rw [hs]
    by_cases hyh : y < h
    · rw [List.getElem?_append_left, ih y hyh]
      rw [rowMajor_length]
      have : (y + 1) * w ≤ h * w := Nat.mul_le_mul_right w hyh
      rw [Nat.add_mul] at this
      omega
    · obtain rfl : y = h := by omega
      rw [List.getElem?_append_right (by rw [rowMajor_length]; omega), rowMajor_length]
      simp [hx]

end Jxl
