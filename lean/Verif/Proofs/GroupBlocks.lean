import Verif.Props.Blocks
import Verif.Props.Dequant
import Verif.Spec.GroupBlocks

/-!
# Blocks of a group: order, tiles
-/
namespace Jxl
open Spec (Block FirstFree)

theorem laid_first {h w : Nat} {l : List Block} (hl : Spec.Laid h w l) : ∀ a ∈ l, ∃ old : List Block, (∀ c ∈ old, c ∈ l) ∧ FirstFree w old a.y a.x := by
  induction hl with
  | nil => intro a ha; cases ha
  | cons b bs _ hf _ _ ih =>
    intro a ha
    rcases List.mem_cons.1 ha with e | ha'
    · subst e
      exact ⟨bs, fun c hc => List.mem_cons_of_mem _ hc, hf⟩
    · obtain ⟨old, h1, h2⟩ := ih a ha'
      exact ⟨old, fun c hc => List.mem_cons_of_mem _ (h1 c hc), h2⟩

theorem laid_inside {h w : Nat} {l : List Block} (hl : Spec.Laid h w l) : ∀ a ∈ l, a.Inside h w := by
  induction hl with
  | nil => intro a ha; cases ha
  | cons b bs _ _ hi _ ih =>
    intro a ha
    rcases List.mem_cons.1 ha with e | ha'
    · subst e; exact hi
    · exact ih a ha'

theorem covers_self {b : Block} (h : b.type < 27) : b.Covers b.y b.x := by
  have := Spec.Block.rows_pos h
  have := Spec.Block.cols_pos h
  exact ⟨Nat.le_refl _, by omega, Nat.le_refl _, by omega⟩

/-- Blocks are laid row by row. -/
theorem laid_raster {h w : Nat} {l : List Block} (hl : Spec.Laid h w l) : l.Pairwise (fun b a => a.Before b) := by
  induction hl with
  | nil => exact List.Pairwise.nil
  | cons b bs hbs hf hi ha ih =>
    refine List.pairwise_cons.2 ⟨fun a hab => ?_, ih⟩
    obtain ⟨old, h1, h2⟩ := laid_first hbs a hab
    have hia := laid_inside hbs a hab
    by_contra hc
    unfold Spec.Block.Before at hc
    by_cases he : b.y = a.y ∧ b.x = a.x
    · exact hf.2.1 a hab (by rw [he.1, he.2]; exact covers_self hia.1)
    · obtain ⟨c, c1, c2⟩ := h2.2.2 b.y b.x hf.1 (by omega)
      exact hf.2.1 c (h1 c c1) c2

theorem block_shape {b : Block} (h : b.type < 27) : (8 < b.rows → 8 ≤ b.cols) ∧ (8 < b.cols → 8 ≤ b.rows) := by
  have key : ∀ t : Fin 27, (8 < (Spec.transformSizes[t.1]?.getD (0, 0)).1 / 8 → 8 ≤ (Spec.transformSizes[t.1]?.getD (0, 0)).2 / 8) ∧
      (8 < (Spec.transformSizes[t.1]?.getD (0, 0)).2 / 8 → 8 ≤ (Spec.transformSizes[t.1]?.getD (0, 0)).1 / 8) := by decide
  exact key ⟨b.type, h⟩

theorem block_tt {b : Block} (h : b.type < 27) : b.tt ∈ allDCT ∧ allDCT[b.type]? = some b.tt ∧ b.tt.pixelHeight.toNat = 8 * b.rows ∧ b.tt.pixelWidth.toNat = 8 * b.cols := by
  obtain ⟨tt, h1, _, h3, h4, _⟩ := block_type h
  have e : b.tt = tt := by unfold Spec.Block.tt; rw [h1]; rfl
  have hm : tt ∈ allDCT := List.mem_of_getElem? h1
  obtain ⟨a, _, c, _, e1, e2, e3, e4, _⟩ := allDCT_sizes tt hm
  rw [e]
  exact ⟨hm, h1, by omega, by omega⟩

/-- The first cell of the tile of a cell belongs to the block of the cell or to an earlier one. -/
theorem tile_before {h w : Nat} {l : List Block} (F : Spec.Tiled h w l) {b : Block} (hb : b ∈ l) {y x : Nat} (hc : b.Covers y x) :
    ∃ a ∈ l, a.Covers (y / 8 * 8) (x / 8 * 8) ∧ (a = b ∨ a.Before b) := by
  have hi := laid_inside F.laid b hb
  obtain ⟨s1, s2⟩ := block_shape hi.1
  obtain ⟨t1, t2⟩ := F.tile b hb
  obtain ⟨hi1, hi2, hi3⟩ := hi
  obtain ⟨c1, c2, c3, c4⟩ := hc
  by_cases hself : b.Covers (y / 8 * 8) (x / 8 * 8)
  · exact ⟨b, hb, hself, Or.inl rfl⟩
  obtain ⟨a, ha, a1, a2, a3, a4⟩ := F.all (y / 8 * 8) (x / 8 * 8) (by omega) (by omega)
  refine ⟨a, ha, ⟨a1, a2, a3, a4⟩, ?_⟩
  unfold Spec.Block.Covers at hself
  have hne : ¬ (a.y = b.y ∧ a.x = b.x) := by
    rintro ⟨e1, e2⟩
    have hia := laid_inside F.laid a ha
    have hab : a = b := apart_same F.laid.apart ha hb (covers_self hia.1) (by rw [e1, e2]; exact covers_self hi1)
    rw [hab] at a1 a2 a3 a4
    exact hself ⟨a1, a2, a3, a4⟩
  right
  unfold Spec.Block.Before
  omega

end Jxl
