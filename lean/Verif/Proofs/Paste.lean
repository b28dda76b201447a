import Verif.Proofs.Groups
import Verif.Proofs.Image

/-! # Copying groups into a channel -/
namespace Jxl
open Spec

theorem copyInto_ok {α : Type} {dst src : List α} {x : Nat} (h : x + src.length ≤ dst.length) :
    ∃ r, copyInto dst (x : Int) src = .ok r ∧ r.length = dst.length ∧
      ∀ j, r[j]? = if x ≤ j ∧ j < x + src.length then src[j - x]? else dst[j]? := by
  unfold copyInto
  have ht : src.take (dst.length - x) = src := List.take_of_length_le (by omega)
  rw [if_neg (by omega), Int.toNat_natCast, ht]
  refine ⟨_, rfl, by simp; omega, ?_⟩
  intro j
  by_cases h1 : j < x
  · rw [if_neg (by omega), List.append_assoc, List.getElem?_append_left (by simp; omega), List.getElem?_take, if_pos h1]
  · by_cases h2 : j < x + src.length
    · rw [if_pos ⟨by omega, h2⟩, List.append_assoc, List.getElem?_append_right (by simp; omega), List.getElem?_append_left (by simp; omega)]
      congr 1
      simp
      omega
    · rw [if_neg (by omega), List.getElem?_append_right (by simp; omega), List.getElem?_drop]
      congr 1
      simp
      omega

/-- The rows of one group. -/
theorem pasteRows_ok {α : Type} {H W w x : Nat} (hx : x + w ≤ W) : ∀ (rows : List (List α)) (y : Nat) (buf : List (List α)), Table H W buf →
    (∀ r ∈ rows, r.length = w) → y + rows.length ≤ H → ∃ out, pasteRows (x : Int) rows (y : Int) buf = .ok out ∧ Table H W out ∧
      ∀ y' x', sample out y' x' = if y ≤ y' ∧ y' < y + rows.length ∧ x ≤ x' ∧ x' < x + w then sample rows (y' - y) (x' - x) else sample buf y' x' := by
  intro rows
  induction rows with
  | nil =>
    intro y buf hT _ _
    refine ⟨buf, rfl, hT, ?_⟩
    intro y' x'
    rw [if_neg (by simp only [List.length_nil]; omega)]
  | cons r rows ih =>
    intro y buf hT hr hy
    rw [List.length_cons] at hy
    have hyl : y < buf.length := by rw [hT.1]; omega
    have hrl := hr r List.mem_cons_self
    have hrow : buf[y].length = W := hT.2 _ (List.getElem_mem hyl)
    obtain ⟨row, e1, e2, e3⟩ := copyInto_ok (dst := buf[y]) (src := r) (x := x) (by omega)
    have hT2 : Table H W (buf.set y row) := by
      refine ⟨by rw [List.length_set, hT.1], ?_⟩
      intro q hq
      rcases List.mem_or_eq_of_mem_set hq with hq | rfl
      · exact hT.2 q hq
      · omega
    obtain ⟨out, e4, e5, e6⟩ := ih (y + 1) (buf.set y row) hT2 (fun q hq => hr q (List.mem_cons_of_mem _ hq)) (by omega)
    refine ⟨out, ?_, e5, ?_⟩
    · unfold pasteRows
      rw [idx_some (List.getElem?_eq_getElem hyl), Res.bind_ok, e1, Res.bind_ok]
      have : setAt buf (y : Int) row = .ok (buf.set y row) := by
        unfold setAt
        rw [if_neg (by omega), Int.toNat_natCast, if_pos hyl]
      rw [this, Res.bind_ok]
      exact e4
    · intro y' x'
      rw [e6, List.length_cons]
      by_cases hy' : y' = y
      · subst hy'
        rw [if_neg (by omega)]
        unfold sample
        rw [List.getElem?_set_self hyl, Option.bind_some, e3, hrl]
        by_cases hx' : x ≤ x' ∧ x' < x + w
        · rw [if_pos hx', if_pos ⟨by omega, by omega, hx'.1, hx'.2⟩, Nat.sub_self, List.getElem?_cons_zero, Option.bind_some]
        · rw [if_neg hx', if_neg (by omega), List.getElem?_eq_getElem hyl, Option.bind_some]
      · have hs : sample (buf.set y row) y' x' = sample buf y' x' := by
          unfold sample
          rw [List.getElem?_set_ne (fun h => hy' h.symm)]
        rw [hs]
        by_cases hin : y + 1 ≤ y' ∧ y' < y + 1 + rows.length ∧ x ≤ x' ∧ x' < x + w
        · rw [if_pos hin, if_pos (by omega)]
          unfold sample
          rw [show y' - y = (y' - (y + 1)) + 1 by omega, List.getElem?_cons_succ]
        · rw [if_neg hin, if_neg (by omega)]

/-- Pasting parts of a picture: every pixel in one of the parts, and every pixel that was right before, is right afterwards. -/
theorem pasteGroups_ok {α : Type} {H W : Nat} (pic : List (List α)) : ∀ (ts : List (Area × List (List α))) (buf : List (List α)), Table H W buf →
    (∀ t ∈ ts, CutFrom pic t.1 t.2 ∧ 0 ≤ t.1.y ∧ t.1.y + t.1.height ≤ H ∧ 0 ≤ t.1.x ∧ t.1.x + t.1.width ≤ W) →
    ∃ out, pasteGroups ts buf = .ok out ∧ Table H W out ∧ ∀ y x, (sample buf y x = sample pic y x ∨ ∃ t ∈ ts, InArea t.1 y x) → sample out y x = sample pic y x := by
  intro ts
  induction ts with
  | nil =>
    intro buf hT _
    refine ⟨buf, rfl, hT, ?_⟩
    rintro y x (h | ⟨t, ht, _⟩)
    · exact h
    · cases ht
  | cons t ts ih =>
    intro buf hT hts
    obtain ⟨a, rows⟩ := t
    obtain ⟨⟨hc, hs⟩, y0, y1, x0, x1⟩ := hts _ List.mem_cons_self
    dsimp only at hc hs y0 y1 x0 x1
    obtain ⟨ay, hay⟩ := Int.eq_ofNat_of_zero_le y0
    obtain ⟨ax, hax⟩ := Int.eq_ofNat_of_zero_le x0
    rw [hay] at y1 hs
    rw [hax] at x1 hs
    rw [Int.toNat_natCast, Int.toNat_natCast] at hs
    obtain ⟨out, e1, e2, e3⟩ := pasteRows_ok (x := ax) (w := a.width) (by omega) rows ay buf hT hc.2 (by rw [hc.1]; omega)
    obtain ⟨out2, f1, f2, f3⟩ := ih out e2 (fun t ht => hts t (List.mem_cons_of_mem _ ht))
    refine ⟨out2, ?_, f2, ?_⟩
    · unfold pasteGroups
      rw [hay, hax, e1, Res.bind_ok]
      exact f1
    · intro y x hyx
      apply f3
      by_cases hin : InArea a y x
      · left
        unfold InArea at hin
        rw [hay, hax] at hin
        rw [e3, hc.1, if_pos (by omega), hs _ _ (by omega) (by omega)]
        congr 1 <;> omega
      · rcases hyx with h | ⟨t, ht, hin'⟩
        · left
          unfold InArea at hin
          rw [hay, hax] at hin
          rw [e3, hc.1, if_neg (by omega)]
          exact h
        · right
          rcases List.mem_cons.mp ht with rfl | ht
          · exact absurd hin' hin
          · exact ⟨t, ht, hin'⟩

end Jxl
