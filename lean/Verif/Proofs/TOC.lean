import Verif.Model.TOC
import Verif.Spec.TOC
import Verif.Proofs.Permutation
import Verif.Proofs.Skip

namespace Jxl

theorem readSections_ok : ∀ (ls : List Nat) (s : BR), s.index = 0 → s.pos + ls.sum ≤ s.data.length → (∀ i, i < ls.length → s.pos + (ls.take i).sum < s.data.length) →
    ∃ s', readSections ls s = (.ok ((List.range ls.length).map (fun i => storedSection (s.data.drop s.pos) ls i ++ [0, 0, 0, 0])), s') ∧
      s'.pos = s.pos + ls.sum ∧ s'.index = 0 ∧ s'.data = s.data := by
  intro ls
  induction ls with
  | nil => intro s h0 _ _; exact ⟨s, rfl, by simp, h0, rfl⟩
  | cons l ls ih =>
    intro s h0 hlt hst
    simp only [List.sum_cons] at hlt
    have h00 := hst 0 (by simp)
    rw [List.take_zero, List.sum_nil] at h00
    have e : readBytesToBuffer l s = (.ok ((s.data.drop s.pos).take l), { s with pos := s.pos + l }) := by
      unfold readBytesToBuffer
      rw [if_neg (by omega), if_neg (by omega)]
      have hl : ((s.data.drop s.pos).take l).length = l := by simp; omega
      dsimp only
      rw [hl, if_neg (by omega)]
    obtain ⟨s', e1, e2, e3, e4⟩ := ih { s with pos := s.pos + l } h0 (by show s.pos + l + ls.sum ≤ s.data.length; omega) (by
      intro i hi
      have := hst (i + 1) (by simp; omega)
      rw [List.take_succ_cons, List.sum_cons] at this
      show s.pos + l + _ < s.data.length
      omega)
    refine ⟨s', ?_, ?_, e3, e4⟩
    · rw [readSections]
      have e5 : readSection l s = (.ok ((s.data.drop s.pos).take l ++ [0, 0, 0, 0]), { s with pos := s.pos + l }) := by
        unfold readSection
        rw [Rd.bind_ok e]; rfl
      rw [Rd.bind_ok e5, Rd.bind_ok e1, Rd.pure_eq]
      rw [List.length_cons, List.range_succ_eq_map, List.map_cons, List.map_map]
      have : storedSection (s.data.drop s.pos) (l :: ls) 0 = (s.data.drop s.pos).take l := by
        simp [storedSection]
      rw [this]
      congr 3
      apply List.map_congr_left
      intro i _
      simp only [Function.comp, storedSection, List.take_succ_cons, List.sum_cons, List.drop_drop, List.getD_cons_succ]
      rw [Nat.add_assoc]
    · rw [e2]
      show s.pos + l + ls.sum = s.pos + (l + ls.sum)
      omega

end Jxl
