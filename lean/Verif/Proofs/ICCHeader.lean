import Verif.Proofs.ICC
import Mathlib.Tactic.IntervalCases
/-! The header of a colour profile: the code predicts as the format does. -/
namespace Jxl
open Spec

theorem out_idx {out : List Nat} {size k : Nat} (h : k < size) (ho : out.length ≤ size) : idx (out ++ List.replicate (size - out.length) 0) (k : Int) = .ok (out.getD k 0) := by
  apply idx_of_getElem?
  rw [List.getD_eq_getElem?_getD]
  rcases Nat.lt_or_ge k out.length with hk | hk
  · rw [List.getElem?_append_left hk, List.getElem?_eq_getElem hk]; rfl
  · rw [List.getElem?_append_right hk, List.getElem?_eq_none hk, List.getElem?_replicate, if_pos (by omega)]; rfl

set_option maxHeartbeats 2000000 in
set_option linter.unusedSimpArgs false in
theorem prediction_ok {size : Nat} {done : List Nat} (hs : size < 2 ^ 31) (h128 : done.length < 128) (hlt : done.length < size) (h : done.length ≤ 3 ∨ 41 ≤ size) :
    ∃ p : Int, iccPrediction (done ++ List.replicate (size - done.length) 0) done.length = .ok p ∧ p % 256 = (headerGuess size done done.length : Int) % 256 := by
  have hlen : (done ++ List.replicate (size - done.length) 0).length = size := by simp; omega
  by_cases h3 : done.length ≤ 3
  · refine ⟨sar (i32 size) (8 * (3 - done.length)), by unfold iccPrediction; rw [if_pos h3, hlen], ?_⟩
    obtain ⟨i, hi⟩ : ∃ i, i = done.length := ⟨_, rfl⟩
    rw [← hi] at h3 ⊢
    have : i = 0 ∨ i = 1 ∨ i = 2 ∨ i = 3 := by omega
    rcases this with rfl | rfl | rfl | rfl <;> simp only [headerGuess, sar, i32] <;> omega
  · have h41 : 41 ≤ size := by omega
    have e40 := out_idx (out := done) (size := size) (k := 40) (by omega) (by omega)
    have e41 : iccB41 (done ++ List.replicate (size - done.length) 0) (done.getD 40 0) = .ok (if done.getD 40 0 = 83 then done.getD 41 0 else 0) := by
      unfold iccB41
      by_cases hb : done.getD 40 0 = 83
      · rw [if_pos hb, if_pos hb]
        have : ¬ done.length ≤ 40 := by
          intro hc
          rw [List.getD_eq_getElem?_getD, List.getElem?_eq_none hc] at hb
          cases hb
        exact out_idx (out := done) (size := size) (k := 41) (by omega) (by omega)
      · rw [if_neg hb, if_neg hb]
    have e4 := out_idx (out := done) (size := size) (k := 4) (by omega) (by omega)
    have e5 := out_idx (out := done) (size := size) (k := 5) (by omega) (by omega)
    have e6 := out_idx (out := done) (size := size) (k := 6) (by omega) (by omega)
    have e7 := out_idx (out := done) (size := size) (k := 7) (by omega) (by omega)
    have c4 : (((4 : Nat) : Int)) = 4 := rfl
    unfold iccPrediction
    rw [if_neg h3]
    simp only [show ((40 : Nat) : Int) = 40 from rfl] at e40
    rw [e40]
    obtain ⟨b40, hb40⟩ : ∃ x, x = done.getD 40 0 := ⟨_, rfl⟩
    obtain ⟨b41, hb41⟩ : ∃ x, x = done.getD 41 0 := ⟨_, rfl⟩
    rw [← hb40] at e41 e40 ⊢
    rw [← hb41] at e41
    have hg : ∀ i, headerGuess size done i = headerGuess size done i := fun _ => rfl
    obtain ⟨buf, hbuf⟩ : ∃ x, x = done ++ List.replicate (size - done.length) 0 := ⟨_, rfl⟩
    rw [← hbuf] at e41 e4 e5 e6 e7 ⊢
    unfold headerGuess
    rw [← hb40, ← hb41]
    generalize done.getD 4 0 = d4 at *
    generalize done.getD 5 0 = d5 at *
    generalize done.getD 6 0 = d6 at *
    generalize done.getD 7 0 = d7 at *
    clear hb40 hb41 hbuf e40 hlen
    generalize done.length = i at *
    simp only [Res.bind_ok, e41]
    have e80 : idx buf (4 : Int) = .ok d4 := e4
    have e81 : idx buf (5 : Int) = .ok d5 := e5
    have e82 : idx buf (6 : Int) = .ok d6 := e6
    have e83 : idx buf (7 : Int) = .ok d7 := e7
    clear e4 e5 e6 e7 e41 hs hlt h h41 hg c4
    have h4 : 4 ≤ i := by omega
    clear h3
    interval_cases i
    all_goals first
      | exact ⟨_, rfl, rfl⟩
      | (simp [e80, e81, e82, e83, Res.bind_ok]; done)
      | (by_cases hA : b40 = 65
         · subst hA; exact ⟨_, rfl, rfl⟩
         by_cases hM : b40 = 77
         · subst hM; exact ⟨_, rfl, rfl⟩
         by_cases hS : b40 = 83
         · subst hS
           by_cases hG : b41 = 71
           · subst hG; exact ⟨_, rfl, rfl⟩
           by_cases hU : b41 = 85
           · subst hU; exact ⟨_, rfl, rfl⟩
           simp [hG, hU]
         simp [hA, hM, hS])
end Jxl
