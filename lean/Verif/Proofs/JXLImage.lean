import Verif.Model.Writers
import Verif.Spec.Image
import Verif.Proofs.Image

/-! # Channel loops and byte loops -/
namespace Jxl

/-- A loop whose body appends. -/
theorem forFrom_append {β : Type} (f : Nat → List β → Res (List β)) (g : Nat → List β) (n : Nat) : ∀ (i : Nat) (acc : List β),
    (∀ k acc, i ≤ k → k < i + n → f k acc = .ok (acc ++ g k)) → forFrom f n i acc = .ok (acc ++ (List.range' i n).flatMap g) := by
  induction n with
  | zero => intro i acc _; simp [forFrom]
  | succ n ih =>
    intro i acc h
    unfold forFrom
    rw [h i acc (by omega) (by omega), Res.bind_ok, ih (i + 1) _ (fun k acc h1 h2 => h k acc (by omega) (by omega))]
    simp [List.range'_succ]

theorem forFrom_append0 {β : Type} (f : Nat → List β → Res (List β)) (g : Nat → List β) (n : Nat) (acc : List β)
    (h : ∀ k acc, k < n → f k acc = .ok (acc ++ g k)) : forFrom f n 0 acc = .ok (acc ++ (List.range n).flatMap g) := by
  rw [forFrom_append f g n 0 acc (fun k acc _ h2 => h k acc (by omega)), List.range_eq_range']

theorem forFrom_append_map {α β : Type} (l : List α) (f : Nat → List β → Res (List β)) (g : α → List β) (acc : List β)
    (h : ∀ k a acc, l[k]? = some a → f k acc = .ok (acc ++ g a)) : forFrom f l.length 0 acc = .ok (acc ++ l.flatMap g) := by
  have hr := forFrom_append0 f (fun k => ((l[k]?).map g).getD []) l.length acc (fun k acc hk => by
    rw [h k l[k] acc (by simp [hk])]
    simp [hk])
  rw [hr]
  congr 2
  clear hr h
  induction l using List.reverseRecOn with
  | nil => simp
  | append_singleton l a ih =>
    simp only [List.length_append, List.length_cons, List.length_nil, List.flatMap_append, List.range_succ, List.flatMap_cons, List.flatMap_nil,
      List.append_nil, Nat.zero_add]
    congr 1
    · rw [← ih]
      apply List.flatMap_congr
      intro k hk
      have : k < l.length := by simpa using hk
      simp [List.getElem?_append_left this]
    · simp

/-- The channel loop: each channel is replaced by `g` of it. -/
theorem eachChannel_ok (f : Res Nat → ImageBuffer → Res ImageBuffer) (n : Nat) : ∀ (c : Nat) (img : JXLImage) (out : Nat → ImageBuffer),
    (∀ k, c ≤ k → k < c + n → ∃ b, img.buffers[k]? = some b ∧ f (idx img.bitDepths k) b = .ok (out k)) →
    ∃ bs, eachChannel f c n img = .ok { img with buffers := bs } ∧ bs.length = img.buffers.length ∧
      ∀ k, bs[k]? = if c ≤ k ∧ k < c + n then some (out k) else img.buffers[k]? := by
  induction n with
  | zero =>
    intro c img out _
    refine ⟨img.buffers, rfl, rfl, fun k => ?_⟩
    rw [if_neg (by omega)]
  | succ n ih =>
    intro c img out h
    obtain ⟨b, hb, hf⟩ := h c (by omega) (by omega)
    have hc : c < img.buffers.length := by
      rcases Nat.lt_or_ge c img.buffers.length with h | h
      · exact h
      · rw [List.getElem?_eq_none h] at hb; cases hb
    obtain ⟨bs, e, el, eb⟩ := ih (c + 1) { img with buffers := img.buffers.set c (out c) } out (fun k h1 h2 => by
      obtain ⟨b', hb', hf'⟩ := h k (by omega) (by omega)
      refine ⟨b', ?_, hf'⟩
      simp only
      rw [List.getElem?_set_ne (by omega), hb'])
    refine ⟨bs, ?_, by simpa using el, fun k => ?_⟩
    · have h1 : idx img.buffers (c : Int) = .ok b := by
        unfold idx
        rw [if_neg (by omega), Int.toNat_natCast, hb]
      unfold eachChannel
      rw [h1, Res.bind_ok, hf, Res.bind_ok]
      unfold setAt
      rw [if_neg (by omega), Int.toNat_natCast, if_pos hc, Res.bind_ok, e]
    · rw [eb]
      simp only
      by_cases h1 : c + 1 ≤ k ∧ k < c + 1 + n
      · rw [if_pos h1, if_pos (by omega)]
      · rw [if_neg h1]
        by_cases hk : k = c
        · subst hk
          rw [if_pos (by omega)]
          simp [hc]
        · rw [if_neg (by omega), List.getElem?_set_ne (by omega)]

theorem idx_some {α : Type} {l : List α} {k : Nat} {a : α} (h : l[k]? = some a) : idx l (k : Int) = .ok a := by
  unfold idx
  rw [if_neg (by omega), Int.toNat_natCast, h]

end Jxl
