import Verif.Spec.FrameDecode
import Verif.Model.FrameDecode
import Verif.Proofs.FilterUp

/-!
# Weights of upsampling
-/
namespace Jxl

theorem mapM_loop_ok {α β : Type} {f : α → Res β} {g : α → β} : ∀ (l : List α) (acc : List β), (∀ a ∈ l, f a = .ok (g a)) →
    List.mapM.loop f l acc = .ok (acc.reverse ++ l.map g)
  | [], acc, _ => by
    rw [List.mapM.loop, List.map_nil, List.append_nil]
    rfl
  | a :: l, acc, h => by
    rw [List.mapM.loop, h a (List.mem_cons_self ..), Res.bind_ok, mapM_loop_ok l (g a :: acc) fun b hb => h b (List.mem_cons_of_mem _ hb)]
    simp

theorem mapM_ok {α β : Type} {f : α → Res β} {g : α → β} {l : List α} (h : ∀ a ∈ l, f a = .ok (g a)) : List.mapM f l = .ok (l.map g) := by
  rw [List.mapM, mapM_loop_ok l [] h]
  rfl

theorem weight_place : ∀ k ∈ [2, 4, 8], ∀ ky, ky < k → ∀ kx, kx < k → ∀ iy, iy < 5 → ∀ ix, ix < 5 →
    let row := if ky < k / 2 then 5 * ky + iy else 5 * (k - 1 - ky) + (4 - iy)
    let col := if kx < k / 2 then 5 * kx + ix else 5 * (k - 1 - kx) + (4 - ix)
    weightIndex k ky kx iy ix = trianglePlace (5 * k / 2) (min row col) (max row col) ∧ weightIndex k ky kx iy ix < weightCount k := by
  decide +kernel

theorem weightTable_ok {α : Type} {k : Nat} (hk : k ∈ [2, 4, 8]) {l : List α} (hl : l.length = weightCount k) :
    ∃ up wt, weightTable k l = .ok up ∧ up.length = k ∧ HoldsWeights k wt up ∧
      ∀ ky kx iy ix, ky < k → kx < k → iy < 5 → ix < 5 → kernelEntry k l ky kx iy ix = some (wt ky kx iy ix) := by
  have h0 : 0 < l.length := by
    rw [hl]
    simp only [List.mem_cons, List.not_mem_nil, or_false] at hk
    rcases hk with rfl | rfl | rfl <;> decide
  let d : α := l[0]
  let wt : Nat → Nat → Nat → Nat → α := fun ky kx iy ix => l.getD (weightIndex k ky kx iy ix) d
  have hw : ∀ ky kx iy ix, ky < k → kx < k → iy < 5 → ix < 5 → l[weightIndex k ky kx iy ix]? = some (wt ky kx iy ix) := by
    intro ky kx iy ix h1 h2 h3 h4
    have hlt := (weight_place k hk ky h1 kx h2 iy h3 ix h4).2
    rw [← hl] at hlt
    show _ = some (l.getD _ d)
    rw [List.getD_eq_getElem?_getD, List.getElem?_eq_getElem hlt]
    rfl
  refine ⟨(List.range k).map fun ky => (List.range k).map fun kx => (List.range 5).map fun iy => (List.range 5).map fun ix => wt ky kx iy ix, wt, ?_, by simp, ?_, ?_⟩
  · unfold weightTable
    refine mapM_ok fun ky h1 => mapM_ok fun kx h2 => mapM_ok fun iy h3 => mapM_ok fun ix h4 => ?_
    rw [List.mem_range] at h1 h2 h3 h4
    unfold idx
    rw [if_neg (by omega), Int.toNat_natCast, hw ky kx iy ix h1 h2 h3 h4]
  · intro ky kx h1 h2
    refine ⟨(List.range 5).map fun iy => (List.range 5).map fun ix => wt ky kx iy ix, ?_, ⟨by simp, ?_⟩, ?_⟩
    · simp [sample, h1, h2]
    · intro r hr
      obtain ⟨iy, -, rfl⟩ := List.mem_map.1 hr
      simp
    · intro iy ix h3 h4
      simp [sample, h3, h4]
  · intro ky kx iy ix h1 h2 h3 h4
    rw [← hw ky kx iy ix h1 h2 h3 h4, (weight_place k hk ky h1 kx h2 iy h3 ix h4).1]
    rfl

end Jxl
