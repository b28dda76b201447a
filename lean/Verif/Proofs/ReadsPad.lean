import Verif.Proofs.Reads
/-! Compositional lemmas for `ReadsPad`. -/
namespace Jxl
open Spec

theorem Reads.pad {α : Type} {m : Rd α} {e : List Bool} {a : α} (pad : Nat) (h : Reads m e a) : ReadsPad pad m e a :=
  fun s p hs hp _ => h s p hs hp

theorem ReadsPad.pure {α : Type} (pad : Nat) (a : α) : ReadsPad pad (Pure.pure a : Rd α) [] a := (Reads.pure a).pad pad

theorem ReadsPad.lift {α : Type} (pad : Nat) {r : Res α} {a : α} (h : r = .ok a) : ReadsPad pad (Rd.lift r) [] a := by
  intro s p hs _ _
  exact ⟨s, by rw [h]; rfl, by simpa using hs, rfl⟩

theorem ReadsPad.bind {α β : Type} {pad : Nat} {m : Rd α} {f : α → Rd β} {e1 e2 : List Bool} {a : α} {b : β}
    (h1 : ReadsPad pad m e1 a) (h2 : ReadsPad pad (f a) e2 b) : ReadsPad pad (m >>= f) (e1 ++ e2) b := by
  intro s p h hp hlen
  obtain ⟨hp1, hp2⟩ := prefix_append_split hp
  rw [List.length_append] at hlen
  obtain ⟨s1, hm, ha1, hd1⟩ := h1 s p h hp1 (by omega)
  rw [bitsFrom_drop] at hp2
  obtain ⟨s2, hf, ha2, hd2⟩ := h2 s1 _ ha1 (by rw [hd1]; exact hp2) (by rw [hd1]; omega)
  refine ⟨s2, ?_, ?_, by rw [hd2, hd1]⟩
  · rw [Rd.bind_ok hm]; exact hf
  · simpa [Nat.add_assoc] using ha2

/-- A step that reads nothing. -/
theorem ReadsPad.bind_lift {α β : Type} {pad : Nat} {r : Res α} {f : α → Rd β} {e : List Bool} {a : α} {b : β}
    (h1 : r = .ok a) (h2 : ReadsPad pad (f a) e b) : ReadsPad pad (Rd.lift r >>= f) e b := by
  have := ReadsPad.bind (ReadsPad.lift pad h1) h2
  simpa using this

theorem ReadsPad.congr {α : Type} {pad : Nat} {m : Rd α} {e e' : List Bool} {a a' : α} (h : ReadsPad pad m e a)
    (he : e = e') (ha : a = a') : ReadsPad pad m e' a' := by subst he; subst ha; exact h

theorem ReadsPad.mono {α : Type} {pad pad' : Nat} {m : Rd α} {e : List Bool} {a : α} (h : ReadsPad pad m e a)
    (hp : pad ≤ pad') : ReadsPad pad' m e a := fun s p hs hpre hlen => h s p hs hpre (by omega)

end Jxl
