import Verif.Model.Copy
import Verif.Spec.Image

/-! # Specification: what a buffer with shared rows contains (C45) -/
namespace Jxl

/-- The samples behind a list of row addresses. -/
def contents {α : Type} (mem : List (List α)) (m : List Nat) : List (List α) := m.map (fun a => mem.getD a [])

/-- All addresses are those of allocated rows. -/
def SharedBuffer.Valid (b : SharedBuffer) (R : Rows) : Prop := (∀ a ∈ b.ints, a < R.ints.length) ∧ ∀ a ∈ b.floats, a < R.floats.length

/-- The buffer as a value. -/
def SharedBuffer.value (b : SharedBuffer) (R : Rows) : ImageBuffer :=
  ⟨b.width, b.height, b.bufferType, contents R.floats b.floats, contents R.ints b.ints⟩

end Jxl
