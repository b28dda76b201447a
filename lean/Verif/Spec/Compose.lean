import Verif.Spec.Blend
import Verif.Model.Compose

/-!
# Specification: saved frames (C64)
-/
namespace Jxl
namespace Spec

/-- Channel `c` of the reference frame in slot `i`, if there is one. -/
def saved (s : Store) (i c : Nat) : Option ImageBuffer := (s.refs[i]?).join.bind (fun a => buffer s a c)

/-- A buffer with at least one row of numbers. -/
def Proper (b : ImageBuffer) : Prop := ∃ h w, (b.IntPicture h w ∨ b.FloatPicture h w) ∧ 0 < h ∧ (b.bufferType = 1 → ∀ y x, sample b.floats y x ≠ some .nan)

/-- The canvas holds numbers. -/
def Sound (s : Store) : Prop := ∀ c b, buffer s s.canvas c = some b → Proper b

/-- `b'` is `b`, or shows the integers of `b` as floats. -/
def Converted (b b' : ImageBuffer) : Prop :=
  b' = b ∨ ∃ h w m, b.IntPicture h w ∧ 1 ≤ m ∧ b'.FloatPicture h w ∧
    ∀ y x, y < h → x < w → sample b'.floats y x = (sample b.ints y x).map (fun v => F32.mul (F32.ofInt v) (F32.div (.fin 1) (F32.ofInt m)))

end Spec
end Jxl
