import Verif.Model.BitReader
import Verif.Spec.Bits
import Verif.Spec.Decoder
/-!
# Specification: what it means for a reader to be at a bit position

The reader state holds a byte offset and, when it is inside a byte, a cached copy of that byte. `AtBit s p` says
that the state `s` stands for bit position `p` of its data. `rest s p` are the bits that are still to be read.
-/
namespace Jxl

/-- `s` stands for bit position `p` (counted from the start of the data). -/
def AtBit (s : BR) (p : Nat) : Prop :=
  (s.index = 0 ∧ s.pos ≤ s.data.length ∧ p = 8 * s.pos) ∨
  (0 < s.index ∧ s.index < 8 ∧ 0 < s.pos ∧ s.data[s.pos - 1]? = some s.cur ∧ p = 8 * (s.pos - 1) + s.index)

/-- The bits from position `p` on. -/
def bitsFrom (data : List UInt8) (p : Nat) : List Bool := (Spec.streamBits data).drop p

/-- The action `m` reads exactly the bits `enc` and returns `a`: from every reader state, at every alignment,
whatever comes before and after. -/
def Reads {α : Type} (m : Rd α) (enc : List Bool) (a : α) : Prop :=
  ∀ s p, AtBit s p → enc <+: bitsFrom s.data p →
    ∃ s', m s = (.ok a, s') ∧ AtBit s' (p + enc.length) ∧ s'.data = s.data

end Jxl

namespace Jxl
open Spec

/-- The action `m` implements the bit-string decoder `f`: at every position of every stream it returns `f`'s value
and stands just before `f`'s remaining bits, and it returns an error (it does not panic) when `f` fails. -/
def Implements {α : Type} (m : Rd α) (f : Dec α) : Prop :=
  ∀ s p, AtBit s p →
    match f (bitsFrom s.data p) with
    | some (a, r) => ∃ s' p', m s = (.ok a, s') ∧ AtBit s' p' ∧ s'.data = s.data ∧ r = bitsFrom s.data p' ∧ p ≤ p'
    | none => (m s).1 = .err

/-- Like `Reads`, for streams that go on for at least `pad` more bits after `enc`. (Table-driven prefix decoding looks
ahead by the width of its table, see C11.) -/
def ReadsPad {α : Type} (pad : Nat) (m : Rd α) (enc : List Bool) (a : α) : Prop :=
  ∀ s p, AtBit s p → enc <+: bitsFrom s.data p → p + enc.length + pad ≤ 8 * s.data.length →
    ∃ s', m s = (.ok a, s') ∧ AtBit s' (p + enc.length) ∧ s'.data = s.data

end Jxl
