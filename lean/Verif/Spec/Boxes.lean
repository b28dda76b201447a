import Verif.Model.Boxes
import Verif.Spec.ImageHeader
/-!
# The container format

A file is a signature followed by boxes. A box is its size in 32 bits (big endian, header included), a type of four characters, and its
contents.
-/
namespace Jxl

/-- `n` in four bytes, the most significant first. -/
def be32 (n : Nat) : List UInt8 := [UInt8.ofNat (n / 2 ^ 24), UInt8.ofNat (n / 2 ^ 16), UInt8.ofNat (n / 2 ^ 8), UInt8.ofNat n]

/-- Characters as bytes. -/
def fourCC (l : List Char) : List UInt8 := l.map (fun c => UInt8.ofNat c.toNat)

/-- A box. -/
structure Box where
  kind : List UInt8
  payload : List UInt8
  deriving DecidableEq

/-- The box as bytes of a file. -/
def Box.bytes (b : Box) : List UInt8 := be32 (8 + b.payload.length) ++ b.kind ++ b.payload

/-- Codestream boxes "jxlc", partial codestream boxes "jxlp", level boxes "jxll". -/
def kindC : List UInt8 := fourCC ['j', 'x', 'l', 'c']
def kindP : List UInt8 := fourCC ['j', 'x', 'l', 'p']
def kindL : List UInt8 := fourCC ['j', 'x', 'l', 'l']

/-- The signature box "JXL ". -/
def signature : List UInt8 := [0, 0, 0, 12] ++ fourCC ['J', 'X', 'L', ' '] ++ [0x0D, 0x0A, 0x87, 0x0A]

/-- The file. -/
def container (boxes : List Box) : List UInt8 := signature ++ boxes.flatMap Box.bytes

/-- What the format demands of a box: its type has four characters, its size has 32 bits, a level is 5 or 10, and a partial codestream box
begins with its number, four bytes. -/
def Box.Wellformed (b : Box) : Prop :=
  b.kind.length = 4 ∧ 8 + b.payload.length < 2 ^ 32 ∧ (b.kind = kindL → b.payload = [5] ∨ b.payload = [10]) ∧ (b.kind = kindP → 4 ≤ b.payload.length)

instance (b : Box) : Decidable b.Wellformed := by unfold Box.Wellformed; infer_instance

/-- The boxes the code can deal with: contents below 2^29 bytes, and not empty unless they are codestream. -/
def Box.Usual (b : Box) : Prop := b.Wellformed ∧ b.payload.length < 2 ^ 29 ∧ (b.payload = [] → b.kind = kindC)

instance (b : Box) : Decidable b.Usual := by unfold Box.Usual; infer_instance

/-- The pieces of codestream in boxes that start at the given position of the file: where they begin, how long they are, and whether they
are partial. -/
def pieces : Nat → List Box → List (Nat × Nat × Bool)
  | _, [] => []
  | pos, b :: bs =>
    (if b.kind = kindC then [(pos + 8, b.payload.length, false)] else if b.kind = kindP then [(pos + 12, b.payload.length - 4, true)] else []) ++
      pieces (pos + 8 + b.payload.length) bs

/-- The level of the file: that of the last level box, 5 if there is none. -/
def levelOf (boxes : List Box) : Nat :=
  boxes.foldl (fun l b => if b.kind = kindL then (b.payload.headD 5).toNat else l) 5

end Jxl
