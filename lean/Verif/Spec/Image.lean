import Verif.Model.Image

/-!
# Specification: pictures as tables of samples (C33, C35, C36)

Written from the EXIF standard and the text of the properties.
-/
namespace Jxl

/-- A table with `h` rows of `w` samples. -/
def Table {α : Type} (h w : Nat) (m : List (List α)) : Prop := m.length = h ∧ ∀ r ∈ m, r.length = w

/-- The sample in row `y` and column `x`, if there is one. -/
def sample {α : Type} (m : List (List α)) (y x : Nat) : Option α := (m[y]?).bind (fun r => r[x]?)

/-- Sides of the displayed picture. -/
inductive Side where
  | top | bottom | left | right
  deriving DecidableEq

/-- EXIF tag 0x0112: the side on which row 0 of the stored picture is displayed, and that of column 0. -/
def exif : Nat → Option (Side × Side)
  | 1 => some (.top, .left)
  | 2 => some (.top, .right)
  | 3 => some (.bottom, .right)
  | 4 => some (.bottom, .left)
  | 5 => some (.left, .top)
  | 6 => some (.right, .top)
  | 7 => some (.right, .bottom)
  | 8 => some (.left, .bottom)
  | _ => none

/-- A line `k` of `n` parallel lines, line 0 being on the side `s`: its distance from the left or from the top. -/
def Side.place (s : Side) (n k : Nat) : Nat :=
  match s with
  | .top | .left => k
  | .bottom | .right => n - 1 - k

/-- Is this the left or the right side? -/
def Side.vertical : Side → Bool
  | .left | .right => true
  | _ => false

/-- Where the stored sample in row `y`, column `x` of an `h × w` picture is displayed, as (row, column): if row 0 is
displayed at the left or right, then rows are displayed as columns. -/
def shown (rowSide colSide : Side) (h w y x : Nat) : Nat × Nat :=
  if rowSide.vertical then (colSide.place w x, rowSide.place h y) else (rowSide.place h y, colSide.place w x)

/-- Height and width of the displayed picture. -/
def shownSize (rowSide : Side) (h w : Nat) : Nat × Nat := if rowSide.vertical then (w, h) else (h, w)

/-- A buffer holding an integer picture. -/
def ImageBuffer.IntPicture (b : ImageBuffer) (h w : Nat) : Prop := b.bufferType = 0 ∧ b.height = h ∧ b.width = w ∧ Table h w b.ints
/-- A buffer holding a float picture. -/
def ImageBuffer.FloatPicture (b : ImageBuffer) (h w : Nat) : Prop := b.bufferType = 1 ∧ b.height = h ∧ b.width = w ∧ Table h w b.floats

/-- The nearest value in `[0, m]`. -/
def nearest (m v : Int) : Int := max 0 (min m v)

end Jxl
