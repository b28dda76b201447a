import Verif.Model.Image

/-!
# Copies of sample buffers, with sharing (image/imagebuffer.go)

Rows of samples live in a memory and a buffer holds the addresses of its rows, so that two buffers can share rows.
-/
namespace Jxl

/-- The rows that have been allocated. -/
structure Rows where
  ints : List (List Int)
  floats : List (List F32)

/-- image/imagebuffer.go:14-24 `ImageBuffer`, with addresses of rows. -/
structure SharedBuffer where
  width : Int
  height : Int
  bufferType : Int
  floats : List Nat
  ints : List Nat

/-- image/imagebuffer.go:84-91 `copyInt32Matrix2D` and 93-100 `copyFloat32Matrix2D`: each row is copied to a new row. -/
def copyRows {α : Type} (mem : List (List α)) : List Nat → Res (List (List α) × List Nat)
  | [] => .ok (mem, [])
  | a :: as => do
    let row ← idx mem a
    let r ← copyRows (mem ++ [row]) as
    .ok (r.1, mem.length :: r.2)

/-- util/misc.go:12-18 `MakeMatrix2D`: new rows of zeros. -/
def makeRows {α : Type} (zero : α) (mem : List (List α)) (h w : Int) : Res (List (List α) × List Nat) := do
  let m ← makeMatrix zero h w
  .ok (mem ++ m, (List.range m.length).map (mem.length + ·))

/-- image/imagebuffer.go:67-82 `NewImageBufferFromImageBuffer`. -/
def sharedCopy (R : Rows) (b : SharedBuffer) (copyIt : Bool) : Res (Rows × SharedBuffer) :=
  if copyIt then do
    let i ← copyRows R.ints b.ints
    let f ← copyRows R.floats b.floats
    .ok (⟨i.1, f.1⟩, ⟨b.width, b.height, b.bufferType, f.2, i.2⟩)
  else do
    let i ← makeRows 0 R.ints b.height b.width
    let f ← makeRows (F32.fin 0) R.floats b.height b.width
    .ok (⟨i.1, f.1⟩, ⟨b.width, b.height, b.bufferType, f.2, i.2⟩)

/-- An assignment `m[y][x] = v` to a sample of the matrix whose rows are at the addresses `m`. -/
def pokeRow {α : Type} (mem : List (List α)) (m : List Nat) (y x : Int) (v : α) : Res (List (List α)) := do
  let a ← idx m y
  let row ← idx mem a
  let row ← setAt row x v
  setAt mem a row

/-- Assignments to the samples of a buffer. -/
inductive Poke where
  | int (y x : Int) (v : Int)
  | float (y x : Int) (v : F32)

/-- `b.IntBuffer[y][x] = v` or `b.FloatBuffer[y][x] = v`. -/
def poke (R : Rows) (b : SharedBuffer) : Poke → Res Rows
  | .int y x v => do
    let m ← pokeRow R.ints b.ints y x v
    .ok { R with ints := m }
  | .float y x v => do
    let m ← pokeRow R.floats b.floats y x v
    .ok { R with floats := m }

/-- A sequence of assignments. -/
def pokes (R : Rows) (b : SharedBuffer) : List Poke → Res Rows
  | [] => .ok R
  | p :: ps => do
    let R ← poke R b p
    pokes R b ps

end Jxl
