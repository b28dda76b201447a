import Verif.Model.Go
/-!
# `util/buffer_pool.go`: matrix pools

The heap holds two-dimensional matrices; a reference is an index into it. A three-dimensional matrix is a list of
references: that is how Go represents it (a slice of row slices), and the code builds some of its three-dimensional
matrices from separately allocated ones. `int32` and `float32` elements are both represented by `Int` (only "zero or
not" and identity matter here). Each call of Get or Put is one step: the map of pools is read under its lock, the
`sync.Pool` operation is atomic, and the clearing loop of Put runs while the matrix is still private to the caller, so a
concurrent execution is an interleaving of such steps.
-/
namespace Jxl

abbrev Mat := List (List Int)

def zeroMat (h w : Nat) : Mat := List.replicate h (List.replicate w 0)

/-- The assignments `matrix[i][j] = zero` over a whole matrix. -/
def clearMat (m : Mat) : Mat := m.map fun row => row.map fun _ => 0

/-- State: the heap, the pools that exist (`keys3`, `keys2`) and their contents. -/
structure PoolSt where
  heap : List Mat := []
  keys3 : List (Nat × Nat × Nat) := []
  items3 : List ((Nat × Nat × Nat) × List Nat) := []
  keys2 : List (Nat × Nat) := []
  items2 : List ((Nat × Nat) × Nat) := []
  deriving DecidableEq, Repr

/-- util/misc.go:12-18 `MakeMatrix2D`. -/
def makeMatrix2D (s : PoolSt) (h w : Nat) : PoolSt × Nat :=
  ({ s with heap := s.heap ++ [zeroMat h w] }, s.heap.length)

/-- util/misc.go:20-29 `MakeMatrix3D`. -/
def makeMatrix3D (s : PoolSt) (d h w : Nat) : PoolSt × List Nat :=
  ({ s with heap := s.heap ++ List.replicate d (zeroMat h w) }, List.range' s.heap.length d)

/-- util/buffer_pool.go:31-67 `Matrix3DPool.Get`. `choice` is what `sync.Pool.Get` does: `some i` hands out item `i` of
the pools' contents (only possible if it lies in the pool of this key), anything else calls `New`. -/
def get3 (s : PoolSt) (d h w : Nat) (choice : Option Nat) : PoolSt × List Nat :=
  if d = 0 ∨ h = 0 ∨ w = 0 then makeMatrix3D s d h w
  else
    let s := if (d, h, w) ∈ s.keys3 then s else { s with keys3 := (d, h, w) :: s.keys3 }
    match choice.bind (fun i => (s.items3[i]?).map (fun e => (i, e))) with
    | some (i, (k, m)) => if k = (d, h, w) then ({ s with items3 := s.items3.eraseIdx i }, m) else makeMatrix3D s d h w
    | none => makeMatrix3D s d h w

/-- util/buffer_pool.go:120-153 `Matrix2DPool.Get`. -/
def get2 (s : PoolSt) (h w : Nat) (choice : Option Nat) : PoolSt × Nat :=
  if h = 0 ∨ w = 0 then makeMatrix2D s h w
  else
    let s := if (h, w) ∈ s.keys2 then s else { s with keys2 := (h, w) :: s.keys2 }
    match choice.bind (fun i => (s.items2[i]?).map (fun e => (i, e))) with
    | some (i, (k, m)) => if k = (h, w) then ({ s with items2 := s.items2.eraseIdx i }, m) else makeMatrix2D s h w
    | none => makeMatrix2D s h w

/-- Clear the matrices with the given references (the loops of Put). -/
def clearRefs (heap : List Mat) (refs : List Nat) : List Mat :=
  refs.foldl (fun hp r => hp.modify r clearMat) heap

/-- util/buffer_pool.go:70-100 `Matrix3DPool.Put`. The dimensions are those of `matrix[0]` and `matrix[0][0]`. -/
def put3 (s : PoolSt) (m : List Nat) : PoolSt :=
  match m with
  | [] => s
  | r0 :: _ =>
    match s.heap[r0]? with
    | some (row0 :: rows) =>
      let key := (m.length, (row0 :: rows).length, row0.length)
      if key ∈ s.keys3 then { s with heap := clearRefs s.heap m, items3 := (key, m) :: s.items3 } else s
    | _ => s

/-- util/buffer_pool.go:156-178 `Matrix2DPool.Put`. -/
def put2 (s : PoolSt) (r : Nat) : PoolSt :=
  match s.heap[r]? with
  | some (row0 :: rows) =>
    let key := ((row0 :: rows).length, row0.length)
    if key ∈ s.keys2 then { s with heap := clearRefs s.heap [r], items2 := (key, r) :: s.items2 } else s
  | _ => s

/-- What code using the pools can do. -/
inductive PoolOp where
  | get3 (d h w : Nat) (choice : Option Nat)
  | get2 (h w : Nat) (choice : Option Nat)
  | put3 (m : List Nat)
  | put2 (r : Nat)
  | alloc (h w : Nat)
  | write (r : Nat) (m : Mat)

/-- One step: the new state and the references handed out. -/
def poolStep (s : PoolSt) : PoolOp → PoolSt × List Nat
  | .get3 d h w c => get3 s d h w c
  | .get2 h w c => let r := get2 s h w c; (r.1, [r.2])
  | .put3 m => (put3 s m, [])
  | .put2 r => (put2 s r, [])
  | .alloc h w => let r := makeMatrix2D s h w; (r.1, [r.2])
  | .write r m => ({ s with heap := s.heap.set r m }, [])

/-- frame/Frame.go:786-837 and 1407-1415, 1147-1151, 1389-1393: what the decoder of a VarDCT frame does with the pools
once the pixels `pix` (three channels of `h × w`) have been computed into the freshly allocated buffers of the frame.
The three buffers are collected in `buffers` (a pool matrix of dimensions 3×0×0, whose rows are replaced), and the
deferred `ReturnMatrix3DToPool(buffers)` runs when `decodePassGroupsConcurrent` returns. The restoration filters then
read the frame's buffers: this is what is returned. With the edge preserving filter on, one iteration gets an input and
an output matrix and puts the input back. -/
def frameTail (s : PoolSt) (pix : List Mat) (h w : Nat) (epf : Bool) (c1 c2 : Option Nat) : PoolSt × List Mat :=
  -- f.Buffer[c]: three fresh matrices holding the pixels
  let refs := List.range' s.heap.length 3
  let s : PoolSt := { s with heap := s.heap ++ pix }
  -- buffers := MakeMatrix3DPooled(3,0,0); buffers[c] = f.Buffer[c].FloatBuffer; return to pool
  let s := (get3 s 3 0 0 none).1
  let s := put3 s refs
  -- what the rest of the decoder sees in f.Buffer
  let seen := refs.map fun r => (s.heap[r]?).getD []
  -- copyFloatBuffers twice, then the input goes back
  let s := if epf then
      let g1 := get3 s 3 h w c1
      let g2 := get3 g1.1 3 h w c2
      put3 g2.1 g1.2
    else s
  (s, seen)

end Jxl
