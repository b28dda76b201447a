import Verif.Model.Util
import Verif.Model.Entropy

/-!
# Permutations: `readPermutation` (frame/Frame.go:199-281)

A Lehmer code read from the entropy coder, turned into a permutation with a Fenwick tree.
-/
namespace Jxl

/-- frame/Frame.go:199-201 `ctxFunc`. -/
def ctxFunc (x : Nat) : Int := min 7 (ceilLog1p x)

/-- frame/Frame.go:222-236: the loop that reads `n` further entries of the Lehmer code starting at
index `i`; `prev` is the value of `ctxVal` for that index (0 at index `skip`, the previous entry
after that). -/
def lehmerLoop (size : Nat) : Nat → Nat → Nat → ES → Rd (List Nat × ES)
  | 0, _, _, es => Pure.pure ([], es)
  | n + 1, i, prev, es => do
    let r ← es.readSymbol (ctxFunc prev)
    if size - i ≤ toU32 r.1 then Rd.fail
    else do
      let rest ← lehmerLoop size n (i + 1) (toU32 r.1) r.2
      Pure.pure (toU32 r.1 :: rest.1, rest.2)

/-- frame/Frame.go:213-236: the whole Lehmer code, `size` entries, zero outside `[skip, skip+end)`.
Both callers pass `skip ≤ size`, so `size - skip` does not wrap. -/
def readLehmer (size skip : Nat) (es : ES) : Rd (List Nat × ES) := do
  let r ← es.readSymbol (ctxFunc size)
  if size - skip < toU32 r.1 then Rd.fail
  else do
    let codes ← lehmerLoop size (toU32 r.1) skip 0 r.2
    Pure.pure (List.replicate skip 0 ++ codes.1 ++ List.replicate (size - skip - toU32 r.1) 0, codes.2)

/-- The Go expression `i & (-i)` on a non-negative 64-bit `int` (frame/Frame.go:246, 269). -/
def lowbit (i : Nat) : Nat := i &&& u64 (2 ^ 64 - i)

/-- frame/Frame.go:244-247: the Fenwick tree of `size` ones. -/
def fenwickInit (size : Nat) : List Int := (List.range (size + 1)).map (fun i => (lowbit i : Int))

/-- frame/Frame.go:252-255: doubling `mask` until it exceeds `size`. -/
def growMask (size : Nat) (mask : Nat) : Nat :=
  if mask = 0 then 0
  else if mask ≤ size then growMask size (mask * 2) else mask
termination_by size + 1 - mask

/-- frame/Frame.go:256-261: the descent of `findKth`; `mask` is the value tested by this iteration. -/
def findKthLoop (size : Nat) (tree : List Int) (mask pos : Nat) (k : Int) : Res Nat :=
  if mask = 0 then .ok (pos + 1)
  else if pos + mask ≤ size then do
    let t ← idx tree (pos + mask : Nat)
    if t < k then findKthLoop size tree (mask / 2) (pos + mask) (k - t)
    else findKthLoop size tree (mask / 2) pos k
  else findKthLoop size tree (mask / 2) pos k
termination_by mask

/-- frame/Frame.go:250-263 `findKth`. -/
def findKth (size : Nat) (tree : List Int) (k : Int) : Res Nat :=
  findKthLoop size tree (growMask size 1 / 2) 0 k

/-- frame/Frame.go:266-271 `markUsed`. The Go loop runs while `pos <= size`; the fuel is a bound on
its iterations (running out of it is modelled as a panic, and is proved not to happen). -/
def markUsed (size : Nat) : Nat → List Int → Nat → Res (List Int)
  | fuel, tree, pos =>
    if pos ≤ size then
      match fuel with
      | 0 => .panic
      | fuel + 1 => do
        let t ← idx tree (pos : Nat)
        let tree' ← setAt tree (pos : Nat) (t - 1)
        markUsed size fuel tree' (pos + lowbit pos)
    else .ok tree

/-- frame/Frame.go:273-278: one entry of the permutation per entry of the Lehmer code. -/
def permLoop (size : Nat) : List Nat → List Int → Res (List Nat)
  | [], _ => .ok []
  | k :: ks, tree => do
    let val ← findKth size tree ((k : Int) + 1)
    let tree' ← markUsed size (size + 1) tree val
    let rest ← permLoop size ks tree'
    Pure.pure ((val - 1) :: rest)

/-- frame/Frame.go:212-281 `readPermutation`. -/
def readPermutation (size skip : Nat) (es : ES) : Rd (List Nat × ES) := do
  let l ← readLehmer size skip es
  let p ← Rd.lift (permLoop size l.1 (fenwickInit size))
  Pure.pure (p, l.2)

end Jxl
