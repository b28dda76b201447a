import Verif.Model.Entropy

/-!
# Meta-adaptive trees (frame/MATree.go)
-/
namespace Jxl

/-- The payload of a leaf of `MATreeNode` (frame/MATree.go:10-23). -/
structure MALeaf where
  context : Int
  predictor : Int
  offset : Int
  multiplier : Int
  deriving Repr, DecidableEq

/-- frame/MATree.go:10-23 `MATreeNode` as it is before the nodes are linked: an inner node (`property >= 0`) has the
indices of its children, a leaf (`property = -1`) its payload. -/
inductive MANode where
  | inner (property value : Int) (left right : Nat)
  | leaf (l : MALeaf)
  deriving Repr, DecidableEq

/-- A linked tree (frame/MATree.go:114-121): children are reached through pointers. -/
inductive MATree where
  | node (property value : Int) (left right : MATree)
  | leaf (l : MALeaf)
  deriving Repr, DecidableEq

/-- entropy/EntropyStream.go:304-310 `TryReadSymbol`: an error becomes a panic. -/
def ES.tryReadSymbol (es : ES) (context : Int) : Rd (Int × ES) := fun s =>
  match es.readSymbol context s with
  | (.ok r, s') => (.ok r, s')
  | (_, s') => (.panic, s')

/-- The limit `(1<<(31-mulLog))-2` of frame/MATree.go:91 in `int32` arithmetic. A negative shift count panics. -/
def mulBitsLimit (mulLog : Int) : Res Int :=
  let sh := i32 (31 - mulLog)
  if sh < 0 then .panic else .ok (i32 (i32 (2 ^ sh.toNat) - 2))

/-- frame/MATree.go:94: `(mulBits + 1) << uint(mulLog)`. A negative `mulLog` is a huge shift count, which gives 0. -/
def leafMultiplier (mulBits mulLog : Int) : Int :=
  if mulLog < 0 then 0 else i32 (i32 (mulBits + 1) * 2 ^ mulLog.toNat)

/-- frame/MATree.go:67-101: the fields of a leaf. -/
def readLeaf (context : Int) (es : ES) : Rd (MALeaf × ES) := do
  let p ← es.readSymbol 2
  if 13 < p.1 then Rd.fail
  else do
    let o ← p.2.tryReadSymbol 3
    let l ← o.2.readSymbol 4
    if 30 < l.1 then Rd.fail
    else do
      let b ← l.2.readSymbol 5
      let limit ← Rd.lift (mulBitsLimit l.1)
      if limit < b.1 then Rd.fail
      else Pure.pure (⟨context, p.1, unpackSigned (toU32 o.1), leafMultiplier b.1 l.1⟩, b.2)

/-- frame/MATree.go:38-103: the loop that reads the nodes. The arguments are the room left in the table (the loop fails
when more than 2^20 nodes have been read, so the room starts as 2^20+1), `nodesRemaining`, `contextId`, `nodes`. -/
def maLoop : Nat → Nat → Nat → List MANode → ES → Rd (List MANode × ES)
  | _, 0, _, nodes, es => Pure.pure (nodes, es)
  | 0, _ + 1, _, _, _ => Rd.fail
  | room + 1, remaining + 1, contextId, nodes, es => do
    let p ← es.readSymbol 1
    let property := i32 (p.1 - 1)
    if 0 ≤ property then do
      let v ← p.2.tryReadSymbol 0
      let leftChild := nodes.length + remaining + 1
      maLoop room (remaining + 2) contextId
        (nodes ++ [.inner property (unpackSigned (toU32 v.1)) leftChild (leftChild + 1)]) v.2
    else do
      let l ← readLeaf contextId p.2
      maLoop room remaining (contextId + 1) (nodes ++ [.leaf l.1]) l.2

/-- frame/MATree.go:114-121: following the child indices from node `i`. The depth of the recursion is bounded by the
number of nodes; a missing node, or a cycle, would be a panic (an index out of range, a stack overflow). -/
def linkTree (nodes : List MANode) : Nat → Nat → Res MATree
  | 0, _ => .panic
  | depth + 1, i => do
    let n ← idx nodes (i : Int)
    match n with
    | .leaf l => Pure.pure (.leaf l)
    | .inner p v left right => do
      let a ← linkTree nodes depth left
      let b ← linkTree nodes depth right
      Pure.pure (.node p v a b)

/-- frame/MATree.go:25-123 `NewMATreeWithReader`: the tree and the stream for its leaves. -/
def readMATree : Rd (MATree × ES) := do
  let es ← ES.load 6 false
  let r ← maLoop (2 ^ 20 + 1) 1 0 [] es
  if r.2.validateFinalState then do
    let leafStream ← ES.load ((r.1.length + 1) / 2) false
    let t ← Rd.lift (linkTree r.1 r.1.length 0)
    Pure.pure (t, leafStream)
  else Rd.fail

/-- frame/MATree.go:129-149 `compactifyWithY`. -/
def MATree.compactifyWithY (channelIndex streamIndex y : Int) : MATree → MATree
  | .leaf l => .leaf l
  | .node p v a b =>
    if p = 0 then if v < channelIndex then a.compactifyWithY channelIndex streamIndex y else b.compactifyWithY channelIndex streamIndex y
    else if p = 1 then if v < streamIndex then a.compactifyWithY channelIndex streamIndex y else b.compactifyWithY channelIndex streamIndex y
    else if p = 2 then if v < y then a.compactifyWithY channelIndex streamIndex y else b.compactifyWithY channelIndex streamIndex y
    else .node p v a b

/-- frame/MATree.go:151-170 `compactify`. -/
def MATree.compactify (channelIndex streamIndex : Int) : MATree → MATree
  | .leaf l => .leaf l
  | .node p v a b =>
    if p = 0 then if v < channelIndex then a.compactify channelIndex streamIndex else b.compactify channelIndex streamIndex
    else if p = 1 then if v < streamIndex then a.compactify channelIndex streamIndex else b.compactify channelIndex streamIndex
    else .node p v a b

/-- frame/MATree.go:172-180 `useWeightedPredictor`. -/
def MATree.useWP : MATree → Bool
  | .leaf l => l.predictor == 6
  | .node p _ a b => p == 15 || a.useWP || b.useWP

/-- frame/MATree.go:182-197 `walk`; the property values come from a callback that may fail. -/
def MATree.walk (f : Int → Res Int) : MATree → Res MALeaf
  | .leaf l => .ok l
  | .node p v a b => do
    let x ← f p
    if v < x then a.walk f else b.walk f

/-- frame/MATree.go:200-207 `getSize`. -/
def MATree.size : MATree → Nat
  | .leaf _ => 1
  | .node _ _ a b => 1 + a.size + b.size

/-- The leaves of a linked tree, in the order of a depth-first traversal. -/
def MATree.leaves : MATree → List MALeaf
  | .leaf l => [l]
  | .node _ _ a b => a.leaves ++ b.leaves

end Jxl
