import Verif.Model.TransformType
import Verif.Model.Permutation

/-!
# Coefficient orders (frame/HFPass.go:80-210)

`slices.SortFunc` is modelled by merge sort: Go promises only that the result is sorted by the comparison, which determines the result
(`naturalOrder_unique`). Coordinates are below 256, so that no difference or product wraps around.
-/
namespace Jxl

/-- util/Point: coordinates. -/
structure Point where
  y : Int
  x : Int
  deriving DecidableEq, Repr

/-- frame/HFPass.go:151-155: the positions of a block, row by row. -/
def rowMajor (h w : Nat) : List Point := (List.range h).flatMap (fun (y : Nat) => (List.range w).map (fun (x : Nat) => (⟨(y : Int), (x : Int)⟩ : Point)))

/-- frame/HFPass.go:167-210 `getNaturalOrderFunc`. -/
def naturalCmp (tt : TransformType) (a b : Point) : Int :=
  let maxDim := max tt.dctHeight tt.dctWidth
  let aLLF := a.y < tt.dctHeight ∧ a.x < tt.dctWidth
  let bLLF := b.y < tt.dctHeight ∧ b.x < tt.dctWidth
  if aLLF ∧ ¬ bLLF then -1
  else if ¬ aLLF ∧ bLLF then 1
  else if aLLF ∧ bLLF then
    if b.y ≠ a.y then a.y - b.y else a.x - b.x
  else
    let aSY := a.y * (maxDim / tt.dctHeight)
    let aSX := a.x * (maxDim / tt.dctWidth)
    let bSY := b.y * (maxDim / tt.dctHeight)
    let bSX := b.x * (maxDim / tt.dctWidth)
    if aSY + aSX ≠ bSY + bSX then (aSY + aSX) - (bSY + bSX)
    else
      let aKey2 := if (aSY + aSX) % 2 = 1 then -(aSX - aSY) else aSX - aSY
      let bKey2 := if (bSY + bSX) % 2 = 1 then -(bSX - bSY) else bSX - bSY
      aKey2 - bKey2

/-- frame/HFPass.go:143-165 `getNaturalOrder`. -/
def naturalOrder (tt : TransformType) : List Point :=
  (rowMajor tt.pixelHeight.toNat tt.pixelWidth.toNat).mergeSort (fun a b => naturalCmp tt a b ≤ 0)

/-- frame/HFPass.go:117-119: the natural order, permuted. -/
def permuted (natural : List Point) : List Nat → Res (List Point)
  | [] => .ok []
  | p :: ps => do
    let a ← idx natural p
    let r ← permuted natural ps
    .ok (a :: r)

/-- frame/HFPass.go:110-123: the order of one class and one channel. -/
def readOrder (natural : List Point) (used : Bool) (es : ES) : Rd (List Point × ES) :=
  if used then do
    let p ← readPermutation natural.length (natural.length / 64) es
    let o ← Rd.lift (permuted natural p.1)
    pure (o, p.2)
  else pure (natural, es)

/-- frame/HFPass.go:109-124: the orders of the three channels (`n` of them left). -/
def readChannelOrders (natural : List Point) (used : Bool) : Nat → ES → Rd (List (List Point) × ES)
  | 0, es => pure ([], es)
  | n + 1, es => do
    let o ← readOrder natural used es
    let r ← readChannelOrders natural used n o.2
    pure (o.1 :: r.1, r.2)

/-- frame/HFPass.go:102-125: the orders of the classes `b`, `b + 1`, … (`n` of them). -/
def readOrders (usedOrders : Nat) : Nat → Nat → ES → Rd (List (List (List Point)) × ES)
  | 0, _, es => pure ([], es)
  | n + 1, b, es => do
    let tt ← Rd.lift (filterByOrderID b)
    let o ← readChannelOrders (naturalOrder tt) (usedOrders.testBit b) 3 es
    let r ← readOrders usedOrders n (b + 1) o.2
    pure (o.1 :: r.1, r.2)

/-- frame/HFPass.go:79-84 `HFPass`; the natural orders are a cache. -/
structure HFPass where
  order : List (List (List Point))
  contextStream : ES
  usedOrders : Nat

/-- A stream that is not read from, in place of Go's `nil`. -/
def noStream : ES := ES.mk' [] [] none

/-- frame/HFPass.go:86-141 `NewHFPassWithReader`. -/
def readHFPass (numHFPresets numClusters : Int) : Rd HFPass := do
  let usedOrders ← readU32 0x5F 0 0x13 0 0 0 0 13
  if usedOrders ≠ 0 then do
    let es ← ES.load 8 false
    let o ← readOrders usedOrders 13 0 es
    if o.2.validateFinalState then do
      let ctx ← ES.load (i32 (i32 (495 * numHFPresets) * numClusters)).toNat false
      pure ⟨o.1, ctx, usedOrders⟩
    else Rd.fail
  else do
    let o ← readOrders usedOrders 13 0 noStream
    let ctx ← ES.load (i32 (i32 (495 * numHFPresets) * numClusters)).toNat false
    pure ⟨o.1, ctx, usedOrders⟩

end Jxl
