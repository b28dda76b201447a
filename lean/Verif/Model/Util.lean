import Verif.Model.Go
/-!
# `util`: integer helpers, slice helpers, deque, range iterator
-/
namespace Jxl

/-- `64 - bits.LeadingZeros64(x)` (Go standard library): the number of binary digits of `x`. -/
def bitLen (x : Nat) : Nat := if x = 0 then 0 else Nat.log2 x + 1

/-- util/MathsHelper.go:43-49 `CeilLog1p`, `CeilLog1pUint64` for a non-negative argument (`uint64(x)` is `x`). -/
def ceilLog1p (x : Nat) : Nat := bitLen x

/-- util/MathsHelper.go:43-45 `CeilLog1p` for a signed argument: the conversion to `uint64` wraps. -/
def ceilLog1pInt (x : Int) : Nat := bitLen (x % 18446744073709551616).toNat

/-- util/MathsHelper.go:51-65 `FloorLog1p`, `FloorLog1pUint64`; the addition `x+1` wraps at the width `w` of the
type. -/
def floorLog1p (w x : Nat) : Nat :=
  let c := ceilLog1p x
  if ((x + 1) % 2 ^ w) &&& x ≠ 0 then c - 1 else c

/-- util/MathsHelper.go:67-69 `CeilLog2` for an unsigned type of `w` bits: the subtraction wraps. -/
def ceilLog2 (w x : Nat) : Nat := ceilLog1p ((x + (2 ^ w - 1)) % 2 ^ w)

/-- util/MathsHelper.go:301-303 `CeilDiv` on `uint32`; division by zero panics. -/
def ceilDiv (numerator denominator : Nat) : Res Nat :=
  if denominator = 0 then .panic
  else .ok (u32 (u32 (numerator + 4294967295) / denominator + 1))

/-- util/MathsHelper.go:117-133 `Clamp3`, on `int32` bit patterns. -/
def clamp3 (v a b : BitVec 32) : BitVec 32 :=
  let lower := if a.slt b then a else b
  let upper := lower ^^^ a ^^^ b
  if v.slt lower then lower else if upper.slt v then upper else v

/-- util/MathsHelper.go:157-183 `Clamp`. -/
def clamp4 (v a b c : BitVec 32) : BitVec 32 :=
  let lower := if a.slt b then a else b
  let upper := lower ^^^ a ^^^ b
  let lower := if c.sle lower then c else lower
  let upper := if upper.sle c then c else upper
  if v.slt lower then lower else if upper.slt v then upper else v

/-- util/MathsHelper.go:188-193 `Abs` for `int32`. -/
def abs32 (a : Int) : Int := if a < 0 then i32 (-a) else a

/-- util/MathsHelper.go:435-445 `MirrorCoordinate`. `none` means the loop does not terminate: for `size ≤ 0` no
coordinate is in range. Simplification: the arithmetic is done in `Int`; for `0 < size < 2^30` no operation of the
loop leaves the `int32` range. -/
def mirrorCoordinate (c size : Int) : Option Int :=
  if hs : size ≤ 0 then none
  else if c < 0 then
    mirrorCoordinate (-c - 1) size          -- tc = ^c ≥ 0
  else if size ≤ c then
    mirrorCoordinate (2 * size + (-c - 1)) size
  else some c
termination_by if c < 0 then 2 * (-c - 1).toNat + 1 else 2 * c.toNat
decreasing_by
  all_goals (repeat' split) <;> omega

/-- A Go slice that starts at the beginning of its backing array: `arr` is the array (its length is the capacity),
`len` the length. -/
structure Slice (α : Type) where
  arr : List α
  len : Nat
  deriving Repr, DecidableEq

/-- The elements of the slice. -/
def Slice.elems {α : Type} (s : Slice α) : List α := s.arr.take s.len

/-- util/misc.go:96-100 `Add`. Returns the elements of the new slice and the elements that the caller's old slice shows
afterwards. `append` writes into the backing array while there is capacity and copies otherwise; `slice[index:]` is
evaluated after the first `append`. Negative or too large indices panic. -/
def goAdd {α : Type} (s : Slice α) (index : Int) (elem : α) : Res (List α × List α) :=
  if index < 0 ∨ (s.arr.length : Int) < index then .panic      -- slice[:index]
  else
    let i := index.toNat
    -- newSlice := append(slice[:index], elem)
    let arr1 := if i < s.arr.length then s.arr.set i elem else s.arr        -- caller's array
    let new1 := s.arr.take i ++ [elem]
    if s.len < i then .panic                                   -- slice[index:]
    else
      let tail := (arr1.take s.len).drop i                     -- slice[index:]
      let res := new1 ++ tail
      -- the second append writes in place iff the first one did and there is still room
      let arr2 := if i < s.arr.length ∧ s.len + 1 ≤ s.arr.length then res ++ arr1.drop (s.len + 1) else arr1
      .ok (res, arr2.take s.len)

/-- util/sliceutil.go:3-25 `AddToSlice` (the elements of the result). -/
def addToSlice {α : Type} (s : Slice α) (pos : Int) (item : α) : Res (List α) :=
  if s.len = 0 then .ok [item]
  else if pos = s.len then .ok (s.elems ++ [item])
  else if pos < 0 ∨ (s.len : Int) < pos then .panic            -- tempSlice[:pos], slice[:pos] or tempSlice[pos]
  else
    let p := pos.toNat
    .ok (s.elems.take p ++ [item] ++ s.elems.drop p)

/-- util/deque.go: operations of the deque. -/
inductive DequeOp (α : Type) where
  | addFirst (x : α)
  | addLast (x : α)
  | removeFirst
  | removeLast
  | isEmpty

/-- What an operation returns. -/
inductive DequeOut (α : Type) where
  | unit
  | item (x : Option α)
  | bool (b : Bool)
  deriving DecidableEq, Repr

/-- util/deque.go:14-45. The slice may share its backing array only with its own earlier versions, so a list suffices. -/
def dequeStep {α : Type} (d : List α) : DequeOp α → List α × DequeOut α
  | .addFirst x => ([x] ++ d, .unit)
  | .addLast x => (d ++ [x], .unit)
  | .removeFirst => match d with
    | [] => (d, .item none)
    | x :: rest => (rest, .item (some x))
  | .removeLast => match d.getLast? with
    | none => (d, .item none)
    | some x => (d.take (d.length - 1), .item (some x))
  | .isEmpty => (d, .bool (d.length == 0))

/-- util/RangeInterator.go:9-23, one call of the closure: the new (x,y) and the point returned, or `none` for EOF.
All variables are `uint32`; the theorems exclude `endX`, `endY` = 2^32-1 where `x++` would wrap. -/
def rangeIterStep (startX endX endY : Nat) (x y : Nat) : (Nat × Nat) × Option (Nat × Nat) :=
  let (x, y) := if endX < x then (startX, y + 1) else (x, y)
  if endY < y then ((x, y), none)
  else ((x + 1, y), some (x + 1, y))

/-- The points produced by calling the closure `n` times or until EOF. -/
def rangeIterRun (startX endX endY : Nat) : Nat → Nat → Nat → List (Nat × Nat)
  | 0, _, _ => []
  | n + 1, x, y =>
    match rangeIterStep startX endX endY x y with
    | (_, none) => []
    | ((x', y'), some p) => p :: rangeIterRun startX endX endY n x' y'

end Jxl
