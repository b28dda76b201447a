import Verif.Model.FrameHeader

/-!
# The groups of a frame (frame/Frame.go:114-125, 507-538, 702-714, 1579-1631)

Unsigned subtraction wraps around. Group numbers are `int32`.
-/
namespace Jxl

/-- A difference of `uint32`. -/
def subU32 (a b : Nat) : Nat := u32 (a + 4294967296 - u32 b)

/-- `frame.Frame`: the numbers of groups. -/
structure Layout where
  groupRowStride : Nat
  lfGroupRowStride : Nat
  numGroups : Nat
  numLFGroups : Nat
  deriving DecidableEq

/-- frame/Frame.go:119-122 (in `ReadFrameHeader`). -/
def frameLayout (f : FrameHeader) : Res Layout := do
  let s ← ceilDiv f.size.width f.groupDim
  let ls ← ceilDiv f.size.width (u32 (f.groupDim <<< 3))
  let r ← ceilDiv f.size.height f.groupDim
  let lr ← ceilDiv f.size.height (u32 (f.groupDim <<< 3))
  .ok ⟨s, ls, u32 (s * r), u32 (ls * lr)⟩

/-- One side of the frame in frame/Frame.go:513-537. -/
def paddedFrameSide (vardct : Bool) (d shift : Nat) : Res Nat :=
  if vardct then do
    let a ← ceilDiv (u32 (d + 7) >>> 3) (1 <<< shift)
    .ok (u32 (u32 (a * 1 <<< shift) <<< 3))
  else do
    let a ← ceilDiv d (1 <<< shift)
    .ok (u32 (a * 1 <<< shift))

/-- frame/Frame.go:507-538 `GetPaddedFrameSize`. -/
def paddedFrameSize (f : FrameHeader) : Res Dim := do
  let h ← paddedFrameSide (f.encoding == 0) f.size.height (maxList f.jpegY)
  let w ← paddedFrameSide (f.encoding == 0) f.size.width (maxList f.jpegX)
  .ok ⟨w, h⟩

/-- frame/Frame.go:1594-1600 `getLFGroupLocation`, `getGroupLocation`: row and column of a group. -/
def gridLocation (stride : Nat) (id : Int) : Res (Int × Int) :=
  if i32 stride = 0 then .panic else .ok (i32 (Int.tdiv id (i32 stride)), i32 (Int.tmod id (i32 stride)))

/-- frame/Frame.go:1586-1587, 1625-1626: one side of a group. -/
def groupSide (dim padded : Nat) (pos : Int) : Nat := min dim (subU32 padded (toU32 pos * dim))

/-- A rectangle of pixels: row and column of its corner, height and width. -/
structure Area where
  y : Int
  x : Int
  height : Nat
  width : Nat
  deriving DecidableEq

/-- frame/Frame.go:1618-1631 `getGroupSize`; the corner is that of frame/PassGroup.go:119-121 (which is written for groups of 256 pixels). -/
def groupArea (f : FrameHeader) (l : Layout) (id : Int) : Res Area := do
  let p ← gridLocation l.groupRowStride id
  let s ← paddedFrameSize f
  .ok ⟨i32 (p.1 * f.groupDim), i32 (p.2 * f.groupDim), groupSide f.groupDim s.height p.1, groupSide f.groupDim s.width p.2⟩

/-- frame/Frame.go:1579-1592 `getLFGroupSize`. -/
def lfGroupArea (f : FrameHeader) (l : Layout) (id : Int) : Res Area := do
  let p ← gridLocation l.lfGroupRowStride id
  let s ← paddedFrameSize f
  .ok ⟨i32 (p.1 * f.lfGroupDim), i32 (p.2 * f.lfGroupDim), groupSide f.lfGroupDim s.height p.1, groupSide f.lfGroupDim s.width p.2⟩

/-- frame/Frame.go:1602-1606 `getLFGroupForGroup`: the number of the LF group; using it fails unless it is one of the LF groups. -/
def lfGroupFor (l : Layout) (id : Int) : Res Int := do
  let p ← gridLocation l.groupRowStride id
  let i := i32 (i32 (p.1 / 8 * i32 l.lfGroupRowStride) + p.2 / 8)
  if 0 ≤ i ∧ i < l.numLFGroups then .ok i else .panic

/-- frame/Frame.go:1608-1616 `groupPosInLFGroup`. -/
def groupPosInLFGroup (l : Layout) (lf id : Int) : Res (Int × Int) := do
  let g ← gridLocation l.groupRowStride id
  let p ← gridLocation l.lfGroupRowStride lf
  .ok (i32 (g.1 - i32 (p.1 * 8)), i32 (g.2 - i32 (p.2 * 8)))

/-- frame/Frame.go:703-713 (in `doProcessing`): the part of a channel of the given size and shifts that belongs to a group. -/
def channelTile (groupDim height width vshift hshift : Nat) (id : Nat) : Res Area := do
  let gh := groupDim >>> vshift
  let gw := groupDim >>> hshift
  let stride ← ceilDiv width gw
  if stride = 0 then .panic
  else
    let y := u32 (id / stride * gh)
    let x := u32 (id % stride * gw)
    .ok ⟨i32 y, i32 x, min (subU32 height (toU32 (i32 y))) gh, min (subU32 width (toU32 (i32 x))) gw⟩

/-- Go's `copy(dst[x:], src)`. -/
def copyInto {α : Type} (dst : List α) (x : Int) (src : List α) : Res (List α) :=
  if x < 0 ∨ (dst.length : Int) < x then .panic
  else .ok (dst.take x.toNat ++ src.take (dst.length - x.toNat) ++ dst.drop (x.toNat + src.length))

/-- frame/Frame.go:773-776 (in `decodePassGroupsConcurrent`): the rows of a group are copied into the channel. -/
def pasteRows {α : Type} (x : Int) : List (List α) → Int → List (List α) → Res (List (List α))
  | [], _, buf => .ok buf
  | r :: rs, y, buf => do
    let row ← idx buf y
    let row ← copyInto row x r
    let buf ← setAt buf y row
    pasteRows x rs (y + 1) buf

/-- frame/Frame.go:770-777: all groups of a channel. -/
def pasteGroups {α : Type} : List (Area × List (List α)) → List (List α) → Res (List (List α))
  | [], buf => .ok buf
  | (a, rows) :: ts, buf => do
    let buf ← pasteRows a.x rows a.y buf
    pasteGroups ts buf

/-- frame/Frame.go:648-659 (in `decodeLFGroups`): all LF groups of a channel. Rows are copied to the left end of the channel. -/
def pasteLFGroups {α : Type} : List (Area × List (List α)) → List (List α) → Res (List (List α))
  | [], buf => .ok buf
  | (a, rows) :: ts, buf => do
    let buf ← pasteRows 0 rows a.y buf
    pasteLFGroups ts buf

end Jxl
