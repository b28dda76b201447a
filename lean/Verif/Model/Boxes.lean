import Verif.Model.ImageHeader
/-!
# The container (core/read_jxl_boxes.go) and the way to the image header (core/jxl_codestream_decoder.go)
-/
namespace Jxl

/-- core/read_jxl_boxes.go:195-201 `makeTag`, of a slice that starts at 0 and has the given length. -/
def makeTag (l : List UInt8) : Nat := l.foldl (fun t b => u64 (t <<< 8) ||| b.toNat) 0

/-- core/read_jxl_boxes.go:12 `JPEGXL_CONTAINER_HEADER`. -/
def containerHeader : List UInt8 := [0x00, 0x00, 0x00, 0x0C, 0x4A, 0x58, 0x4C, 0x20, 0x0D, 0x0A, 0x87, 0x0A]

/-- core/read_jxl_boxes.go:14 `JXLL`. -/
def tagJXLL : Nat := makeTag [0x6A, 0x78, 0x6C, 0x6C]
/-- core/read_jxl_boxes.go:15 `JXLP`. -/
def tagJXLP : Nat := makeTag [0x6A, 0x78, 0x6C, 0x70]
/-- core/read_jxl_boxes.go:16 `JXLC`. -/
def tagJXLC : Nat := makeTag [0x6A, 0x78, 0x6C, 0x63]

/-- core/read_jxl_boxes.go:19-25 `ContainerBoxHeader`; `Processed` is always false and `Offset` is never negative. -/
structure BoxHeader where
  tag : Nat
  size : Nat
  isLast : Bool
  offset : Nat
  deriving Repr, DecidableEq

/-- Go subtraction of `uint64`. -/
def sub64 (a b : Nat) : Nat := u64 (a + 18446744073709551616 - b)

/-- core/read_jxl_boxes.go:190-193 `SkipFully`: the argument is converted from `uint64` to `int64` by the callers, and to `uint32` here. -/
def skipFully (size : Nat) : Rd Int := do
  let n ← skipBytes (u32 size)
  Pure.pure (i64 (i64 size - n))

/-- core/read_jxl_boxes.go:88-101: the size of a box, without its header. -/
def readBoxSize : Rd Nat := do
  let b ← readBytesToBuffer 4
  let size0 := makeTag b
  let size1 ← readIf (size0 == 1) (do
    let b8 ← readBytesToBuffer 8
    let l := makeTag b8
    Pure.pure (if l > 0 then sub64 l 8 else l)) size0
  Pure.pure (if size1 > 0 then sub64 size1 8 else size1)

/-- `reader.Seek(0, io.SeekCurrent)`. -/
def filePos : Rd Nat := fun s => (.ok s.pos, s)

/-- core/read_jxl_boxes.go:142-148: the level. -/
def readLevel : Rd Nat := do
  let l ← readByte
  if l ≠ 5 ∧ l ≠ 10 then Rd.fail else Pure.pure l

/-- core/read_jxl_boxes.go:103-185: one box after its size; `boxes` and `level` are what has been found so far. -/
def readBoxBody (size : Nat) (boxes : List BoxHeader) (level : Nat) : Rd (List BoxHeader × Nat) := do
  let t ← readBytesToBuffer 4
  let tag := makeTag t
  if tag = tagJXLP then do
    let _ ← readBytesToBuffer 4
    let pos ← filePos
    let _ ← skipFully (sub64 size 4)
    Pure.pure (boxes ++ [⟨tag, sub64 size 4, false, pos⟩], level)
  else if tag = tagJXLL then
    if size ≠ 1 then Rd.fail else do
      let l ← readLevel
      Pure.pure (boxes, l)
  else if tag = tagJXLC then do
    let pos ← filePos
    let _ ← skipFully size
    Pure.pure (boxes ++ [⟨tag, size, false, pos⟩], level)
  else if size > 0 then do
    let rest ← skipFully size
    if rest ≠ 0 then Rd.fail else Pure.pure (boxes, level)
  else Rd.crash

/-- core/read_jxl_boxes.go:78-186: the loop of `readAllBoxes`, at most `fuel` rounds (`C32_terminates`: more than there are bytes are
never needed). At the end of the file the result is returned. -/
def boxLoop : Nat → List BoxHeader → Nat → Rd (List BoxHeader × Nat)
  | 0, _, _ => Rd.crash
  | fuel + 1, boxes, level => fun s =>
    if s.index = 0 ∧ s.data.length ≤ s.pos then (.ok (boxes, level), s)
    else (do
      let size ← readBoxSize
      let r ← readBoxBody size boxes level
      boxLoop fuel r.1 r.2) s

/-- core/read_jxl_boxes.go:39-70 `ReadBoxHeader`, from a reader that is not within a byte; the second component is the level. -/
def readBoxHeader : Rd (List BoxHeader × Nat) := do
  seekStart 0
  let sig ← readBytesToBuffer 12
  if sig ≠ containerHeader then Pure.pure ([⟨tagJXLC, 0, true, 0⟩], 5)
  else fun s => boxLoop (s.data.length + 1) [] 5 s

/-- core/jxl_codestream_decoder.go:53-82 `GetImageHeader`, up to the colour profile; `none` is the header `nil` returned at the end of
the file. -/
def getImageHeader : Rd (Option ImageHeader) := do
  let b ← readBoxHeader
  if b.1.length > 1 then Rd.fail
  else do
    let box ← Rd.lift (idx b.1 0)
    seekStart box.offset
    fun s => match atEnd s with
      | (true, s') => (.ok none, s')
      | (false, s') => (do
        let h ← readImageHeaderFields b.2
        Pure.pure (some h)) s'

/-- core/jxl_codestream_decoder.go:84-108: the beginning of `decode`, up to the colour profile; like `GetImageHeader`, but with any number
of boxes. -/
def decodeHeader : Rd (Option ImageHeader) := do
  let b ← readBoxHeader
  let box ← Rd.lift (idx b.1 0)
  seekStart box.offset
  fun s => match atEnd s with
    | (true, s') => (.ok none, s')
    | (false, s') => (do
      let h ← readImageHeaderFields b.2
      Pure.pure (some h)) s'

end Jxl
