import Verif.Model.Go
/-!
# `jxlio/bitreader.go`

The reader over an `io.ReadSeeker` whose contents are `data` (DESIGN.md, conventions).
`bitsRead` is a `uint64` in Go; it is a `Nat` here (it cannot wrap for a stream shorter than 2^61 bytes).
-/
namespace Jxl

/-- jxlio/bitreader.go:41-63 `BitStreamReader`: `stream` is (`data`, `pos`); `buffer` is a scratch byte and
`tempIndex` is unused, both are omitted. -/
structure BR where
  data : List UInt8
  pos : Nat
  bitsRead : Nat
  index : Nat
  cur : UInt8
  deriving Repr, DecidableEq

/-- jxlio/bitreader.go:57-63 `NewBitStreamReader`. -/
def BR.new (data : List UInt8) : BR := ⟨data, 0, 0, 0, 0⟩

/-- A reader action: like the Go methods it may change the state even when it fails. -/
abbrev Rd (α : Type) := BR → Res α × BR

namespace Rd
def pure {α : Type} (a : α) : Rd α := fun s => (.ok a, s)
def bind {α β : Type} (m : Rd α) (f : α → Rd β) : Rd β := fun s =>
  match m s with
  | (.ok a, s') => f a s'
  | (.err, s') => (.err, s')
  | (.panic, s') => (.panic, s')
/-- `return ..., errors.New(...)` -/
def fail {α : Type} : Rd α := fun s => (.err, s)
/-- a run-time panic -/
def crash {α : Type} : Rd α := fun s => (.panic, s)
/-- use of a pure call that may fail -/
def lift {α : Type} (r : Res α) : Rd α := fun s => (r, s)
end Rd

instance : Monad Rd where
  pure := Rd.pure
  bind := Rd.bind

/-- `stream.Read(buffer)` with a one-byte buffer: the byte, or EOF. -/
def streamByte : Rd UInt8 := fun s =>
  match s.data[s.pos]? with
  | some b => (.ok b, { s with pos := s.pos + 1 })
  | none => (.err, s)

/-- jxlio/bitreader.go:112-131 `readBit`. -/
def readBit : Rd Nat := fun s =>
  if s.index = 0 then
    match s.data[s.pos]? with
    | none => (.err, s)
    | some b =>
      let s := { s with pos := s.pos + 1, cur := b }
      let v := s.cur.toNat.testBit s.index
      (.ok v.toNat, { s with index := (s.index + 1) % 8, bitsRead := s.bitsRead + 1 })
  else
    let v := s.cur.toNat.testBit s.index
    (.ok v.toNat, { s with index := (s.index + 1) % 8, bitsRead := s.bitsRead + 1 })

/-- jxlio/bitreader.go:164-172, the whole-byte loop of `ReadBits`. `need` is `bits-bitsRead`, `k` is
`bitsRead`, `acc` is `result`. -/
def readBytesLoop (need k acc : Nat) (s : BR) : Res (Nat × Nat × Nat) × BR :=
  if 8 ≤ need then
    match s.data[s.pos]? with
    | none => (.err, s)
    | some b =>
      readBytesLoop (need - 8) (k + 8) (acc ||| (b.toNat <<< k))
        { s with pos := s.pos + 1, bitsRead := s.bitsRead + 8 }
  else (.ok (need, k, acc), s)
termination_by need

/-- jxlio/bitreader.go:174-190, the trailing partial byte of `ReadBits`. -/
def readTail (need k acc : Nat) (s : BR) : Res Nat × BR :=
  if 0 < need then
    match s.data[s.pos]? with
    | none => (.err, s)
    | some b =>
      (.ok (acc ||| ((b.toNat &&& (1 <<< need - 1)) <<< k)),
        { s with pos := s.pos + 1, cur := b, index := need, bitsRead := s.bitsRead + need })
  else (.ok acc, s)

/-- jxlio/bitreader.go:163-190, the part of `ReadBits` after the cached byte is used up. -/
def readAligned (need k acc : Nat) (s : BR) : Res Nat × BR :=
  match readBytesLoop need k acc s with
  | (.ok (need, k, acc), s) => readTail need k acc s
  | (.err, s) => (.err, s)
  | (.panic, s) => (.panic, s)

/-- jxlio/bitreader.go:133-191 `ReadBits`. -/
def readBits (bits : Nat) : Rd Nat := fun s =>
  if bits = 0 then (.ok 0, s)
  else if 64 < bits then (.err, s)
  else
    let (result, k, s) :=
      if s.index ≠ 0 then
        let avail := 8 - s.index
        let take := if avail < bits then avail else bits
        let extracted := (s.cur.toNat >>> s.index) &&& (1 <<< take - 1)
        (extracted, take,
          { s with bitsRead := s.bitsRead + take, index := (s.index + take) % 8 })
      else (0, 0, s)
    readAligned (bits - k) k result s

/-- jxlio/bitreader.go:284-290 `ReadBool`. -/
def readBool : Rd Bool := do
  let v ← readBit
  return v == 1

/-- jxlio/bitreader.go:210-216 `ReadByte`. -/
def readByte : Rd Nat := do
  let v ← readBits 8
  return u8 v

/-- jxlio/bitreader.go:269-282 `ReadU32`. All call sites pass non-negative constants, so the arguments are
`Nat`; `uint32(b)` truncates. -/
def readU32 (c0 u0 c1 u1 c2 u2 c3 u3 : Nat) : Rd Nat := do
  let choice ← readBits 2
  let c := [c0, c1, c2, c3]
  let u := [u0, u1, u2, u3]
  match u[choice]?, c[choice]? with
  | some ub, some cb => do
    let b ← readBits (u32 ub)
    return u32 (u32 cb + u32 b)
  | _, _ => Rd.crash

/-- jxlio/bitreader.go:218-227 `ReadEnum`. -/
def readEnum : Rd Nat := do
  let constant ← readU32 0 0 1 0 2 4 18 6
  if 63 < constant then Rd.fail else return constant

/-- jxlio/bitreader.go:326-348, the loop of `ReadU64`. `shift` takes the values 12,20,..,60; the measure
`60 - shift` bounds the number of iterations. -/
def readU64Loop (shift value : Nat) : Rd Nat := fun s =>
  match readBool s with
  | (.err, s) => (.err, s)
  | (.panic, s) => (.panic, s)
  | (.ok b, s) =>
    if b = false then (.ok value, s)
    else if shift = 60 then
      match readBits 4 s with
      | (.ok d, s) => (.ok (value ||| u64 (d <<< shift)), s)
      | (.err, s) => (.err, s)
      | (.panic, s) => (.panic, s)
    else if 60 < shift then (.panic, s)   -- not reachable from `readU64`
    else
      match readBits 8 s with
      | (.ok d, s) => readU64Loop (shift + 8) (value ||| u64 (d <<< shift)) s
      | (.err, s) => (.err, s)
      | (.panic, s) => (.panic, s)
termination_by 61 - shift

/-- jxlio/bitreader.go:292-350 `ReadU64`. -/
def readU64 : Rd Nat := do
  let index ← readBits 2
  if index = 0 then return 0
  else if index = 1 then
    let b ← readBits 4
    return u64 (1 + b)
  else if index = 2 then
    let b ← readBits 8
    return u64 (17 + b)
  else
    let value ← readBits 12
    readU64Loop 12 value

/-- jxlio/bitreader.go:352-375 `ReadU8`. -/
def readU8 : Rd Nat := do
  let b ← readBool
  if b = false then return 0
  else
    let n ← readBits 3
    if n = 0 then return 1
    else
      let nn ← readBits n
      return nn + 1 <<< n

/-- jxlio/bitreader.go:254-267 `ReadICCVarint`. `i` counts iterations (`shift = 7*i < 63`). The result is an
`int32` bit pattern (value in `0..2^32-1`; Go reinterprets it as signed, see `readICCVarint`). A shift count
of 32 or more yields 0 in Go, which is what truncation to 32 bits gives. -/
def readICCVarintLoop (i value : Nat) : Rd Nat := fun s =>
  if 63 ≤ 7 * i then (.ok value, s)
  else
    match readBits 8 s with
    | (.err, s) => (.err, s)
    | (.panic, s) => (.panic, s)
    | (.ok b, s) =>
      let value := value ||| u32 ((b &&& 127) <<< (7 * i))
      if b ≤ 127 then (.ok value, s) else readICCVarintLoop (i + 1) value s
termination_by 9 - i

/-- jxlio/bitreader.go:254-267 `ReadICCVarint`, with the final reinterpretation as `int32`. -/
def readICCVarint : Rd Int := do
  let v ← readICCVarintLoop 0 0
  return i32 v

/-- jxlio/bitreader.go:381-405 `ShowBits`: the saved state is restored only on success. The `int` argument is
converted to `uint32`; call sites pass small non-negative values. -/
def showBits (bits : Nat) : Rd Nat := fun s =>
  match readBits (u32 bits) s with
  | (.ok b, s') => (.ok b, { s' with pos := s.pos, cur := s.cur, index := s.index, bitsRead := s.bitsRead })
  | (.err, s') => (.err, s')
  | (.panic, s') => (.panic, s')

/-- jxlio/bitreader.go:87-90 `AtEnd`. -/
def atEnd (s : BR) : Bool × BR :=
  match showBits 1 s with
  | (.ok _, s') => (false, s')
  | (_, s') => (true, s')

/-- jxlio/bitreader.go:420-425, `k` single-bit reads. -/
def skipLoop : Nat → Rd Unit
  | 0 => fun s => (.ok (), s)
  | k + 1 => fun s =>
    match readBit s with
    | (.ok _, s) => skipLoop k s
    | (.err, s) => (.err, s)
    | (.panic, s) => (.panic, s)

/-- jxlio/bitreader.go:407-427 `SkipBits`. One `stream.Read` into a zeroed buffer of `numBytes` bytes: a short
read is not noticed and leaves zeros at the end of the buffer. -/
def skipBits (bits : Nat) : Rd Unit := fun s =>
  let numBytes := bits / 8
  if 0 < numBytes then
    if s.data.length ≤ s.pos then (.err, s)
    else
      let buf := ((s.data.drop s.pos).take numBytes)
      let last := match buf[numBytes - 1]? with | some b => b | none => 0
      skipLoop (bits - numBytes * 8) { s with pos := s.pos + buf.length, cur := last }
  else skipLoop (bits - numBytes * 8) s

/-- jxlio/bitreader.go:429-435 `Skip`: `bytes << 3` wraps at 32 bits. -/
def skipBytes (bytes : Nat) : Rd Nat := fun s =>
  match skipBits (u32 (bytes <<< 3)) s with
  | (.ok _, s) => (.ok bytes, s)
  | (.err, s) => (.err, s)
  | (.panic, s) => (.panic, s)

/-- jxlio/bitreader.go:450-463 `ZeroPadToByte`. -/
def zeroPadToByte : Rd Unit := fun s =>
  if s.index = 0 then (.ok (), s)
  else
    match readBits (8 - s.index) s with
    | (.ok _, s) => (.ok (), s)
    | (.err, s) => (.err, s)
    | (.panic, s) => (.panic, s)

/-- jxlio/bitreader.go:94-109 `ReadBytesToBuffer` (the bytes stored on success). A zero-length read succeeds
(`bytes.Reader.Read` of an empty slice returns 0,nil unless at the end of the data, where it returns EOF). -/
def readBytesToBuffer (n : Nat) : Rd (List UInt8) := fun s =>
  if s.index ≠ 0 then (.err, s)
  else if s.data.length ≤ s.pos then (.err, s)
  else
    let buf := (s.data.drop s.pos).take n
    let s := { s with pos := s.pos + buf.length }
    if buf.length ≠ n then (.err, s) else (.ok buf, s)

/-- jxlio/bitreader.go:66-72 `Seek(offset, io.SeekStart)`: the cached partial byte is kept. -/
def seekStart (offset : Nat) : Rd Unit := fun s => (.ok (), { s with pos := offset })

/-- jxlio/bitreader.go:74-85 `Reset`. -/
def resetReader : Rd Unit := fun s => (.ok (), { s with pos := 0, index := 0, cur := 0 })

/-- jxlio/bitreader.go:437-448 `ReadBytesUint64`. -/
def readBytesUint64 (n : Nat) : Rd Nat := fun s =>
  if n < 1 ∨ 8 < n then (.err, s)
  else
    match readBytesToBuffer n s with
    | (.ok buf, s) => (.ok (buf.foldr (fun b acc => b.toNat + 256 * acc) 0), s)
    | (.err, s) => (.err, s)
    | (.panic, s) => (.panic, s)

/-- jxlio/bitreader.go:471-477 `UnpackSigned`. -/
def unpackSigned (value : Nat) : Int :=
  if value % 2 = 0 then i32 (value / 2 : Nat)
  else (i32 (-(i32 (i32 value + 1)))) / 2

/-- jxlio/bitreader.go:479-485 `UnpackSigned64`. -/
def unpackSigned64 (value : Nat) : Int :=
  if value % 2 = 0 then i64 (value / 2 : Nat)
  else (i64 (-(i64 (i64 value + 1)))) / 2

end Jxl
