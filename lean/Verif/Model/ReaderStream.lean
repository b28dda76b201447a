import Verif.Model.BitReader
/-!
# The bit reader over an arbitrary `io.ReadSeeker`

`Model/BitReader.lean` models `BitStreamReader` over bytes held in memory. Here the underlying stream is an arbitrary
implementation of Go's `io.ReadSeeker`: it decides at each call how many of the wanted bytes it hands over and when
it reports the end of the data. `jxlio/bitreader.go` and `jxlio/IOHelper.go` are modelled over it.

Simplifications: `Read` can fail only with `io.EOF` (an error that is not about the end of the data is treated by the
code in the same way); `Seek` does not fail for an offset that is not negative.
-/
namespace Jxl

/-- The answer of one call `n, err := stream.Read(p)`: the number of bytes stored in `p` and whether `err` is
`io.EOF` (otherwise it is `nil`). -/
structure Answer where
  count : Nat
  eof : Bool
  deriving Repr, DecidableEq

/-- An `io.Reader` over known data, seen from outside: its answer to its `i`-th call, with a buffer of `n` bytes and
`left` bytes of data not yet handed over. -/
abbrev Policy := Nat → Nat → Nat → Answer

/-- The stream behind a `BitStreamReader`: the data, the position, the number of calls of `Read` made so far. -/
structure ByteSource where
  data : List UInt8
  pos : Nat
  calls : Nat
  deriving Repr, DecidableEq

/-- `stream.Read(p)` with `len(p) = n`: the bytes stored at the start of `p`, and whether `io.EOF` came back. -/
def ByteSource.read (P : Policy) (n : Nat) (s : ByteSource) : List UInt8 × Bool × ByteSource :=
  let a := P s.calls n (s.data.length - s.pos)
  let got := (s.data.drop s.pos).take a.count
  (got, a.eof, { s with pos := s.pos + got.length, calls := s.calls + 1 })

/-- jxlio/bitreader.go:38-48 `BitStreamReader`, with its one-byte `buffer`; `tempIndex` is unused and omitted. -/
structure SBR where
  src : ByteSource
  buffer : UInt8
  bitsRead : Nat
  index : Nat
  cur : UInt8
  deriving Repr, DecidableEq

/-- jxlio/bitreader.go:57-63 `NewBitStreamReader`. -/
def SBR.new (data : List UInt8) : SBR := ⟨⟨data, 0, 0⟩, 0, 0, 0, 0⟩

/-- jxlio/bitreader.go:115-119, 165-168, 177-181: `_, err := br.stream.Read(br.buffer)`, an error is returned, then
`br.buffer[0]` is used. The count is ignored: when nothing was stored the byte is the one read before. -/
def SBR.fetch (P : Policy) (s : SBR) : Res UInt8 × SBR :=
  match s.src.read P 1 with
  | (got, eof, src) =>
    let b := match got with | b :: _ => b | [] => s.buffer
    if eof then (.err, { s with src := src, buffer := b })
    else (.ok b, { s with src := src, buffer := b })

/-- jxlio/bitreader.go:112-131 `readBit`. -/
def SBR.readBit (P : Policy) (s : SBR) : Res Nat × SBR :=
  if s.index = 0 then
    match s.fetch P with
    | (.ok b, s) =>
      (.ok (b.toNat.testBit s.index).toNat,
        { s with cur := b, index := (s.index + 1) % 8, bitsRead := s.bitsRead + 1 })
    | (.err, s) => (.err, s)
    | (.panic, s) => (.panic, s)
  else
    (.ok (s.cur.toNat.testBit s.index).toNat, { s with index := (s.index + 1) % 8, bitsRead := s.bitsRead + 1 })

/-- jxlio/bitreader.go:163-172, the whole-byte loop of `ReadBits`; arguments as in `readBytesLoop`. -/
def SBR.bytesLoop (P : Policy) (need k acc : Nat) (s : SBR) : Res (Nat × Nat × Nat) × SBR :=
  if 8 ≤ need then
    match s.fetch P with
    | (.ok b, s) =>
      SBR.bytesLoop P (need - 8) (k + 8) (acc ||| (b.toNat <<< k)) { s with bitsRead := s.bitsRead + 8 }
    | (.err, s) => (.err, s)
    | (.panic, s) => (.panic, s)
  else (.ok (need, k, acc), s)
termination_by need

/-- jxlio/bitreader.go:174-188, the trailing partial byte of `ReadBits`. -/
def SBR.tail (P : Policy) (need k acc : Nat) (s : SBR) : Res Nat × SBR :=
  if 0 < need then
    match s.fetch P with
    | (.ok b, s) =>
      (.ok (acc ||| ((b.toNat &&& (1 <<< need - 1)) <<< k)),
        { s with cur := b, index := need, bitsRead := s.bitsRead + need })
    | (.err, s) => (.err, s)
    | (.panic, s) => (.panic, s)
  else (.ok acc, s)

/-- jxlio/bitreader.go:133-191 `ReadBits`. -/
def SBR.readBits (P : Policy) (bits : Nat) (s : SBR) : Res Nat × SBR :=
  if bits = 0 then (.ok 0, s)
  else if 64 < bits then (.err, s)
  else
    let (result, k, s) :=
      if s.index ≠ 0 then
        let avail := 8 - s.index
        let take := if avail < bits then avail else bits
        let extracted := (s.cur.toNat >>> s.index) &&& (1 <<< take - 1)
        (extracted, take, { s with bitsRead := s.bitsRead + take, index := (s.index + take) % 8 })
      else (0, 0, s)
    match SBR.bytesLoop P (bits - k) k result s with
    | (.ok (need, k, acc), s) => SBR.tail P need k acc s
    | (.err, s) => (.err, s)
    | (.panic, s) => (.panic, s)

/-- jxlio/bitreader.go:381-405 `ShowBits`: the saved state is restored only on success. -/
def SBR.showBits (P : Policy) (bits : Nat) (s : SBR) : Res Nat × SBR :=
  match SBR.readBits P (u32 bits) s with
  | (.ok b, s') =>
    (.ok b, { s' with src := { s'.src with pos := s.src.pos }, cur := s.cur, index := s.index,
                      bitsRead := s.bitsRead })
  | (.err, s') => (.err, s')
  | (.panic, s') => (.panic, s')

/-- jxlio/bitreader.go:420-425, `k` single-bit reads. -/
def SBR.skipLoop (P : Policy) : Nat → SBR → Res Unit × SBR
  | 0, s => (.ok (), s)
  | k + 1, s =>
    match s.readBit P with
    | (.ok _, s) => SBR.skipLoop P k s
    | (.err, s) => (.err, s)
    | (.panic, s) => (.panic, s)

/-- jxlio/bitreader.go:407-427 `SkipBits`: one `Read` into a zeroed buffer of `numBytes` bytes, whose count is
ignored. -/
def SBR.skipBits (P : Policy) (bits : Nat) (s : SBR) : Res Unit × SBR :=
  let numBytes := bits / 8
  if 0 < numBytes then
    match s.src.read P numBytes with
    | (got, eof, src) =>
      if eof then (.err, { s with src := src })
      else
        let last := match got[numBytes - 1]? with | some b => b | none => 0
        SBR.skipLoop P (bits - numBytes * 8) { s with src := src, cur := last }
  else SBR.skipLoop P (bits - numBytes * 8) s

/-- jxlio/bitreader.go:429-435 `Skip`: `bytes << 3` wraps at 32 bits. -/
def SBR.skipBytes (P : Policy) (bytes : Nat) (s : SBR) : Res Nat × SBR :=
  match SBR.skipBits P (u32 (bytes <<< 3)) s with
  | (.ok _, s) => (.ok bytes, s)
  | (.err, s) => (.err, s)
  | (.panic, s) => (.panic, s)

/-- jxlio/bitreader.go:450-463 `ZeroPadToByte`. -/
def SBR.zeroPadToByte (P : Policy) (s : SBR) : Res Unit × SBR :=
  if s.index = 0 then (.ok (), s)
  else
    match SBR.readBits P (8 - s.index) s with
    | (.ok _, s) => (.ok (), s)
    | (.err, s) => (.err, s)
    | (.panic, s) => (.panic, s)

/-- jxlio/bitreader.go:92-109 `ReadBytesToBuffer` (the bytes stored on success): one `Read`, an error unless it stored
all the bytes wanted and reported no error. -/
def SBR.readBytes (P : Policy) (n : Nat) (s : SBR) : Res (List UInt8) × SBR :=
  if s.index ≠ 0 then (.err, s)
  else
    match s.src.read P n with
    | (got, eof, src) =>
      if eof then (.err, { s with src := src })
      else if got.length ≠ n then (.err, { s with src := src })
      else (.ok got, { s with src := src })

/-- jxlio/bitreader.go:66-72 `Seek(offset, io.SeekStart)`. -/
def SBR.seek (offset : Nat) (s : SBR) : Res Unit × SBR := (.ok (), { s with src := { s.src with pos := offset } })

/-- jxlio/bitreader.go:74-85 `Reset`. -/
def SBR.reset (s : SBR) : Res Unit × SBR :=
  (.ok (), { s with src := { s.src with pos := 0 }, index := 0, cur := 0 })

/-- jxlio/bitreader.go:193-208 `ReadByteArrayWithOffsetAndLength` (the bytes stored on success; none for length 0). -/
def SBR.readBytesAt (P : Policy) (offset n : Nat) (s : SBR) : Res (List UInt8) × SBR :=
  if n = 0 then (.ok [], s)
  else SBR.readBytes P n { s with src := { s.src with pos := offset } }

/-! ## jxlio/IOHelper.go -/

/-- jxlio/IOHelper.go:28-43, the loop of `ReadFullyWithOffset`: `want` is the length of `tempBuf`, `remaining` and
`acc` (`tempBuffer`) the loop's variables. The loop ends when `remaining ≤ 0` or a call stored nothing. Each round
lowers `remaining`, so it is also the fuel. -/
def fullyLoop (P : Policy) (want : Nat) : Nat → Int → List UInt8 → ByteSource → Res (Int × List UInt8) × ByteSource
  | 0, remaining, acc, s => (.ok (remaining, acc), s)
  | fuel + 1, remaining, acc, s =>
    if 0 < remaining then
      match s.read P want with
      | (got, eof, s) =>
        if eof then (.err, s)
        else if got.length = 0 then (.ok (remaining, acc), s)
        else fullyLoop P want fuel (remaining - got.length) (acc ++ got) s
    else (.ok (remaining, acc), s)

/-- jxlio/IOHelper.go:13-46 `ReadFullyWithOffset(in, buffer, offset, len)`: the buffer afterwards and the number
returned. `spare` is the capacity Go's `append` left behind the bytes read (zeros): `tempBuffer[:len]` panics when
`len` is beyond it. A negative `len` makes `make` panic. -/
def readFullyWithOffset (P : Policy) (spare : Nat) (buffer : List UInt8) (offset : Nat) (len : Int) (s : ByteSource) :
    Res (List UInt8 × Int) × ByteSource :=
  let s := { s with pos := offset }
  if 2 * 1024 * 1024 * 1024 < len then (.err, s)
  else if len < 0 then (.panic, s)
  else
    match fullyLoop P len.toNat len.toNat len [] s with
    | (.ok (remaining, acc), s) =>
      if acc.length + spare < len.toNat then (.panic, s)
      else
        let bytes := (acc ++ List.replicate spare 0).take len.toNat
        (.ok (bytes.take buffer.length ++ buffer.drop bytes.length, remaining), s)
    | (.err, s) => (.err, s)
    | (.panic, s) => (.panic, s)

/-- jxlio/IOHelper.go:48-50 `ReadFully`. -/
def ioReadFully (P : Policy) (spare : Nat) (buffer : List UInt8) (s : ByteSource) : Res (List UInt8 × Int) × ByteSource :=
  readFullyWithOffset P spare buffer 0 buffer.length s

/-- jxlio/IOHelper.go:63-73, the first loop of `SkipFully`: reads of `sz` bytes until `remaining ≤ 0` or nothing was
stored. -/
def skipFullyLoop (P : Policy) (sz : Nat) : Nat → Int → ByteSource → Res Int × ByteSource
  | 0, remaining, s => (.ok remaining, s)
  | fuel + 1, remaining, s =>
    if 0 < remaining then
      match s.read P sz with
      | (got, eof, s) =>
        if eof then (.err, s)
        else if got.length = 0 then (.ok remaining, s)
        else skipFullyLoop P sz fuel (remaining - got.length) s
    else (.ok remaining, s)

/-- jxlio/IOHelper.go:77, the zeroed buffer of 4096 bytes of `SkipFully`. -/
@[irreducible] def skipBuffer : List UInt8 := List.replicate 4096 0

/-- jxlio/IOHelper.go:77-87, the second loop of `SkipFully`, which reads 4096 bytes from the start of the stream in
each round; `spare` as in `readFullyWithOffset`. -/
def skipFullyTail (P : Policy) (spare : Nat) : Nat → Int → ByteSource → Res Int × ByteSource
  | 0, remaining, s => (.ok remaining, s)
  | fuel + 1, remaining, s =>
    if 4096 < remaining then
      match ioReadFully P spare skipBuffer s with
      | (.ok (_, k), s) =>
        let remaining := remaining - 4096 + k
        if k ≠ 0 then (.ok remaining, s) else skipFullyTail P spare fuel remaining s
      | (.err, s) => (.err, s)
      | (.panic, s) => (.panic, s)
    else
      match readFullyWithOffset P spare skipBuffer 0 remaining s with
      | (.ok (_, k), s) => (.ok k, s)
      | (.err, s) => (.err, s)
      | (.panic, s) => (.panic, s)

/-- jxlio/IOHelper.go:53-89 `SkipFully(in, n)`; a negative `n` makes `make` panic. -/
def ioSkipFully (P : Policy) (spare : Nat) (n : Int) (s : ByteSource) : Res Int × ByteSource :=
  if n < 0 then (.panic, s)
  else
    let sz : Nat := if n < 10000 then n.toNat else 10000
    match skipFullyLoop P sz n.toNat n s with
    | (.ok remaining, s) =>
      if remaining = 0 then (.ok 0, s) else skipFullyTail P spare n.toNat remaining s
    | (.err, s) => (.err, s)
    | (.panic, s) => (.panic, s)

end Jxl
