import Verif.Model.ReaderStream
/-!
# Specification for reading from an arbitrary `io.ReadSeeker`

What Go's `io.Reader` contract allows a reader to do, and what a client of the bit reader can observe.
-/
namespace Jxl

/-- Go's contract for `io.Reader`: `Read(p)` stores at most `len(p)` bytes, takes them from the data not yet handed
over, and reports `io.EOF` only when no data is left after this call. (It may store fewer bytes than are left, it may
report `io.EOF` together with the last bytes or by the next call, and it may store nothing and report no error.) -/
structure Policy.Lawful (P : Policy) : Prop where
  fits : ∀ i n left, (P i n left).count ≤ n
  has : ∀ i n left, (P i n left).count ≤ left
  ends : ∀ i n left, (P i n left).eof = true → (P i n left).count = left

/-- `bytes.Reader`: all that is wanted or all that is left; `io.EOF` when nothing was left. -/
def inMemory : Policy := fun _ n left => ⟨min n left, decide (left = 0)⟩

/-- A reader that gives to every request for at least one byte the answer of `bytes.Reader` (so does `os.File` on a
regular file). -/
def Policy.Prompt (P : Policy) : Prop := ∀ i n left, 0 < n → P i n left = inMemory i n left

/-- A reader that gives to every request for a single byte the answer of `bytes.Reader`, and may split larger
requests. -/
def Policy.Bytewise (P : Policy) : Prop := ∀ i left, P i 1 left = inMemory i 1 left

/-- A lawful reader that does not keep its caller waiting when asked for one byte: it hands over a byte if there is one
and reports the end if there is none. It may split larger requests, and it may report `io.EOF` with the last bytes. -/
structure Policy.Steady (P : Policy) : Prop extends P.Lawful where
  gives : ∀ i left, 0 < left → (P i 1 left).count = 1
  stops : ∀ i n, (P i n 0).eof = true

/-- A lawful reader that, asked for something, hands over at least one byte and no error while there is data, and
reports the end when there is none. It may split requests as it likes. -/
structure Policy.Moving (P : Policy) : Prop extends P.Lawful where
  moves : ∀ i n left, 0 < n → 0 < left → 0 < (P i n left).count ∧ (P i n left).eof = false
  stops : ∀ i n, 0 < n → (P i n 0).eof = true

/-- A reader that hands over one byte at a time (as `testing/iotest.OneByteReader` does). -/
def oneByte : Policy := fun _ n left => ⟨min 1 (min n left), decide (left = 0)⟩

/-- A reader that reports `io.EOF` together with the last bytes (as `testing/iotest.DataErrReader` does). -/
def eager : Policy := fun _ n left => ⟨min n left, decide (left ≤ n)⟩

/-- A reader that answers every other call with no byte and no error. -/
def halting : Policy := fun i n left => if i % 2 = 1 then ⟨0, false⟩ else inMemory i n left

/-- A reader whose first answer is a single byte. -/
def slowStart : Policy := fun i n left => if i = 0 then oneByte i n left else inMemory i n left

/-- jxlio/bitreader.go:11-36, the calls of `BitReader` that touch the stream; the other methods are made of these. -/
inductive Call where
  | bit | bits (n : Nat) | peek (n : Nat) | skipBits (n : Nat) | skip (n : Nat) | pad
  | bytes (n : Nat) | bytesAt (offset n : Nat) | seek (offset : Nat) | reset | count
  deriving Repr, DecidableEq

/-- What a call that succeeds gives to its caller. -/
inductive Reply where
  | num (n : Nat) | bytes (b : List UInt8) | done
  deriving Repr, DecidableEq

/-- The sizes of the buffers a call may pass to `Read`. -/
def Call.Asks : Call → Nat → Prop
  | .bit, n | .bits _, n | .peek _, n | .pad, n => n = 1
  | .skipBits b, n => n = 1 ∨ (0 < n ∧ n = b / 8)
  | .skip b, n => n = 1 ∨ (0 < n ∧ n = u32 (b <<< 3) / 8)
  | .bytes k, n => n = k
  | .bytesAt _ k, n => 0 < n ∧ n = k
  | .seek _, _ | .reset, _ | .count, _ => False

/-- The call does not skip two bytes or more at once. -/
def Call.SkipsLittle : Call → Prop
  | .skipBits b => b < 16
  | .skip b => u32 (b <<< 3) < 16
  | _ => True

/-- The outcome of a call with its value turned into a reply. -/
def reply {α σ : Type} (f : α → Reply) : Res α × σ → Res Reply × σ
  | (.ok a, s) => (.ok (f a), s)
  | (.err, s) => (.err, s)
  | (.panic, s) => (.panic, s)

/-- The calls over bytes in memory. -/
def BR.answer : Call → BR → Res Reply × BR
  | .bit, s => reply .num (Jxl.readBit s)
  | .bits n, s => reply .num (Jxl.readBits n s)
  | .peek n, s => reply .num (Jxl.showBits n s)
  | .skipBits n, s => reply (fun _ => .done) (Jxl.skipBits n s)
  | .skip n, s => reply .num (Jxl.skipBytes n s)
  | .pad, s => reply (fun _ => .done) (Jxl.zeroPadToByte s)
  | .bytes n, s => reply .bytes (Jxl.readBytesToBuffer n s)
  | .bytesAt o n, s =>
    if n = 0 then (.ok (.bytes []), s) else reply .bytes (Jxl.readBytesToBuffer n { s with pos := o })
  | .seek o, s => reply (fun _ => .done) (Jxl.seekStart o s)
  | .reset, s => reply (fun _ => .done) (Jxl.resetReader s)
  | .count, s => (.ok (.num s.bitsRead), s)

/-- The calls over a stream. -/
def SBR.answer (P : Policy) : Call → SBR → Res Reply × SBR
  | .bit, s => reply .num (s.readBit P)
  | .bits n, s => reply .num (s.readBits P n)
  | .peek n, s => reply .num (s.showBits P n)
  | .skipBits n, s => reply (fun _ => .done) (s.skipBits P n)
  | .skip n, s => reply .num (s.skipBytes P n)
  | .pad, s => reply (fun _ => .done) (s.zeroPadToByte P)
  | .bytes n, s => reply .bytes (s.readBytes P n)
  | .bytesAt o n, s => reply .bytes (s.readBytesAt P o n)
  | .seek o, s => reply (fun _ => .done) (s.seek o)
  | .reset, s => reply (fun _ => .done) s.reset
  | .count, s => (.ok (.num s.bitsRead), s)

/-- A client of the bit reader: each call may depend on all earlier replies and errors. -/
inductive Client (α : Type) where
  | ret (a : α)
  | fail
  | call (c : Call) (next : Reply → Client α) (failed : Client α)

/-- What the client arrives at, over a reader that answers calls by `answer`. -/
def Client.run {α σ : Type} (answer : Call → σ → Res Reply × σ) : Client α → σ → Res α
  | .ret a, _ => .ok a
  | .fail, _ => .err
  | .call c next failed, s =>
    match answer c s with
    | (.ok r, s) => (next r).run answer s
    | (.err, s) => failed.run answer s
    | (.panic, _) => .panic

/-- Every call the client may make satisfies `p`. -/
def Client.All {α : Type} (p : Call → Prop) : Client α → Prop
  | .ret _ => True
  | .fail => True
  | .call c next failed => p c ∧ (∀ r, (next r).All p) ∧ failed.All p

/-- The client gives up at the first error. -/
def Client.GivesUp {α : Type} : Client α → Prop
  | .ret _ => True
  | .fail => True
  | .call _ next failed => (∀ r, (next r).GivesUp) ∧ failed = .fail

/-- What a user expects of a decoder that takes an `io.ReadSeeker`: how a lawful reader hands over its data makes no
difference to any client of the bit reader. -/
def ReaderIndependent : Prop :=
  ∀ P : Policy, P.Lawful → ∀ (α : Type) (k : Client α) (data : List UInt8),
    k.run (SBR.answer P) (SBR.new data) = k.run BR.answer (BR.new data)

end Jxl
