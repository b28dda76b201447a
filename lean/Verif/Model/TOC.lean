import Verif.Model.Permutation

/-!
# The table of contents of a frame (frame/Frame.go:103-197, 294-314, 480-494)
-/
namespace Jxl

/-- frame/Frame.go:127-134: the number of sections of a frame, in `uint32` arithmetic. -/
def tocEntries (numGroups numLFGroups numPasses : Nat) : Nat :=
  if numGroups = 1 ∧ numPasses = 1 then 1
  else u32 (1 + numLFGroups + 1 + numGroups * numPasses)

/-- frame/Frame.go:165-171: the section lengths. -/
def readLengths : Nat → Rd (List Nat)
  | 0 => Pure.pure []
  | n + 1 => do
    let l ← readU32 0 10 1024 14 17408 22 4211712 30
    let ls ← readLengths n
    Pure.pure (l :: ls)

/-- frame/Frame.go:140-158: the optional permutation. -/
def readTOCPermutation (entries : Nat) (permuted : Bool) : Rd (Option (List Nat)) :=
  if permuted then do
    let es ← ES.load 8 false
    let p ← readPermutation entries 0 es
    if p.2.validateFinalState then Pure.pure (some p.1) else Rd.fail
  else Pure.pure none

/-- What `ReadTOC` stores in the frame: `tocPermutation` and `tocLengths`. -/
structure TOC where
  permutation : Option (List Nat)
  lengths : List Nat
  deriving Repr, DecidableEq

/-- frame/Frame.go:127-177 `ReadTOC`. -/
def readTOC (numGroups numLFGroups numPasses : Nat) : Rd TOC := do
  let permuted ← readBool
  let perm ← readTOCPermutation (tocEntries numGroups numLFGroups numPasses) permuted
  zeroPadToByte
  let lengths ← readLengths (tocEntries numGroups numLFGroups numPasses)
  zeroPadToByte
  Pure.pure ⟨perm, lengths⟩

/-- frame/Frame.go:179-197 `readBuffer` for a valid index: the section followed by four zero bytes.
(`length+4` cannot wrap: lengths are below 2^31.) -/
def readSection (length : Nat) : Rd (List UInt8) := do
  let b ← readBytesToBuffer length
  Pure.pure (b ++ [0, 0, 0, 0])

/-- The loop of frame/Frame.go:483-489. -/
def readSections : List Nat → Rd (List (List UInt8))
  | [] => Pure.pure []
  | l :: ls => do
    let b ← readSection l
    let bs ← readSections ls
    Pure.pure (b :: bs)

/-- Where a section is read from: the frame's own reader, or a reader over its own bytes. -/
inductive SectionReader where
  | shared
  | own (bytes : List UInt8)
  deriving Repr, DecidableEq

/-- frame/Frame.go:480-494 `setupBitReaders`. -/
def setupBitReaders (toc : TOC) : Rd (List SectionReader) :=
  if toc.lengths.length ≠ 1 then do
    let bs ← readSections toc.lengths
    Pure.pure (bs.map .own)
  else Pure.pure [.shared]

/-- frame/Frame.go:305-314 `getBitreader`. -/
def getBitreader (toc : TOC) (readers : List SectionReader) (index : Nat) : Res SectionReader :=
  idx readers ((if toc.lengths.length ≤ 1 then 0 else index : Nat) : Int)

/-- frame/Frame.go:294-302 `SkipFrameData`. -/
def skipFrameData : List Nat → Rd Unit
  | [] => Pure.pure ()
  | l :: ls => do
    let _ ← skipBytes l
    skipFrameData ls

end Jxl
