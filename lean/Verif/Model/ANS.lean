import Verif.Model.VLC
import Verif.Model.Util
/-!
# `entropy/ANSSymbolDistribution.go`: ANS symbol distributions

Integers here are `int32` in Go; every value stays below 2^21 in magnitude (at most 256 frequencies of at most 4096
and their sums), so the arithmetic is in `Int` without wraps. The ANS state is an `int32` used as 32 unsigned bits;
it is a `Nat` below 2^32 here.
-/
namespace Jxl

/-- entropy/ANSSymbolDistribution.go:11 `distPrefixTable`. -/
def distPrefixTable : VLC :=
  { bits := 7, table := [
    (10, 3), (12, 7), (7, 3), (3, 4), (6, 3), (8, 3), (9, 3), (5, 4), (10, 3), (4, 4), (7, 3), (1, 4), (6, 3), (8, 3), (9, 3), (2, 4),
    (10, 3), (0, 5), (7, 3), (3, 4), (6, 3), (8, 3), (9, 3), (5, 4), (10, 3), (4, 4), (7, 3), (1, 4), (6, 3), (8, 3), (9, 3), (2, 4),
    (10, 3), (11, 6), (7, 3), (3, 4), (6, 3), (8, 3), (9, 3), (5, 4), (10, 3), (4, 4), (7, 3), (1, 4), (6, 3), (8, 3), (9, 3), (2, 4),
    (10, 3), (0, 5), (7, 3), (3, 4), (6, 3), (8, 3), (9, 3), (5, 4), (10, 3), (4, 4), (7, 3), (1, 4), (6, 3), (8, 3), (9, 3), (2, 4),
    (10, 3), (13, 7), (7, 3), (3, 4), (6, 3), (8, 3), (9, 3), (5, 4), (10, 3), (4, 4), (7, 3), (1, 4), (6, 3), (8, 3), (9, 3), (2, 4),
    (10, 3), (0, 5), (7, 3), (3, 4), (6, 3), (8, 3), (9, 3), (5, 4), (10, 3), (4, 4), (7, 3), (1, 4), (6, 3), (8, 3), (9, 3), (2, 4),
    (10, 3), (11, 6), (7, 3), (3, 4), (6, 3), (8, 3), (9, 3), (5, 4), (10, 3), (4, 4), (7, 3), (1, 4), (6, 3), (8, 3), (9, 3), (2, 4),
    (10, 3), (0, 5), (7, 3), (3, 4), (6, 3), (8, 3), (9, 3), (5, 4), (10, 3), (4, 4), (7, 3), (1, 4), (6, 3), (8, 3), (9, 3), (2, 4)] }

/-- entropy/ANSSymbolDistribution.go:13-19 `ANSSymbolDistribution`; `alphabetSize` is the length of `freqs`. -/
structure ANSDist where
  logAlphabetSize : Nat
  freqs : List Int
  cutoffs : List Int
  symbols : List Int
  offsets : List Int
  deriving Repr, DecidableEq

/-- The locals of `generateAliasMapping`. -/
structure Alias where
  cutoffs : List Int
  symbols : List Int
  offsets : List Int
  over : List Nat
  under : List Nat
  deriving Repr, DecidableEq

/-- entropy/ANSSymbolDistribution.go:223-230, the loop over the symbols; `i` is the index of the first element. -/
def aliasInit (bucketSize : Int) : List Int → Nat → Alias → Res Alias
  | [], _, st => .ok st
  | f :: fs, i, st => do
    let cutoffs ← setAt st.cutoffs i f
    aliasInit bucketSize fs (i + 1)
      { st with
        cutoffs := cutoffs
        over := if bucketSize < f then i :: st.over else st.over
        under := if f < bucketSize then i :: st.under else st.under }

/-- entropy/ANSSymbolDistribution.go:231-233, the unused table entries; the argument counts them. -/
def aliasRest : Nat → Nat → Alias → Alias
  | 0, _, st => st
  | n + 1, i, st => aliasRest n (i + 1) { st with under := i :: st.under }

/-- entropy/ANSSymbolDistribution.go:234-246, the pairing loop. `RemoveFirst` on an empty deque returns nil and its
use panics. Every turn takes two entries from the deques and puts at most one back, so a fuel equal to the number of
entries is never used up (running out is `panic` and excluded by C12). -/
def aliasLoop (bucketSize : Int) : Nat → Alias → Res Alias
  | fuel, st =>
    match st.over with
    | [] => .ok st
    | o :: over =>
      match fuel, st.under with
      | 0, _ => .panic
      | _, [] => .panic
      | fuel + 1, u :: under => do
        let cu ← idx st.cutoffs u
        let co ← idx st.cutoffs o
        let co' := co - (bucketSize - cu)
        let cutoffs ← setAt st.cutoffs o co'
        let symbols ← setAt st.symbols u (o : Int)
        let offsets ← setAt st.offsets u co'
        aliasLoop bucketSize fuel
          { cutoffs := cutoffs, symbols := symbols, offsets := offsets
            under := if co' < bucketSize then o :: under else under
            over := if co' < bucketSize then over else if bucketSize < co' then o :: over else over }

/-- entropy/ANSSymbolDistribution.go:247-256, the last loop, row `i` of the table (cutoff, symbol, offset). -/
def aliasRow (bucketSize : Int) (i : Nat) (c s o : Int) : Int × Int × Int :=
  if c = bucketSize then (0, (i : Int), 0) else (c, s, o - c)

/-- entropy/ANSSymbolDistribution.go:247-256. -/
def aliasFinish (bucketSize : Int) (st : Alias) : List (Int × Int × Int) :=
  (List.range st.cutoffs.length).map fun i =>
    aliasRow bucketSize i (st.cutoffs.getD i 0) (st.symbols.getD i 0) (st.offsets.getD i 0)

/-- entropy/ANSSymbolDistribution.go:205-257 `generateAliasMapping`; `uniqPos = none` is -1. The constructor is only
called with `logAlphabetSize` in 5..8 (entropy/EntropyStream.go:236-240), so the shifts are not negative. -/
def generateAliasMapping (logAlphabetSize : Nat) (freqs : List Int) (uniqPos : Option Int) : Res ANSDist :=
  let bucketSize : Int := 2 ^ (12 - logAlphabetSize)
  let tableSize : Nat := 2 ^ logAlphabetSize
  match uniqPos with
  | some x =>
    .ok { logAlphabetSize := logAlphabetSize, freqs := freqs, symbols := List.replicate tableSize x
          offsets := (List.range tableSize).map fun (i : Nat) => (i : Int) * bucketSize
          cutoffs := List.replicate tableSize 0 }
  | none => do
    let zeros := List.replicate tableSize (0 : Int)
    let st ← aliasInit bucketSize freqs 0 { cutoffs := zeros, symbols := zeros, offsets := zeros, over := [], under := [] }
    let st := aliasRest (tableSize - freqs.length) freqs.length st
    let st ← aliasLoop bucketSize (st.over.length + st.under.length) st
    let rows := aliasFinish bucketSize st
    .ok { logAlphabetSize := logAlphabetSize, freqs := freqs, cutoffs := rows.map (·.1), symbols := rows.map (·.2.1), offsets := rows.map (·.2.2) }

/-- entropy/ANSSymbolDistribution.go:95-104: up to three one-bits give the width of the shift field. -/
def readShiftLen : Nat → Rd Nat
  | 0 => pure 0
  | n + 1 => do
    let b ← readBool
    if b then do
      let r ← readShiftLen n
      pure (r + 1)
    else pure 0

/-- The locals of the log-count loop. -/
structure LogCounts where
  logCounts : List Int
  same : List Nat
  omitLog : Int
  omitPos : Int
  deriving Repr, DecidableEq

/-- entropy/ANSSymbolDistribution.go:128-147, the log-count loop; every turn advances `i`. -/
def logCountLoop (alphabetSize : Nat) : Nat → Int → LogCounts → Rd LogCounts
  | 0, _, st => pure st
  | fuel + 1, i, st =>
    if i < alphabetSize then do
      let c ← getVLC distPrefixTable
      let logCounts ← Rd.lift (setAt st.logCounts i c)
      if c = 13 then do
        let rle ← readU8
        let same ← Rd.lift (setAt st.same i (rle + 5))
        logCountLoop alphabetSize fuel (i + rle + 4) { st with logCounts := logCounts, same := same }
      else
        logCountLoop alphabetSize fuel (i + 1)
          { st with logCounts := logCounts, omitLog := if st.omitLog < c then c else st.omitLog, omitPos := if st.omitLog < c then i else st.omitPos }
    else pure st

/-- entropy/ANSSymbolDistribution.go:176-182, the number of extra bits of a frequency. `uint32(12-logCount+1)>>1` is
the half of a non-negative number: the log counts that reach this line are at most 12. -/
def freqBits (shift logCount : Int) : Int :=
  let b := shift - ((13 - logCount) / 2)
  let b := if b < 0 then 0 else b
  if logCount - 1 < b then logCount - 1 else b

/-- The locals of the frequency loop; `freqs` are the frequencies of the symbols before `i`, last first. -/
structure FreqSt where
  freqs : List Int
  total : Int
  numSame : Nat
  prev : Int
  deriving Repr, DecidableEq

/-- entropy/ANSSymbolDistribution.go:164-192, one turn of the frequency loop. -/
def freqStep (shift : Nat) (omitPos : Int) (i : Nat) (logCount : Int) (same : Nat) (st : FreqSt) : Rd FreqSt :=
  let numSame := if same ≠ 0 then same - 1 else st.numSame
  let prev := if same ≠ 0 then st.freqs.headD 0 else st.prev
  if numSame ≠ 0 then
    pure { freqs := prev :: st.freqs, total := st.total + prev, numSame := numSame - 1, prev := prev }
  else if (i : Int) = omitPos ∨ logCount = 0 then
    pure { freqs := 0 :: st.freqs, total := st.total, numSame := numSame, prev := prev }
  else if logCount = 1 then
    pure { freqs := 1 :: st.freqs, total := st.total + 1, numSame := numSame, prev := prev }
  else do
    let bitcount := freqBits shift logCount
    let e ← readBits bitcount.toNat
    let f : Int := 2 ^ (logCount - 1).toNat + e * 2 ^ (logCount - 1 - bitcount).toNat
    pure { freqs := f :: st.freqs, total := st.total + f, numSame := numSame, prev := prev }

/-- entropy/ANSSymbolDistribution.go:160-193, the frequency loop over the remaining (log count, same) pairs. -/
def freqLoop (shift : Nat) (omitPos : Int) : List (Int × Nat) → Nat → FreqSt → Rd FreqSt
  | [], _, st => pure st
  | (lc, sm) :: rest, i, st => do
    let st ← freqStep shift omitPos i lc sm st
    freqLoop shift omitPos rest (i + 1) st

/-- entropy/ANSSymbolDistribution.go:149-151, the check of the omitted position (Go: `||` binds weaker than `&&`). -/
def omitInvalid (alphabetSize : Nat) (st : LogCounts) : Bool :=
  st.omitPos < 0 || (st.omitPos + 1 < alphabetSize && st.logCounts.getD (st.omitPos + 1).toNat 0 == 13)

/-- entropy/ANSSymbolDistribution.go:95-194, a distribution given by log counts. -/
def readLogCountFreqs (logAlphabetSize : Nat) : Rd (List Int) := do
  let l ← readShiftLen 3
  let e ← readBits l
  let shift := (e ||| 1 <<< l) - 1
  if 13 < shift then Rd.fail
  else do
    let r ← readU8
    let alphabetSize := 3 + r
    if 2 ^ logAlphabetSize < alphabetSize then Rd.fail
    else do
      let st ← logCountLoop alphabetSize alphabetSize 0
        { logCounts := List.replicate alphabetSize 0, same := List.replicate alphabetSize 0, omitLog := -1, omitPos := -1 }
      if omitInvalid alphabetSize st then Rd.fail
      else do
        let fs ← freqLoop shift st.omitPos (st.logCounts.zip st.same) 0 { freqs := [], total := 0, numSame := 0, prev := 0 }
        Rd.lift (setAt fs.freqs.reverse st.omitPos (4096 - fs.total))

/-- entropy/ANSSymbolDistribution.go:83-91, the flat distribution over `n` symbols. -/
def flatFreqs (n : Nat) : List Int :=
  (List.range n).map fun i => ((4096 / n + if i < 4096 % n then 1 else 0 : Nat) : Int)

/-- entropy/ANSSymbolDistribution.go:21-203 `NewANSSymbolDistribution` up to the call of `generateAliasMapping`: the
frequencies and the unique position. -/
def readFreqs (logAlphabetSize : Nat) : Rd (List Int × Option Int) := do
  let simple ← readBool
  if simple then do
    let dual ← readBool
    if dual then do
      let v1 ← readU8
      let v2 ← readU8
      if v1 = v2 then Rd.fail
      else if 2 ^ logAlphabetSize < 1 + max v1 v2 then Rd.fail
      else do
        let f ← readBits 12
        pure (((List.replicate (1 + max v1 v2) 0).set v1 (f : Int)).set v2 (4096 - f), if f = 0 then some (v2 : Int) else none)
    else do
      let x ← readU8
      pure ((List.replicate (1 + x) 0).set x 4096, some (x : Int))
  else do
    let flat ← readBool
    if flat then do
      let r ← readU8
      if 2 ^ logAlphabetSize < 1 + r then Rd.fail
      else pure (flatFreqs (1 + r), if 1 + r = 1 then some 0 else none)
    else do
      let fs ← readLogCountFreqs logAlphabetSize
      pure (fs, none)

/-- entropy/ANSSymbolDistribution.go:21-203 `NewANSSymbolDistribution`. -/
def newANSDist (logAlphabetSize : Nat) : Rd ANSDist := do
  let (freqs, uniq) ← readFreqs logAlphabetSize
  Rd.lift (generateAliasMapping logAlphabetSize freqs uniq)

/-- entropy/ANSSymbolDistribution.go:272-285, the table look-up: symbol and offset for the low 12 bits of the state. -/
def aliasLookup (d : ANSDist) (index : Nat) : Res (Int × Int) := do
  let lb := 12 - d.logAlphabetSize
  let i := index / 2 ^ lb
  let pos : Int := (index % 2 ^ lb : Nat)
  let c ← idx d.cutoffs i
  if c ≤ pos then do
    let s ← idx d.symbols i
    let o ← idx d.offsets i
    .ok (s, o + pos)
  else .ok ((i : Int), pos)

/-- entropy/ANSSymbolDistribution.go:261-270: the state is read from the stream when there is none yet; `none` is
`HasState = false`. -/
def ansInitState (st : Option Nat) : Rd Nat :=
  match st with
  | none => readBits 32
  | some x => pure x

/-- entropy/ANSSymbolDistribution.go:259-296 `ReadSymbol`. The returned state is the new contents of the state object. -/
def ansReadSymbol (d : ANSDist) (st : Option Nat) : Rd (Int × Option Nat) := do
  let state ← ansInitState st
  let (symbol, offset) ← Rd.lift (aliasLookup d (state % 4096))
  let f ← Rd.lift (idx d.freqs symbol)
  let state := toU32 (f * (state / 4096 : Nat) + offset)
  if state < 65536 then do
    let data ← readBits 16
    pure (symbol, some (u32 (state <<< 16) ||| data))
  else pure (symbol, some state)

end Jxl
