import Verif.Model.VLC
import Verif.Model.Util
/-!
# `entropy/PrefixSymbolDistribution.go`: descriptions of prefix codes

Arithmetic is in `Int`: all the numbers here stay far below 2^31 (lengths at most 15, counts bounded by the alphabet
size of at most 65536 plus one run).
-/
namespace Jxl

/-- entropy/PrefixSymbolDistribution.go:11 `level0Table`. -/
def level0Table : VLC :=
  { bits := 4, table := [(0, 2), (4, 2), (3, 2), (2, 3), (0, 2), (4, 2), (3, 2), (1, 4), (0, 2), (4, 2), (3, 2), (2, 3), (0, 2), (4, 2), (3, 2), (5, 4)] }

/-- entropy/PrefixSymbolDistribution.go:12 `codelenMap`. -/
def codelenMap : List Int := [1, 2, 3, 4, 0, 5, 17, 6, 16, 7, 8, 9, 10, 11, 12, 13, 14, 15]

/-- The locals of the level-1 loop. -/
structure L1 where
  lengths : List Int
  counts : List Int
  totalCode : Nat
  numCodes : Nat
  deriving Repr, DecidableEq

/-- entropy/PrefixSymbolDistribution.go:56-71, the loop over `i = hskip .. 17`; the argument is `18 - i`. -/
def level1Loop : Nat → L1 → Rd L1
  | 0, st => pure st
  | n + 1, st => do
    let i : Int := 17 - n
    let code ← getVLC level0Table
    let slot ← Rd.lift (idx codelenMap i)
    let lengths ← Rd.lift (setAt st.lengths slot code)
    let c ← Rd.lift (idx st.counts code)
    let counts ← Rd.lift (setAt st.counts code (c + 1))
    let totalCode := if code ≠ 0 then st.totalCode + 32 / 2 ^ code.toNat else st.totalCode
    let numCodes := if code ≠ 0 then st.numCodes + 1 else st.numCodes
    if 32 ≤ totalCode then do
      let c0 ← Rd.lift (idx counts 0)
      let counts ← Rd.lift (setAt counts 0 (c0 + (17 - i)))
      pure { lengths := lengths, counts := counts, totalCode := totalCode, numCodes := numCodes }
    else level1Loop n { lengths := lengths, counts := counts, totalCode := totalCode, numCodes := numCodes }

/-- entropy/PrefixSymbolDistribution.go:75-77 and 160-162: running sums in place. -/
def runningSums : Int → List Int → List Int
  | _, [] => []
  | acc, c :: cs => (acc + c) :: runningSums (acc + c) cs

/-- entropy/PrefixSymbolDistribution.go:80-85 and 164-169: the entries go, last first, to the positions given by the
counts. The first argument is the number of entries left; the output rows are (length, symbol). -/
def scatter (lengths : List Int) : Nat → List Int → List (Int × Int) → Res (List (Int × Int))
  | 0, _, out => .ok out
  | i + 1, counts, out => do
    let l ← idx lengths i
    let c ← idx counts l
    let counts ← setAt counts l (c - 1)
    let out ← setAt out (c - 1) (l, (i : Int))
    scatter lengths i counts out

/-- Counting sort of the entries by length, entropy/PrefixSymbolDistribution.go:75-85 and 160-169. -/
def countingSort (lengths counts : List Int) : Res (List (Int × Int)) :=
  scatter lengths lengths.length (runningSums 0 counts) (List.replicate lengths.length (0, 0))

/-- The locals of the level-2 loop. -/
structure L2 where
  lengths : List Int
  counts : List Int
  totalCode : Int
  prevRepeat : Int
  prevZero : Int
  prev : Int
  deriving Repr, DecidableEq

/-- entropy/PrefixSymbolDistribution.go:119-121: `level2Lengths[i+j] = prev` for `j < extra`. -/
def fillRun (lengths : List Int) (i : Int) (prev : Int) : Nat → Res (List Int)
  | 0 => .ok lengths
  | n + 1 => do
    let l ← setAt lengths i prev
    fillRun l (i + 1) prev n

/-- entropy/PrefixSymbolDistribution.go:110-151, one turn of the level-2 loop after its code was read; returns the
new value of `i` (before the loop increment). -/
def level2Step (i : Int) (code : Int) (st : L2) : Rd (Int × L2) :=
  if code = 16 then do
    let e ← readBits 2
    let extra : Int := if 0 < st.prevRepeat then 4 * (st.prevRepeat - 2) - st.prevRepeat + (3 + e) else 3 + e
    let lengths ← Rd.lift (fillRun st.lengths i st.prev extra.toNat)
    let c ← Rd.lift (idx st.counts st.prev)
    let counts ← Rd.lift (setAt st.counts st.prev (c + extra))
    pure (i + (extra - 1), { st with lengths := lengths, counts := counts, totalCode := st.totalCode + (32768 / 2 ^ st.prev.toNat : Nat) * extra, prevRepeat := st.prevRepeat + extra, prevZero := 0 })
  else if code = 17 then do
    let e ← readBits 3
    let extra : Int := if 0 < st.prevZero then 8 * (st.prevZero - 2) - st.prevZero + (3 + e) else 3 + e
    let c ← Rd.lift (idx st.counts 0)
    let counts ← Rd.lift (setAt st.counts 0 (c + extra))
    pure (i + (extra - 1), { st with counts := counts, prevRepeat := 0, prevZero := st.prevZero + extra })
  else do
    let lengths ← Rd.lift (setAt st.lengths i code)
    let c ← Rd.lift (idx st.counts code)
    let counts ← Rd.lift (setAt st.counts code (c + 1))
    pure (i, { st with lengths := lengths, counts := counts, totalCode := if code ≠ 0 then st.totalCode + (32768 / 2 ^ code.toNat : Nat) else st.totalCode, prevRepeat := 0, prevZero := 0, prev := if code ≠ 0 then code else st.prev })

/-- entropy/PrefixSymbolDistribution.go:105-156, the level-2 loop. Every turn advances `i` by at least one, so
`alphabetSize` turns of fuel are enough and running out of fuel only happens at the end of the loop. -/
def level2Loop (level1Table : VLC) (alphabetSize : Nat) : Nat → Int → L2 → Rd L2
  | 0, _, st => pure st
  | fuel + 1, i, st =>
    if i < alphabetSize then do
      let code ← getVLC level1Table
      let (i, st) ← level2Step i code st
      if 32768 ≤ st.totalCode then do
        let c0 ← Rd.lift (idx st.counts 0)
        let counts ← Rd.lift (setAt st.counts 0 (c0 + (alphabetSize - i - 1)))
        pure { st with counts := counts }
      else level2Loop level1Table alphabetSize fuel (i + 1) st
    else pure st

/-- entropy/PrefixSymbolDistribution.go:51-96, the level-1 code of a complex prefix code. -/
def readLevel1 (hskip : Nat) : Rd VLC := do
  let st ← level1Loop (18 - hskip)
    { lengths := List.replicate 18 0, counts := (hskip : Int) :: List.replicate 18 0, totalCode := 0, numCodes := 0 }
  if (st.totalCode ≠ 32 ∧ 2 ≤ st.numCodes) ∨ st.numCodes < 1 then Rd.fail
  else do
    let rows ← Rd.lift (countingSort st.lengths st.counts)
    if st.numCodes = 1 then do
      let r ← Rd.lift (idx rows 17)
      pure { bits := 0, table := [(r.2, 0)] }
    else Rd.lift (newVLC 5 (rows.map (·.1)) (rows.map (·.2)))

/-- entropy/PrefixSymbolDistribution.go:157-173, from the level-2 lengths to the table. -/
def finishLevel2 (alphabetSize : Nat) (st : L2) : Res VLC := do
  let c0 ← idx st.counts 0
  if st.totalCode ≠ 32768 ∧ c0 < (alphabetSize : Int) - 1 then .err
  else do
    let rows ← countingSort st.lengths st.counts
    newVLC 15 (rows.map (·.1)) (rows.map (·.2))

/-- entropy/PrefixSymbolDistribution.go:49-175 `populateComplexPrefix`. -/
def populateComplexPrefix (alphabetSize hskip : Nat) : Rd VLC := do
  let level1Table ← readLevel1 hskip
  let st ← level2Loop level1Table alphabetSize alphabetSize 0
    { lengths := List.replicate alphabetSize 0, counts := List.replicate (alphabetSize + 1) 0, totalCode := 0, prevRepeat := 0, prevZero := 0, prev := 8 }
  Rd.lift (finishLevel2 alphabetSize st)

/-- A prefix-coded distribution: `table` with no table means the code has one symbol and no bits
(entropy/PrefixSymbolDistribution.go:14-18). -/
inductive PrefixDist where
  | single (symbol : Int)
  | table (t : VLC)
  deriving Repr, DecidableEq

/-- entropy/PrefixSymbolDistribution.go:188-194: `n` symbols of `bits` bits each (symbols fit 16 bits). -/
def readSymbols (bits : Nat) : Nat → Rd (List Int)
  | 0 => pure []
  | n + 1 => do
    let s ← readBits bits
    let rest ← readSymbols bits n
    pure ((s : Int) :: rest)

/-- Insertion into a sorted list (used for `slices.Sort`). -/
def insertSorted (x : Int) : List Int → List Int
  | [] => [x]
  | y :: ys => if x ≤ y then x :: y :: ys else y :: insertSorted x ys

/-- `slices.Sort` (Go standard library) on integers. -/
def sortInts (l : List Int) : List Int := l.foldr insertSorted []

/-- entropy/PrefixSymbolDistribution.go:200-229, the switch on the number of symbols: width, lengths and the
reordered symbols; the symbol slice always has four entries. -/
def simpleShape (symbols : List Int) (treeSelect : Bool) : Nat × List Int × List Int :=
  match symbols with
  | [a, b] => if b < a then (1, [1, 1, 0, 0], [b, a, 0, 0]) else (1, [1, 1, 0, 0], [a, b, 0, 0])
  | [a, b, c] => if c < b then (2, [1, 2, 2, 0], [a, c, b, 0]) else (2, [1, 2, 2, 0], [a, b, c, 0])
  | [a, b, c, d] =>
    if treeSelect then
      if d < c then (3, [1, 2, 3, 3], [a, b, d, c]) else (3, [1, 2, 3, 3], [a, b, c, d])
    else (2, [2, 2, 2, 2], sortInts [a, b, c, d])
  | _ => (0, [], symbols)

/-- entropy/PrefixSymbolDistribution.go:195-198: the tree selector is present only with four symbols. -/
def readTreeSelect (nsym : Nat) : Rd Bool := if nsym = 4 then readBool else pure false

/-- entropy/PrefixSymbolDistribution.go:200-235: from the symbols to the table. -/
def simpleTable (symbols : List Int) (treeSelect : Bool) : Res PrefixDist :=
  match symbols with
  | [a] => .ok (.single a)
  | _ => do
    let t ← newVLC (simpleShape symbols treeSelect).1 (simpleShape symbols treeSelect).2.1 (simpleShape symbols treeSelect).2.2
    .ok (.table t)

/-- entropy/PrefixSymbolDistribution.go:177-235 `populateSimplePrefix`. -/
def populateSimplePrefix (logAlphabetSize : Nat) : Rd PrefixDist := do
  let n ← readBits 2
  let symbols ← readSymbols logAlphabetSize (n + 1)
  let treeSelect ← readTreeSelect (n + 1)
  Rd.lift (simpleTable symbols treeSelect)

/-- entropy/PrefixSymbolDistribution.go:20-48 `NewPrefixSymbolDistributionWithReader` (`1 ≤ alphabetSize`). -/
def newPrefixDist (alphabetSize : Nat) : Rd PrefixDist :=
  if alphabetSize = 1 then pure (.single 0)
  else do
    let hskip ← readBits 2
    if hskip = 1 then populateSimplePrefix (ceilLog1p (alphabetSize - 1))
    else do
      let t ← populateComplexPrefix alphabetSize hskip
      pure (.table t)

/-- entropy/PrefixSymbolDistribution.go:237-242 `ReadSymbol`. -/
def PrefixDist.readSymbol : PrefixDist → Rd Int
  | .single s => pure s
  | .table t => getVLC t

end Jxl
