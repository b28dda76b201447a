import Verif.Model.Prefix
import Verif.Model.ANS
/-!
# `entropy/EntropyStream.go`, `entropy/HybridIntegerConfig.go`: entropy-coded streams
-/
namespace Jxl

/-- entropy/HybridIntegerConfig.go:10-14 `HybridIntegerConfig` (the fields come from `ReadBits` of at most 4 bits). -/
structure HybridConfig where
  splitExponent : Nat
  msbInToken : Nat
  lsbInToken : Nat
  deriving Repr, DecidableEq

/-- entropy/HybridIntegerConfig.go:24-56 `NewHybridIntegerConfigWithReader`. -/
def readHybridConfig (logAlphabetSize : Nat) : Rd HybridConfig := do
  let split ← readBits (ceilLog1p logAlphabetSize)
  if split = logAlphabetSize then pure { splitExponent := split, msbInToken := 0, lsbInToken := 0 }
  else do
    let msb ← readBits (ceilLog1p split)
    if split < msb then Rd.fail
    else do
      let lsb ← readBits (ceilLog1p (split - msb))
      if split < msb + lsb then Rd.fail
      else pure { splitExponent := split, msbInToken := msb, lsbInToken := lsb }

/-- entropy/EntropyStream.go:378-396 `ReadHybridInteger`. Tokens are never negative where this is called: symbols of a
distribution are not, and the length token is reduced by `lz77MinSymbol` only when it is at least that. The result is
an `int32`: bit operations are done on the 32 bits and read as signed at the end. A shift by 32 or more gives 0, as
truncation to 32 bits does. -/
def readHybrid (c : HybridConfig) (token : Nat) : Rd Int :=
  let split := 2 ^ c.splitExponent
  if token < split then pure (token : Int)
  else
    let n := c.splitExponent - c.lsbInToken - c.msbInToken + (token - split) / 2 ^ (c.msbInToken + c.lsbInToken)
    if 32 < n then Rd.fail
    else do
      let low := token % 2 ^ c.lsbInToken
      let t := token / 2 ^ c.lsbInToken % 2 ^ c.msbInToken ||| 2 ^ c.msbInToken
      let data ← readBits n
      pure (i32 ((u32 ((u32 (t <<< n) ||| u32 data) <<< c.lsbInToken) ||| low : Nat) : Int))

/-- entropy/SymbolDistribution.go:5-9 `SymbolDistribution`: a prefix code or an ANS distribution, with its integer
configuration. -/
inductive Dist where
  | pre (p : PrefixDist) (config : HybridConfig)
  | ans (a : ANSDist) (config : HybridConfig)
  deriving Repr, DecidableEq

/-- `GetConfig`. -/
def Dist.config : Dist → HybridConfig
  | .pre _ c => c
  | .ans _ c => c

/-- `ReadSymbol` of either kind; a prefix code leaves the ANS state alone. -/
def Dist.readSymbol : Dist → Option Nat → Rd (Int × Option Nat)
  | .pre p _, st => do
    let s ← p.readSymbol
    pure (s, st)
  | .ans a _, st => ansReadSymbol a st

/-- entropy/EntropyStream.go:30-45 `EntropyStream`. The window is a slice of 2^20 entries that is only used through
indices reduced mod 2^20: it is a function of the index here. -/
structure ES where
  clusterMap : List Int
  dists : List Dist
  usesLZ77 : Bool
  lzLengthConfig : HybridConfig
  minSymbol : Int
  minLength : Int
  state : Option Nat
  window : Nat → Int
  numToCopy : Int
  copyPos : Int
  numDecoded : Int

/-- entropy/EntropyStream.go:10-28 `SPECIAL_DISTANCES`. -/
def specialDistances : List (Int × Int) := [
    (0, 1), (1, 0), (1, 1), (-1, 1), (0, 2), (2, 0), (1, 2), (-1, 2), (2, 1), (-2, 1), (2, 2), (-2, 2), (0, 3), (3, 0), (1, 3),
    (-1, 3), (3, 1), (-3, 1), (2, 3), (-2, 3), (3, 2), (-3, 2), (0, 4), (4, 0), (1, 4), (-1, 4), (4, 1), (-4, 1), (3, 3), (-3, 3),
    (2, 4), (-2, 4), (4, 2), (-4, 2), (0, 5), (3, 4), (-3, 4), (4, 3), (-4, 3), (5, 0), (1, 5), (-1, 5), (5, 1), (-5, 1), (2, 5),
    (-2, 5), (5, 2), (-5, 2), (4, 4), (-4, 4), (3, 5), (-3, 5), (5, 3), (-5, 3), (0, 6), (6, 0), (1, 6), (-1, 6), (6, 1), (-6, 1),
    (2, 6), (-2, 6), (6, 2), (-6, 2), (4, 5), (-4, 5), (5, 4), (-5, 4), (3, 6), (-3, 6), (6, 3), (-6, 3), (0, 7), (7, 0), (1, 7),
    (-1, 7), (5, 5), (-5, 5), (7, 1), (-7, 1), (4, 6), (-4, 6), (6, 4), (-6, 4), (2, 7), (-2, 7), (7, 2), (-7, 2), (3, 7), (-3, 7),
    (7, 3), (-7, 3), (5, 6), (-5, 6), (6, 5), (-6, 5), (8, 0), (4, 7), (-4, 7), (7, 4), (-7, 4), (8, 1), (8, 2), (6, 6), (-6, 6),
    (8, 3), (5, 7), (-5, 7), (7, 5), (-7, 5), (8, 4), (6, 7), (-6, 7), (7, 6), (-7, 6), (8, 5), (7, 7), (-7, 7), (8, 6), (8, 7)]

/-- `x & 0xFFFFF` on an `int32`. -/
def ring (x : Int) : Nat := (x % 1048576).toNat

/-- entropy/EntropyStream.go:313-320, a copied symbol. -/
def ES.copyOne (es : ES) : Int × ES :=
  let copyPos := i32 (es.copyPos + 1)
  let v := es.window (ring copyPos)
  let numDecoded := i32 (es.numDecoded + 1)
  (v, { es with copyPos := copyPos, numToCopy := es.numToCopy - 1, numDecoded := numDecoded
                window := fun i => if i = ring numDecoded then v else es.window i })

/-- entropy/EntropyStream.go:351-365, from the decoded distance value to the distance that is used. -/
def lzDistance (distance distanceMultiplier numDecoded : Int) : Res Int := do
  let d ←
    if distanceMultiplier = 0 then .ok (i32 (distance + 1))
    else if distance < 120 then do
      let (a, b) ← idx specialDistances distance
      .ok (i32 (a + i32 (distanceMultiplier * b)))
    else .ok (distance - 119)
  let d := if 1048576 < d then 1048576 else d
  .ok (if numDecoded < d then numDecoded else d)

/-- The distribution of a context, entropy/EntropyStream.go:321-328. -/
def ES.distOf (es : ES) (context : Int) : Res Dist := do
  if (es.clusterMap.length : Int) ≤ context then .err
  else do
    let c ← idx es.clusterMap context
    if (es.dists.length : Int) ≤ c then .err else idx es.dists c

/-- entropy/EntropyStream.go:369-375, a symbol that is not copied. -/
def ES.literal (es : ES) (v : Int) : Int × ES :=
  if es.usesLZ77 then
    let numDecoded := i32 (es.numDecoded + 1)
    (v, { es with numDecoded := numDecoded, window := fun i => if i = ring numDecoded then v else es.window i })
  else (v, es)

/-- entropy/EntropyStream.go:335-366, the length and the distance of a copy; the stream afterwards has
`numToCopy` and `copyPos` set. -/
def ES.readCopy (es : ES) (token distanceMultiplier : Int) : Rd ES := do
  let c ← Rd.lift (idx es.clusterMap ((es.clusterMap.length : Int) - 1))
  let lzDist ← Rd.lift (idx es.dists c)
  let hi ← readHybrid es.lzLengthConfig (token - es.minSymbol).toNat
  let (t2, st) ← lzDist.readSymbol es.state
  let distance ← readHybrid lzDist.config t2.toNat
  let d ← Rd.lift (lzDistance distance distanceMultiplier es.numDecoded)
  pure { es with state := st, numToCopy := i32 (es.minLength + hi), copyPos := i32 (es.numDecoded - d) }

/-- entropy/EntropyStream.go:312-376 `ReadSymbolWithMultiplier`. The recursive call happens once per copy command; it
recurses again only when the copy length overflowed to a non-positive number, which takes at least one bit of the
stream: the fuel (number of bits plus two) is never used up. -/
def ES.readSymbolFuel : Nat → ES → Int → Int → Rd (Int × ES)
  | 0, _, _, _ => Rd.crash
  | fuel + 1, es, context, distanceMultiplier =>
    if 0 < es.numToCopy then pure es.copyOne
    else do
      let dist ← Rd.lift (es.distOf context)
      let (token, st) ← dist.readSymbol es.state
      let es := { es with state := st }
      if es.usesLZ77 ∧ es.minSymbol ≤ token then do
        let es ← es.readCopy token distanceMultiplier
        ES.readSymbolFuel fuel es context distanceMultiplier
      else do
        let v ← readHybrid dist.config token.toNat
        pure (es.literal v)

/-- entropy/EntropyStream.go:312-376 `ReadSymbolWithMultiplier`. -/
def ES.readSymbolMul (es : ES) (context distanceMultiplier : Int) : Rd (Int × ES) := fun s =>
  ES.readSymbolFuel (8 * s.data.length + 2) es context distanceMultiplier s

/-- entropy/EntropyStream.go:300-302 `ReadSymbol`. -/
def ES.readSymbol (es : ES) (context : Int) : Rd (Int × ES) := es.readSymbolMul context 0

/-- entropy/EntropyStream.go:398-400 `ValidateFinalState`. -/
def ES.validateFinalState (es : ES) : Bool :=
  match es.state with
  | none => true
  | some x => x == 0x130000

/-- entropy/EntropyStream.go:168-181 `LoadWithStream`: a fresh stream with the same codes. -/
def ES.fresh (es : ES) : ES :=
  { es with state := none, window := fun _ => 0, numToCopy := 0, copyPos := 0, numDecoded := 0 }

/-- `n` symbols in context 0, entropy/EntropyStream.go:119-125. -/
def ES.readMany : Nat → ES → Rd (List Int × ES)
  | 0, es => pure ([], es)
  | n + 1, es => do
    let (v, es) ← es.readSymbol 0
    let (vs, es) ← ES.readMany n es
    pure (v :: vs, es)

/-- `n` values of `bits` bits, entropy/EntropyStream.go:101-107. -/
def readFixed (bits : Nat) : Nat → Rd (List Int)
  | 0 => pure []
  | n + 1 => do
    let v ← readBits bits
    let vs ← readFixed bits n
    pure ((v : Int) :: vs)

/-- entropy/EntropyStream.go:131-146, inverse move-to-front; `mtf[index]` panics for an index out of range. -/
def inverseMTF : List Int → List Int → Res (List Int)
  | _, [] => .ok []
  | mtf, index :: rest => do
    let value ← idx mtf index
    let vs ← inverseMTF (value :: (mtf.take index.toNat ++ mtf.drop (index.toNat + 1))) rest
    .ok (value :: vs)

/-- entropy/EntropyStream.go:149-154, one more than the largest entry (0 if there is none). -/
def countClusters (m : List Int) : Int := m.foldl (fun n c => if n ≤ c then c + 1 else n) 0

/-- entropy/EntropyStream.go:155-158. -/
def checkClusters (m : List Int) (maxClusters : Nat) : Res (List Int × Int) :=
  if (maxClusters : Int) < countClusters m then .err else .ok (m, countClusters m)

/-- entropy/EntropyStream.go:119-147, the cluster map from the nested stream. -/
def nestedMap (numDists : Nat) (useMtf : Bool) (nested : ES) : Rd (List Int) := do
  let (m, nested) ← ES.readMany numDists nested
  if nested.validateFinalState = false then Rd.fail
  else if useMtf then Rd.lift (inverseMTF ((List.range 256).map Int.ofNat) m)
  else pure m

/-- `n` integer configurations, entropy/EntropyStream.go:243-249. -/
def readConfigs (logAlphabetSize : Nat) : Nat → Rd (List HybridConfig)
  | 0 => pure []
  | n + 1 => do
    let c ← readHybridConfig logAlphabetSize
    let cs ← readConfigs logAlphabetSize n
    pure (c :: cs)

/-- entropy/EntropyStream.go:254-270, the size of one alphabet. -/
def readAlphabetSize : Rd Nat := do
  let b ← readBool
  if b then do
    let n ← readBits 4
    let e ← readBits n
    pure (1 + (2 ^ n + e))
  else pure 1

/-- entropy/EntropyStream.go:252-271. -/
def readAlphabetSizes : Nat → Rd (List Nat)
  | 0 => pure []
  | n + 1 => do
    let a ← readAlphabetSize
    let as ← readAlphabetSizes n
    pure (a :: as)

/-- entropy/EntropyStream.go:272-277. -/
def readPrefixDists : List (Nat × HybridConfig) → Rd (List Dist)
  | [] => pure []
  | (a, c) :: rest => do
    let d ← newPrefixDist a
    let ds ← readPrefixDists rest
    pure (.pre d c :: ds)

/-- entropy/EntropyStream.go:279-285. -/
def readANSDists (logAlphabetSize : Nat) : List HybridConfig → Rd (List Dist)
  | [] => pure []
  | c :: rest => do
    let d ← newANSDist logAlphabetSize
    let ds ← readANSDists logAlphabetSize rest
    pure (.ans d c :: ds)

/-- entropy/EntropyStream.go:226-291, the distributions of `n` clusters. -/
def readDists (n : Nat) : Rd (List Dist) := do
  let prefixCodes ← readBool
  if prefixCodes then do
    let configs ← readConfigs 15 n
    let sizes ← readAlphabetSizes n
    readPrefixDists (sizes.zip configs)
  else do
    let l ← readBits 2
    let configs ← readConfigs (5 + l) n
    readANSDists (5 + l) configs

/-- The LZ77 parameters: minimal symbol, minimal length, length configuration. -/
structure LZParams where
  minSymbol : Nat
  minLength : Nat
  lengthConfig : HybridConfig
  deriving Repr, DecidableEq

/-- entropy/EntropyStream.go:193-217. -/
def readLZ (disallowLZ77 : Bool) : Rd (Option LZParams) := do
  let uses ← readBool
  if uses then
    if disallowLZ77 then Rd.fail
    else do
      let minSymbol ← readU32 224 0 512 0 4096 0 8 15
      let minLength ← readU32 3 0 4 0 5 2 9 8
      let c ← readHybridConfig 8
      pure (some { minSymbol := minSymbol, minLength := minLength, lengthConfig := c })
  else pure none

/-- A stream as `LoadWithReader` leaves it. -/
def ES.mk' (clusterMap : List Int) (dists : List Dist) (lz : Option LZParams) : ES :=
  { clusterMap := clusterMap, dists := dists, usesLZ77 := lz.isSome
    lzLengthConfig := match lz with | some p => p.lengthConfig | none => ⟨0, 0, 0⟩
    minSymbol := match lz with | some p => p.minSymbol | none => 0
    minLength := match lz with | some p => p.minLength | none => 0
    state := none, window := fun _ => 0, numToCopy := 0, copyPos := 0, numDecoded := 0 }

/-- entropy/EntropyStream.go:187-293 `LoadWithReader`, with the cluster-map reader as a parameter, as in Go. -/
def loadWith (rcm : Nat → Nat → Rd (List Int × Int)) (numDists : Nat) (disallowLZ77 : Bool) : Rd ES := do
  if numDists = 0 then Rd.fail
  else do
    let lz ← readLZ disallowLZ77
    let numDists := if lz.isSome then numDists + 1 else numDists
    let (clusterMap, numClusters) ← rcm numDists numDists
    let dists ← readDists numClusters.toNat
    pure (ES.mk' clusterMap dists lz)

/-- entropy/EntropyStream.go:87-162 `ReadClusterMap numDists maxClusters`. The first argument bounds the nesting: a
nested stream has one distribution, or two with LZ77, and the map of two is nested once more without LZ77, so the
nesting is at most 2. -/
def readClusterMap : Nat → Nat → Nat → Rd (List Int × Int)
  | fuel, numDists, maxClusters =>
    if numDists = 1 then Rd.lift (checkClusters [0] maxClusters)
    else do
      let simple ← readBool
      if simple then do
        let nbits ← readBits 2
        let m ← readFixed nbits numDists
        Rd.lift (checkClusters m maxClusters)
      else do
        let useMtf ← readBool
        match fuel with
        | 0 => Rd.crash
        | fuel + 1 => do
          let nested ← loadWith (readClusterMap fuel) 1 (numDists ≤ 2)
          let m ← nestedMap numDists useMtf nested
          Rd.lift (checkClusters m maxClusters)

/-- entropy/EntropyStream.go:183-185, 187 `NewEntropyStreamWithReader`. -/
def ES.load (numDists : Nat) (disallowLZ77 : Bool) : Rd ES := loadWith (readClusterMap 2) numDists disallowLZ77

end Jxl
