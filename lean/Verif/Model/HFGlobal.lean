import Verif.Model.LFCoefficients
import Verif.Model.TransformType
import Verif.Model.ImageHeader

/-!
# Quantization matrices (frame/HFGlobal.go, frame/dctparams.go, frame/transformtype.go:138-169)

Written for any arithmetic. The parameters are exact numbers: half-precision floats times 64, integers and constants are exact in `float32` and `float64`, except for the constants of the
source text, for which rounding to `float64` first is left out.
-/
namespace Jxl

/-- frame/dctparams.go:5-11 `DCTParam`. -/
structure DCTParam where
  dct : List (List ℚ)
  param : List (List ℚ)
  mode : Nat
  den : ℚ
  p44 : List (List ℚ)

/-- The decimal number `n`·10^-`k`. -/
def dec (n : Int) (k : Nat) : ℚ := n / 10 ^ k

/-- frame/HFGlobal.go:15-18. -/
def dct4x4Params : List (List ℚ) := [[dec 2200 0, dec 0 0, dec 0 0, dec 0 0], [dec 392 0, dec 0 0, dec 0 0, dec 0 0], [dec 112 0, dec (-25) 2, dec (-25) 2, dec (-5) 1]]

/-- frame/HFGlobal.go:20-23. -/
def dct4x8Params : List (List ℚ) := [[dec 2198050556016380522 15, dec (-96269623020744692) 17, dec (-76194253026666783) 17, dec (-6551140670773547) 16], [dec 7643655248643528689 16, dec (-92630200888366945) 17, dec (-9675229603596517) 16, dec (-27845290869168118) 17], [dec 527107573587542228 15, dec (-14594385811273854) 16, dec (-1450082094097871593) 18, dec (-15843722511996204) 16]]

/-- frame/HFGlobal.go:25-27. -/
def afvFreqs : List ℚ := [dec 0 0, dec 0 0, dec 8517778890324296 16, dec 537778436506804 14, dec 0 0, dec 0 0, dec 4734747904497923 15, dec 5449245381693219 15, dec 16598270267479331 16, dec 4 0, dec 7275749096817861 15, dec 10423227632456525 15, dec 2662932286148962 15, dec 7630657783650829 15, dec 8962388608184032 15, dec 1297166202570235 14]

/-- frame/HFGlobal.go:29. -/
def seqA : List ℚ := [dec (-1025) 3, dec (-78) 2, dec (-65012) 5, dec (-19041574084286472) 17, dec (-20819395464) 11, dec (-421064) 6, dec (-32733845535848671) 17]

/-- frame/HFGlobal.go:30. -/
def seqB : List ℚ := [dec (-3041958212306401) 16, dec (-3633036457487539) 16, dec (-35660379990111464) 17, dec (-3443074455424403) 16, dec (-33699592683512467) 17, dec (-30180866526242109) 17, dec (-27321683125358037) 17]

/-- frame/HFGlobal.go:31. -/
def seqC : List ℚ := [dec (-12) 1, dec (-12) 1, dec (-8) 1, dec (-7) 1, dec (-7) 1, dec (-4) 1, dec (-5) 1]

/-- frame/HFGlobal.go:44-219 `setupDefaultParams`. -/
def defaultParams : List DCTParam := [
  ⟨[[dec 3150 0, dec 0 0, dec (-4) 1, dec (-4) 1, dec (-4) 1, dec (-2) 0], [dec 560 0, dec 0 0, dec (-3) 1, dec (-3) 1, dec (-3) 1, dec (-3) 1], [dec 512 0, dec (-2) 0, dec (-1) 0, dec 0 0, dec (-1) 0, dec (-2) 0]], [], 6, 1, []⟩,
  ⟨[], [[dec 280 0, dec 3160 0, dec 3160 0], [dec 60 0, dec 864 0, dec 864 0], [dec 18 0, dec 200 0, dec 200 0]], 1, 1, []⟩,
  ⟨[], [[dec 3840 0, dec 2560 0, dec 1280 0, dec 640 0, dec 480 0, dec 300 0], [dec 960 0, dec 640 0, dec 320 0, dec 180 0, dec 140 0, dec 120 0], [dec 640 0, dec 320 0, dec 128 0, dec 64 0, dec 32 0, dec 16 0]], 2, 1, []⟩,
  ⟨dct4x4Params, [[dec 1 0, dec 1 0], [dec 1 0, dec 1 0], [dec 1 0, dec 1 0]], 3, 1, dct4x4Params⟩,
  ⟨[[dec 89968725711814115328 16, dec (-13000777393353804) 16, dec (-49424529824571225) 17, dec (-439093774457103443) 18, dec (-6350101832695744) 16, dec (-90177264050827612) 17, dec (-16162099239887414) 16], [dec 319148366296844234752 17, dec (-67424582104194355) 17, dec (-80745813428471001) 17, dec (-44925837484843441) 17, dec (-35865440981033403) 17, dec (-31322389111877305) 17, dec (-37615025315725483) 17], [dec 115750408145487200256 17, dec (-20531423165804414) 16, dec (-14) 1, dec (-50687130033378396) 17, dec (-42708730624733904) 17, dec (-14856834539296244) 16, dec (-49209142884401604) 16]], [], 6, 1, []⟩,
  ⟨[[dec 1571840830982518931456 17, dec (-1025) 3, dec (-98) 2, dec (-9012) 4, dec (-4) 1, dec (-48819395464) 11, dec (-421064) 6, dec (-27) 2], [dec 73057636810695983104 16, dec (-8041958212306401) 16, dec (-7633036457487539) 16, dec (-55660379990111464) 17, dec (-49785304658857626) 17, dec (-43699592683512467) 17, dec (-40180866526242109) 17, dec (-27321683125358037) 17], [dec 380353173721215041536 17, dec (-3060733579805728) 15, dec (-20413270132490346) 16, dec (-20235650159727417) 16, dec (-5495389509954993) 16, dec (-4) 1, dec (-4) 1, dec (-3) 1]], [], 6, 1, []⟩,
  ⟨[[dec 72407734393502 10, dec (-7) 1, dec (-7) 1, dec (-2) 1, dec (-2) 1, dec (-2) 1, dec (-5) 1], [dec 144815468787004 11, dec (-5) 1, dec (-5) 1, dec (-5) 1, dec (-2) 1, dec (-2) 1, dec (-2) 1], [dec 506854140754517 12, dec (-14) 1, dec (-2) 1, dec (-5) 1, dec (-5) 1, dec (-15) 1, dec (-36) 1]], [], 6, 1, []⟩,
  ⟨[[dec 162832494710648897 13, dec (-17812845336559429) 16, dec (-16309059012653515) 16, dec (-10382179034313539) 16, dec (-85) 2, dec (-7) 1, dec (-9) 1, dec (-12360638576849587) 16], [dec 508915750884921511936 17, dec (-320049391452786891) 18, dec (-35362849922161446) 17, dec (-30340000000000003) 17, dec (-61) 2, dec (-5) 1, dec (-5) 1, dec (-6) 1], [dec 339777603275308720128 17, dec (-321327362693153371) 18, dec (-34507619223117997) 17, dec (-70340000000000003) 17, dec (-9) 1, dec (-1) 0, dec (-1) 0, dec (-11754605576265209) 16]], [], 6, 1, []⟩,
  ⟨[[dec 1384497076442300573 14, dec (-97113799999999995) 17, dec (-658) 3, dec (-42026) 5, dec (-22712) 5, dec (-2206) 4, dec (-226) 3, dec (-6) 1], [dec 4798964084220744293 15, dec (-61125308982767057) 17, dec (-83770786552491361) 17, dec (-79014862079498627) 17, dec (-2692727459704829) 16, dec (-38272769465388551) 17, dec (-22924222653091453) 17, dec (-20719098826199578) 17], [dec 1807236946760964614 15, dec (-12) 1, dec (-12) 1, dec (-7) 1, dec (-7) 1, dec (-7) 1, dec (-4) 1, dec (-5) 1]], [], 6, 1, []⟩,
  ⟨dct4x8Params, [[dec 1 0], [dec 1 0], [dec 1 0]], 4, 1, []⟩,
  ⟨dct4x8Params, [[dec 3072 0, dec 3072 0, dec 256 0, dec 256 0, dec 256 0, dec 414 0, dec 0 0, dec 0 0, dec 0 0], [dec 1024 0, dec 1024 0, dec 50 0, dec 50 0, dec 50 0, dec 58 0, dec 0 0, dec 0 0, dec 0 0], [dec 384 0, dec 384 0, dec 12 0, dec 12 0, dec 12 0, dec 22 0, dec (-25) 2, dec (-25) 2, dec (-25) 2]], 5, 1, dct4x4Params⟩,
  ⟨[(dec 239661665298448605 13) :: seqA, (dec 838019148390090414 14) :: seqB, (dec 449302378009847706 14) :: seqC], [], 6, 1, []⟩,
  ⟨[(dec 1535889804933239925 14) :: seqA, (dec 559736051615065299 14) :: seqB, (dec 291996161896001121 14) :: seqC], [], 6, 1, []⟩,
  ⟨[(dec 47932333059689721 12) :: seqA, (dec 1676038296780180828 14) :: seqB, (dec 898604756019695412 14) :: seqC], [], 6, 1, []⟩,
  ⟨[(dec 30717796098664792 12) :: seqA, (dec 1119472103230130598 14) :: seqB, (dec 583992323792002242 14) :: seqC], [], 6, 1, []⟩,
  ⟨[(dec 95864666119379442 12) :: seqA, (dec 3352076593560361656 14) :: seqB, (dec 1797209512039390824 14) :: seqC], [], 6, 1, []⟩,
  ⟨[(dec 61435592197329597 12) :: seqA, (dec 2420944206460261196 14) :: seqB, (dec 1297984647584004484 14) :: seqC], [], 6, 1, []⟩]

/-- frame/transformtype.go:138-155 `validateIndex`; modes have three bits. -/
def validIndex (index mode : Nat) : Bool := mode == 0 || mode == 6 || mode == 7 || decide (index ≤ 3) || index == 9 || index == 10

/-- frame/transformtype.go:157-167 `getHorizontalTransformType`. -/
def horizontalType (index : Nat) : Res TransformType :=
  match allDCT.find? (fun tt => tt.parameterIndex == (index : Int) && !tt.isVertical) with
  | some tt => .ok tt
  | none => .err

/-- frame/transformtype.go:104-105: `matrixHeight`. -/
def TransformType.matrixHeight (tt : TransformType) : Nat := (min tt.pixelHeight tt.pixelWidth).toNat

/-- frame/transformtype.go:104-105: `matrixWidth`. -/
def TransformType.matrixWidth (tt : TransformType) : Nat := (max tt.pixelHeight tt.pixelWidth).toNat

/-- frame/HFGlobal.go:315-324 and others: `rows` rows of `n` numbers, times `scale`. -/
def readMatrix (rows n : Nat) (scale : ℚ) : Rd (List (List ℚ)) := readList (do
  let r ← readList readF16 n
  pure (r.map (scale * ·))) rows

/-- frame/HFGlobal.go:420-441 `readDCTParams`. -/
def readDCTParams : Rd (List (List ℚ)) := do
  let n ← readBits 4
  readList (do
    let r ← readList readF16 (n + 1)
    match r with
    | [] => Rd.lift .panic
    | v :: r => pure (v * 64 :: r)) 3

/-- frame/HFGlobal.go:300-418 `setupDCTParam`. `readRaw index h w` is a modular stream of three channels. Simplified: numbers are kept in lists of the length that was read. -/
def setupDCTParam (readRaw : Nat → Nat → Nat → Rd (List (List (List Int)))) (index : Nat) : Rd DCTParam := do
  let mode ← readBits 3
  if !validIndex index mode then Rd.fail
  else if mode = 0 then Rd.lift (idx defaultParams (index : Int))
  else if mode = 1 then do
    let m ← readMatrix 3 3 64
    pure ⟨[], m, 1, 1, []⟩
  else if mode = 2 then do
    let m ← readMatrix 3 6 64
    pure ⟨[], m, 2, 1, []⟩
  else if mode = 3 then do
    let m ← readMatrix 3 2 64
    let d ← readDCTParams
    pure ⟨d, m, 3, 1, []⟩
  else if mode = 6 then do
    let d ← readDCTParams
    pure ⟨d, [], 6, 1, []⟩
  else if mode = 7 then do
    let den ← readF16
    let tt ← Rd.lift (horizontalType index)
    let b ← readRaw index tt.matrixHeight tt.matrixWidth
    pure ⟨[], b.map fun m => m.flatten.map fun (v : Int) => (v : ℚ), 7, den, []⟩
  else if mode = 5 then do
    let m ← readList (do
      let a ← readList readF16 6
      let b ← readList readF16 3
      pure (a.map (64 * ·) ++ b)) 3
    let d ← readDCTParams
    let f ← readDCTParams
    pure ⟨d, m, 5, 1, f⟩
  else Rd.fail

section
variable {α : Type} [Arith α]

/-- Functions and constants of the machine: `int(x)` (truncation), `math.Pow`, `math.Sqrt`, `math.IsInf` and `math.Sqrt2 + 1e-6`. -/
structure QuantFuncs (α : Type) where
  trunc : α → Int
  pow : α → α → α
  sqrt : α → α
  isInf : α → Bool
  diag : α

/-- frame/HFGlobal.go:545-551 `quantMult`. -/
def quantMult (v : α) : α := if Arith.lt v (Arith.lit 0) then Arith.lit 1 / (Arith.lit 1 - v) else Arith.lit 1 + v

/-- frame/HFGlobal.go:568-572, 621-628: the values of the bands after one that is `b`. -/
def bandsFrom (b : α) : List ℚ → List α
  | [] => [b]
  | v :: vs => b :: bandsFrom (b * quantMult (Arith.lit v)) vs

/-- frame/HFGlobal.go:568-572. -/
def bandsOf (params : List ℚ) : Res (List α) :=
  match params with
  | [] => .panic
  | p :: ps => .ok (bandsFrom (Arith.lit p) ps)

/-- frame/HFGlobal.go:588-605 `interpolate`. -/
def interpolate (F : QuantFuncs α) (pos : α) (bands : List α) : Res α :=
  let l := (bands.length : Int) - 1
  if l = 0 then idx bands 0
  else
    let i := F.trunc pos
    if l < i + 1 then idx bands l
    else do
      let a ← idx bands i
      let b ← idx bands (i + 1)
      .ok (a * F.pow (b / a) (pos - Arith.lit (i : Rat)))

/-- The cells `f x`, `f (x + 1)`, … of a row of `n` cells. -/
def tabRow (f : Nat → Res α) : Nat → Nat → Res (List α)
  | 0, _ => .ok []
  | n + 1, x => do
    let v ← f x
    let r ← tabRow f n (x + 1)
    .ok (v :: r)

/-- A matrix whose cells are computed row by row. -/
def tabulate (f : Nat → Nat → Res α) (w : Nat) : Nat → Nat → Res (List (List α))
  | 0, _ => .ok []
  | n + 1, y => do
    let r ← tabRow (f y) w 0
    let m ← tabulate f w n (y + 1)
    .ok (r :: m)

/-- frame/HFGlobal.go:575-582: the distance of a cell from the corner, in bands. -/
def bandPos (F : QuantFuncs α) (n height width y x : Nat) : α :=
  let scale := Arith.lit (((n : Int) - 1 : Int) : Rat) / F.diag
  let dy := Arith.lit (y : Rat) * scale / Arith.lit (((height : Int) - 1 : Int) : Rat)
  let dx := Arith.lit (x : Rat) * scale / Arith.lit (((width : Int) - 1 : Int) : Rat)
  F.sqrt (dx * dx + dy * dy)

/-- frame/HFGlobal.go:566-586 `getDCTQuantWeights`. -/
def dctQuantWeights (F : QuantFuncs α) (height width : Nat) (params : List ℚ) : Res (List (List α)) := do
  let bands ← bandsOf params
  tabulate (fun y x => interpolate F (bandPos F bands.length height width y x) bands) width height 0

/-- Assignments to the cells of a matrix, in order. -/
def assign : List (Nat × Nat × Res α) → List (List α) → Res (List (List α))
  | [], m => .ok m
  | (y, x, v) :: ws, m => do
    let v ← v
    let m ← set2 m (y : Int) (x : Int) v
    assign ws m

/-- A matrix of 8×8 zeros. -/
def zeros8 : List (List α) := List.replicate 8 (List.replicate 8 (Arith.lit 0))

/-- All pairs (`y`, `x`) in the order of two nested loops. -/
def cells (h w : Nat) : List (Nat × Nat) := (List.range h).flatMap fun y => (List.range w).map fun x => (y, x)

/-- `param[c][i]` as a `float32`. -/
def paramAt (params : List ℚ) (i : Nat) : Res α := do
  let v ← idx params (i : Int)
  .ok (Arith.lit v)

/-- `x /= d` for one cell. -/
def divideCell (m : List (List α)) (y x : Nat) (d : Res α) : Res (List (List α)) := do
  let v ← at2 m (y : Int) (x : Int)
  let d ← d
  set2 m (y : Int) (x : Int) (v / d)

/-- frame/HFGlobal.go:455-468: `MODE_DCT4`. -/
def weightsDCT4 (F : QuantFuncs α) (dct param : List ℚ) : Res (List (List α)) := do
  let w ← dctQuantWeights F 4 4 dct
  let m ← assign ((cells 8 8).map fun p => (p.1, p.2, at2 w ((p.1 / 2 : Nat) : Int) ((p.2 / 2 : Nat) : Int))) zeros8
  let m ← divideCell m 1 0 (paramAt param 0)
  let m ← divideCell m 0 1 (paramAt param 0)
  divideCell m 1 1 (paramAt param 1)

/-- frame/HFGlobal.go:469-489: `MODE_DCT2`. -/
def weightsDCT2 (param : List ℚ) : Res (List (List α)) :=
  assign ([(0, 0, .ok (Arith.lit 1)), (0, 1, paramAt param 0), (1, 0, paramAt param 0), (1, 1, paramAt param 1)] ++
    ((cells 2 2).flatMap fun p => [(p.1, p.2 + 2, paramAt param 2), (p.2 + 2, p.1, paramAt param 2), (p.1 + 2, p.2 + 2, paramAt param 3)]) ++
    ((cells 4 4).flatMap fun p => [(p.1, p.2 + 4, paramAt param 4), (p.2 + 4, p.1, paramAt param 4), (p.1 + 4, p.2 + 4, paramAt param 5)])) zeros8

/-- frame/HFGlobal.go:490-501: `MODE_HORNUSS`. -/
def weightsHornuss (param : List ℚ) : Res (List (List α)) :=
  assign (((cells 8 8).map fun p => (p.1, p.2, paramAt param 0)) ++
    [(1, 1, paramAt param 2), (0, 1, paramAt param 1), (1, 0, paramAt param 1), (0, 0, .ok (Arith.lit 1))]) zeros8

/-- frame/HFGlobal.go:502-511: `MODE_DCT4_8`. -/
def weightsDCT48 (F : QuantFuncs α) (dct param : List ℚ) : Res (List (List α)) := do
  let w ← dctQuantWeights F 4 8 dct
  let m ← assign ((cells 8 8).map fun p => (p.1, p.2, at2 w ((p.1 / 2 : Nat) : Int) (p.2 : Int))) zeros8
  divideCell m 1 0 (paramAt param 0)

/-- frame/HFGlobal.go:614-629: the four bands; none may be negative. -/
def afvBands (param : List ℚ) : Res (List α) := do
  let p5 ← paramAt param 5
  if Arith.lt p5 (Arith.lit 0) then .err
  else do
    let p6 ← paramAt param 6
    let b1 : α := p5 * quantMult p6
    if Arith.lt b1 (Arith.lit 0) then .err
    else do
      let p7 ← paramAt param 7
      let b2 : α := b1 * quantMult p7
      if Arith.lt b2 (Arith.lit 0) then .err
      else do
        let p8 ← paramAt param 8
        let b3 : α := b2 * quantMult p8
        if Arith.lt b3 (Arith.lit 0) then .err
        else .ok [p5, b1, b2, b3]

/-- frame/HFGlobal.go:644: the place of a cell between the lowest and the highest frequency. -/
def afvPos (i : Nat) : ℚ := (afvFreqs.getD i 0 - 8517778890324296 / 10 ^ 16) / (1297166202570235 / 10 ^ 14 - 8517778890324296 / 10 ^ 16)

/-- frame/HFGlobal.go:630-656: the assignments to an AFV matrix, from its numbers `q`, the places `I` between its bands and two other matrices. -/
def afvWrites (q : Nat → Res α) (I A B : Nat → Nat → Res α) : List (Nat × Nat × Res α) :=
  [(0, 0, .ok (Arith.lit 1)), (1, 0, q 0), (0, 1, q 1), (2, 0, q 2), (0, 2, q 3), (2, 2, q 4)] ++
    (List.range 4).flatMap fun (y : Nat) =>
      (((List.range 4).filter fun x => !(decide (x < 2) && decide (y < 2))).map fun (x : Nat) => (2 * x, 2 * y, I y x)) ++
      (((List.range 8).filter fun x => !(x == 0 && y == 0)).map fun (x : Nat) => (2 * y + 1, x, A y x)) ++
      (((List.range 4).filter fun x => !(x == 0 && y == 0)).map fun (x : Nat) => (2 * y, 2 * x + 1, B y x))

/-- frame/HFGlobal.go:607-659 `getAFVTransformWeights`. -/
def weightsAFV (F : QuantFuncs α) (dct p44 param : List ℚ) : Res (List (List α)) := do
  let w48 ← dctQuantWeights F 4 8 dct
  let w44 ← dctQuantWeights F 4 4 p44
  let bands ← afvBands param
  assign (afvWrites (paramAt param) (fun y x => interpolate F (Arith.lit (afvPos (y * 4 + x))) bands) (fun y x => at2 w48 (y : Int) (x : Int)) (fun y x => at2 w44 (y : Int) (x : Int))) zeros8

/-- frame/HFGlobal.go:515-522: `MODE_RAW`. -/
def weightsRaw (height width : Nat) (param : List ℚ) (den : ℚ) : Res (List (List α)) :=
  tabulate (fun y x => do
    let v ← paramAt param (y * width + x)
    .ok (v * Arith.lit den)) width height 0

/-- frame/HFGlobal.go:450-526: the matrix of one channel. -/
def channelWeights (F : QuantFuncs α) (tt : TransformType) (p : DCTParam) (c : Nat) : Res (List (List α)) :=
  if p.mode = 6 then do
    let d ← idx p.dct (c : Int)
    dctQuantWeights F tt.matrixHeight tt.matrixWidth d
  else if p.mode = 3 then do
    let d ← idx p.dct (c : Int)
    let q ← idx p.param (c : Int)
    weightsDCT4 F d q
  else if p.mode = 2 then do
    let q ← idx p.param (c : Int)
    weightsDCT2 q
  else if p.mode = 1 then do
    let q ← idx p.param (c : Int)
    weightsHornuss q
  else if p.mode = 4 then do
    let d ← idx p.dct (c : Int)
    let q ← idx p.param (c : Int)
    weightsDCT48 F d q
  else if p.mode = 5 then do
    let d ← idx p.dct (c : Int)
    let f ← idx p.p44 (c : Int)
    let q ← idx p.param (c : Int)
    weightsAFV F d f q
  else if p.mode = 7 then do
    let q ← idx p.param (c : Int)
    weightsRaw tt.matrixHeight tt.matrixWidth q p.den
  else .err

/-- frame/HFGlobal.go:528-540: the weights are checked and inverted. -/
def invertWeights (F : QuantFuncs α) (height width : Nat) (m : List (List α)) : Res (List (List α)) :=
  tabulate (fun y x => do
    let v ← at2 m (y : Int) (x : Int)
    if Arith.lt v (Arith.lit 0) || F.isInf v then .err else .ok (Arith.lit 1 / v)) width height 0

/-- frame/HFGlobal.go:443-543 `generateWeights`. -/
def generateWeights (F : QuantFuncs α) (p : DCTParam) (index : Nat) : Res (List (List (List α))) := do
  let tt ← horizontalType index
  let a ← channelWeights F tt p 0
  let b ← channelWeights F tt p 1
  let c ← channelWeights F tt p 2
  if p.mode = 7 then .ok [a, b, c]
  else do
    let a ← invertWeights F tt.matrixHeight tt.matrixWidth a
    let b ← invertWeights F tt.matrixHeight tt.matrixWidth b
    let c ← invertWeights F tt.matrixHeight tt.matrixWidth c
    .ok [a, b, c]

/-- frame/HFGlobal.go:230-235: parameters of the matrices from `index` on. -/
def readParams (readRaw : Nat → Nat → Nat → Rd (List (List (List Int)))) : Nat → Nat → Rd (List DCTParam)
  | 0, _ => pure []
  | n + 1, index => do
    let p ← setupDCTParam readRaw index
    let ps ← readParams readRaw n (index + 1)
    pure (p :: ps)

/-- frame/HFGlobal.go:238-243: all matrices. -/
def allWeights (F : QuantFuncs α) : List DCTParam → Nat → Res (List (List (List (List α))))
  | [], _ => .ok []
  | p :: ps, index => do
    let w ← generateWeights F p index
    let ws ← allWeights F ps (index + 1)
    .ok (w :: ws)

/-- frame/HFGlobal.go:221-253 `NewHFGlobalWithReader`: the matrices and the number of presets. -/
def readHFGlobal (F : QuantFuncs α) (readRaw : Nat → Nat → Nat → Rd (List (List (List Int)))) (numGroups : Nat) : Rd (List (List (List (List α))) × Nat) := do
  let allDefault ← readBool
  let params ← readIf (!allDefault) (readParams readRaw 17 0) defaultParams
  let weights ← Rd.lift (allWeights F params 0)
  let presets ← readBits (ceilLog1p (numGroups - 1))
  pure (weights, 1 + presets)

end

end Jxl
