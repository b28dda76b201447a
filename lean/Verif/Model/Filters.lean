import Verif.Model.Arith
import Verif.Model.Util
import Verif.Model.Modular
import Verif.Model.Workers

/-!
# Filters that share their rows between goroutines (frame/Frame.go)

`performGabConvolution`, `performEdgePreservingFilter` and `performUpsampling` hand ranges of rows to goroutines. A goroutine is a list of steps, each of which
computes and writes one sample (upsampling also has steps that allocate a row); the steps of all of them happen in any order that keeps the order of each.
The planes that are read are never written meanwhile.
-/
namespace Jxl

/-! ## Ranges of rows -/

/-- frame/Frame.go:1054-1070 and 1371-1387: the loop over the goroutines from number `w` on, `n` more of them. -/
def spansLoop (height rows : Int) : Nat → Int → List (Int × Int)
  | 0, _ => []
  | n + 1, w =>
    let startY := i32 (i32 w * rows)
    let endY := i32 (startY + rows)
    let endY := if height < endY then height else endY
    if height ≤ startY then [] else (startY, endY) :: spansLoop height rows n (w + 1)

/-- frame/Frame.go:1048-1070 and 1365-1387: the ranges of rows of the goroutines. Integers are `int32` where the code has them so; a division by zero is a
panic. -/
def spans (height maxGoroutines : Int) : Res (List (Int × Int)) :=
  let numWorkers := if maxGoroutines < 1 then 1 else maxGoroutines
  if i32 numWorkers = 0 then .panic else
    .ok (spansLoop height (i32 (Int.tdiv (i32 (i32 (height + i32 numWorkers) - 1)) (i32 numWorkers))) numWorkers.toNat 0)

/-- frame/Frame.go:1504-1514: the same loop of upsampling, with `int` for `int32`. -/
def upSpansLoop (rows perWorker : Int) : Nat → Int → List (Int × Int)
  | 0, _ => []
  | n + 1, i =>
    let start := i * perWorker
    let stop := start + perWorker
    if rows ≤ start then [] else (start, if rows < stop then rows else stop) :: upSpansLoop rows perWorker n (i + 1)

/-- frame/Frame.go:1496-1514: the ranges of rows of upsampling; numbers stay far below 2^63. -/
def upSpans (rows : Int) (options : Option Int) : List (Int × Int) :=
  let n := goroutines options
  upSpansLoop rows (Int.tdiv (rows + n - 1) n) n 0

/-- The places of the rows from `a` up to `b`, row by row. -/
def rowCells (width : Int) (a b : Int) : List (Int × Int) :=
  (List.range (b - a).toNat).flatMap fun (i : Nat) => (List.range width.toNat).map fun (x : Nat) => (a + (i : Int), (x : Int))

/-! ## Any order of steps -/

/-- An order of the steps of several goroutines: at any time one of them does its next step. -/
inductive Interleaving {ε : Type} : List (List ε) → List ε → Prop where
  | done {ls : List (List ε)} : (∀ l ∈ ls, l = []) → Interleaving ls []
  | step {ls : List (List ε)} {es : List ε} (i : Nat) (e : ε) (rest : List ε) : ls[i]? = some (e :: rest) → Interleaving (ls.set i rest) es →
      Interleaving ls (e :: es)

/-- Steps one after the other. -/
def runSteps {ε σ : Type} (act : ε → σ → Res σ) : List ε → σ → Res σ
  | [], s => .ok s
  | e :: es, s => do
    let s ← act e s
    runSteps act es s

/-! ## Gaborish -/

/-- frame/Frame.go:979-987: the weights of the centre, the sides and the corners. -/
def gabWeights {α : Type} [Arith α] (w1 w2 : α) : α × α × α :=
  let mult := Arith.lit 1 / (Arith.lit 1 + Arith.lit 4 * (w1 + w2))
  (mult, w1 * mult, w2 * mult)

/-- frame/Frame.go:1011-1043: the new sample at a place. -/
def gabPixel {α : Type} [Arith α] (w : α × α × α) (height width : Int) (buf : List (List α)) (y x : Int) : Res α := do
  let north := if y = 0 then 0 else y - 1
  let south := if y + 1 = height then height - 1 else y + 1
  let buffR ← idx buf y
  let buffN ← idx buf north
  let buffS ← idx buf south
  let west := if x = 0 then 0 else x - 1
  let east := if x + 1 = width then width - 1 else x + 1
  let rw ← idx buffR west
  let re ← idx buffR east
  let n ← idx buffN x
  let s ← idx buffS x
  let nw ← idx buffN west
  let ne ← idx buffN east
  let sw ← idx buffS west
  let se ← idx buffS east
  let c ← idx buffR x
  let adj := rw + re + n + s
  let diag := nw + ne + sw + se
  .ok (w.1 * c + w.2.1 * adj + w.2.2 * diag)

/-- frame/Frame.go:1042: a step of a goroutine. -/
def gabStep {α : Type} [Arith α] (w : α × α × α) (height width : Int) (buf : List (List α)) (p : Int × Int) (out : List (List α)) :
    Res (List (List α)) := do
  let v ← gabPixel w height width buf p.1 p.2
  set2 out p.1 p.2 v

/-- frame/Frame.go:1048-1072: the goroutines for one plane. -/
def gabWorkers (height width maxGoroutines : Int) : Res (List (List (Int × Int))) := do
  let ss ← spans height maxGoroutines
  .ok (ss.map fun s => rowCells width s.1 s.2)

/-! ## The edge-preserving filter -/

/-- frame/Frame.go:1400-1405 `mirrorCoord`. A loop that does not end counts as a panic. -/
def mirrorCoord (coord size : Int) : Res Int :=
  if 0 ≤ coord ∧ coord < size then .ok coord else
    match mirrorCoordinate coord size with
    | some c => .ok c
    | none => .panic

/-- frame/Frame.go:25-29 `epfCross`, as pairs of a row and a column. -/
def epfCross : List (Int × Int) := [(0, 0), (0, -1), (0, 1), (-1, 0), (1, 0)]

/-- frame/Frame.go:31-35 `epfDoubleCross`, as pairs of a row and a column. -/
def epfDoubleCross : List (Int × Int) :=
  [(0, 0), (-1, 0), (1, 0), (0, -1), (0, 1), (1, -1), (1, 1), (-1, 1), (-1, -1), (-2, 0), (2, 0), (0, 2), (0, -2)]

/-- What the filter takes from the frame: the scales of the channels, the factor for the borders of blocks, the table of inverse sigmas, and the sizes. -/
structure EPF (α : Type) where
  height : Int
  width : Int
  scales : List α
  borderSadMul : α
  inverseSigma : List (List α)

/-- frame/Frame.go:1199-1230: the differences between the crosses around two places of a channel, added to `dist`; `scale` is that of the channel. -/
def epfCrossDist {α : Type} [Arith α] (p : EPF α) (buf : List (List α)) (scale : α) (y x cy cx : Int) : List (Int × Int) → α → Res α
  | [], dist => .ok dist
  | (oy, ox) :: os, dist => do
    let py ← mirrorCoord (y + oy) p.height
    let px ← mirrorCoord (x + ox) p.width
    let dy ← mirrorCoord (y + cy + oy) p.height
    let dx ← mirrorCoord (x + cx + ox) p.width
    let a ← at2 buf py px
    let b ← at2 buf dy dx
    epfCrossDist p buf scale y x cy cx os (dist + Arith.abs (a - b) * scale)

/-- frame/Frame.go:1193-1231 and 1293-1327: the distance of two crosses, over the channels. -/
def epfDistance1 {α : Type} [Arith α] (p : EPF α) (y x cy cx : Int) : List (List (List α)) → List α → α → Res α
  | [], _, dist => .ok dist
  | _ :: _, [], _ => .panic
  | buf :: bufs, scale :: scales, dist => do
    let dist ← epfCrossDist p buf scale y x cy cx epfCross dist
    epfDistance1 p y x cy cx bufs scales dist

/-- frame/Frame.go:1256-1262: the distance of two places, over the channels. -/
def epfDistance2 {α : Type} [Arith α] (p : EPF α) (y x cy cx : Int) : List (List (List α)) → List α → α → Res α
  | [], _, dist => .ok dist
  | _ :: _, [], _ => .panic
  | buf :: bufs, scale :: scales, dist => do
    let dy ← mirrorCoord (y + cy) p.height
    let dx ← mirrorCoord (x + cx) p.width
    let a ← at2 buf y x
    let b ← at2 buf dy dx
    epfDistance2 p y x cy cx bufs scales (dist + Arith.abs (a - b) * scale)

/-- frame/Frame.go:1187-1342: the distance that the pass uses. -/
def epfDistanceOf {α : Type} [Arith α] (p : EPF α) (pass : Nat) (bufs : List (List (List α))) (y x cy cx : Int) : Res α :=
  if pass = 2 then epfDistance2 p y x cy cx bufs p.scales (Arith.lit 0) else epfDistance1 p y x cy cx bufs p.scales (Arith.lit 0)

/-- frame/Frame.go:1163-1165: the samples at a place. -/
def epfCopy {α : Type} (y x : Int) : List (List (List α)) → Res (List α)
  | [] => .ok []
  | buf :: bufs => do
    let v ← at2 buf y x
    let rest ← epfCopy y x bufs
    .ok (v :: rest)

/-- frame/Frame.go:1233-1240: the weight for a distance. -/
def epfWeight {α : Type} [Arith α] (p : EPF α) (isBorder : Bool) (sigmaScaleS dist : α) : α :=
  let dist := if isBorder then dist * p.borderSadMul else dist
  let weight := Arith.lit 1 - dist * sigmaScaleS
  if Arith.lt weight (Arith.lit 0) then Arith.lit 0 else weight

/-- frame/Frame.go:1244-1248: the samples of the channels at a place, times a weight, added to the sums. -/
def epfAdd {α : Type} [Arith α] (my mx : Int) (weight : α) : List (List (List α)) → List α → Res (List α)
  | [], _ => .ok []
  | _ :: _, [] => .panic
  | buf :: bufs, s :: sums => do
    let v ← at2 buf my mx
    let rest ← epfAdd my mx weight bufs sums
    .ok ((s + v * weight) :: rest)

/-- frame/Frame.go:1187-1342: the sums over the neighbours. `pass` is the number of the pass. -/
def epfSums {α : Type} [Arith α] (p : EPF α) (pass : Nat) (bufs : List (List (List α))) (isBorder : Bool) (sigmaScaleS : α) (y x : Int) :
    List (Int × Int) → α → List α → Res (α × List α)
  | [], sumWeights, sums => .ok (sumWeights, sums)
  | (cy, cx) :: cs, sumWeights, sums => do
    let dist ← epfDistanceOf p pass bufs y x cy cx
    let weight := epfWeight p isBorder sigmaScaleS dist
    let my ← mirrorCoord (y + cy) p.height
    let mx ← mirrorCoord (x + cx) p.width
    let sums ← epfAdd my mx weight bufs sums
    epfSums p pass bufs isBorder sigmaScaleS y x cs (sumWeights + weight) sums

/-- frame/Frame.go:1161-1350: the new samples of all channels at a place. -/
def epfPixel {α : Type} [Arith α] (p : EPF α) (pass : Nat) (sigmaScale : α) (bufs : List (List (List α))) (y x : Int) : Res (List α) := do
  let s ← at2 p.inverseSigma (y / 8) (x / 8)
  if Arith.lt (Arith.lit (1 / (3 / 10))) s then
    epfCopy y x bufs
  else
    let isBorder := decide (y % 8 = 0 ∨ y % 8 = 7 ∨ x % 8 = 0 ∨ x % 8 = 7)
    let (sumWeights, sums) ← epfSums p pass bufs isBorder (sigmaScale * s) y x (if pass = 0 then epfDoubleCross else epfCross) (Arith.lit 0)
      (bufs.map fun _ => Arith.lit 0)
    let invSumWeights := Arith.lit 1 / sumWeights
    .ok (sums.map fun v => v * invSumWeights)

/-- frame/Frame.go:1345-1348 and 1163-1165: a step of a goroutine, the sample of channel `e.2` at the place `e.1`. -/
def epfStep {α : Type} [Arith α] (p : EPF α) (pass : Nat) (sigmaScale : α) (bufs : List (List (List α))) (e : (Int × Int) × Nat)
    (out : List (List (List α))) : Res (List (List (List α))) := do
  let vs ← epfPixel p pass sigmaScale bufs e.1.1 e.1.2
  let v ← idx vs e.2
  let plane ← idx out e.2
  let plane ← set2 plane e.1.1 e.1.2 v
  setAt out e.2 plane

/-- frame/Frame.go:1365-1389: the goroutines of a pass. -/
def epfWorkers (height width : Int) (colours : Nat) (maxGoroutines : Int) : Res (List (List ((Int × Int) × Nat))) := do
  let ss ← spans height maxGoroutines
  .ok (ss.map fun s => (rowCells width s.1 s.2).flatMap fun c => (List.range colours).map fun (k : Nat) => (c, k))

/-- frame/Frame.go:1129-1135: the passes that are done. -/
def epfPasses (iterations : Nat) : List Nat := (if iterations < 3 then [] else [0]) ++ [1] ++ (if iterations < 2 then [] else [2])

/-- frame/Frame.go:1129-1395: the passes, one after the other; `wg.Wait` ends each. A pass is its number, the planes made for it and the order of the steps of its
goroutines; `sg` is the scale of the sigmas by pass. -/
def epfRun {α : Type} [Arith α] (p : EPF α) (sg : Nat → α) : List (Nat × List (List (List α)) × List ((Int × Int) × Nat)) → List (List (List α)) →
    Res (List (List (List α)))
  | [], bufs => .ok bufs
  | (pass, out, order) :: rest, bufs => do
    let bufs ← runSteps (epfStep p pass (sg pass) bufs) order out
    epfRun p sg rest bufs

/-! ## Upsampling -/

/-- The largest `float32`, math.MaxFloat32. -/
def maxFloat32 : Rat := (2 ^ 24 - 1) * 2 ^ 104
/-- The smallest positive `float32`, math.SmallestNonzeroFloat32. -/
def smallestFloat32 : Rat := 1 / 2 ^ 149

/-- frame/Frame.go:1527-1541: the 25 places around a place, with the least and the largest sample and the weighted sum so far. -/
def upSums {α : Type} [Arith α] (buf : List (List α)) (weights : List (List α)) (y x : Int) : List (Nat × Nat) → α × α × α → Res (α × α × α)
  | [], r => .ok r
  | (iy, ix) :: ps, (mn, mx, total) => do
    let newY ← mirrorCoord (y + iy - 2) buf.length
    let row ← idx buf newY
    let newX ← mirrorCoord (x + ix - 2) row.length
    let sample ← idx row newX
    let mn := if Arith.lt sample mn then sample else mn
    let mx := if Arith.lt mx sample then sample else mx
    let w ← at2 weights iy ix
    upSums buf weights y x ps (mn, mx, total + w * sample)

/-- frame/Frame.go:1527-1528: the order of the places. -/
def upPlaces : List (Nat × Nat) := (List.range 5).flatMap fun (iy : Nat) => (List.range 5).map fun (ix : Nat) => (iy, ix)

/-- frame/Frame.go:1520-1551: the sample at the place `ky`, `kx` of the square that replaces the sample at `y`, `x`. -/
def upPixel {α : Type} [Arith α] (buf : List (List α)) (upWeights : List (List (List (List α)))) (y x : Int) (ky kx : Nat) : Res α := do
  let weights ← at2 upWeights ky kx
  let (mn, mx, total) ← upSums buf weights y x upPlaces (Arith.lit maxFloat32, Arith.lit smallestFloat32, Arith.lit 0)
  .ok (if Arith.lt total mn then mn else if Arith.lt mx total then mx else total)

/-- A step of upsampling: a row is allocated, or a sample is written. -/
inductive UpStep where
  | row (y : Int) (ky : Nat)
  | cell (y x : Int) (ky kx : Nat)
  deriving DecidableEq

/-- frame/Frame.go:1519 and 1552: a step of a goroutine. -/
def upStep {α : Type} [Arith α] (buf : List (List α)) (upWeights : List (List (List (List α)))) (k : Nat) : UpStep → List (List α) → Res (List (List α))
  | .row y ky, out => do
    let r ← idx buf y
    setAt out (y * k + ky) (List.replicate (r.length * k) (Arith.lit 0))
  | .cell y x ky kx, out => do
    let v ← upPixel buf upWeights y x ky kx
    set2 out (y * k + ky) (x * k + kx) v

/-- frame/Frame.go:1516-1557: the steps for the rows from `a` up to `b`. Their rows have `width` samples. -/
def upCells (width : Nat) (k : Nat) (a b : Int) : List UpStep :=
  (List.range (b - a).toNat).flatMap fun (i : Nat) => (List.range k).flatMap fun (ky : Nat) =>
    .row (a + (i : Int)) ky :: (List.range width).flatMap fun (x : Nat) => (List.range k).map fun (kx : Nat) => .cell (a + (i : Int)) (x : Int) ky kx

/-- frame/Frame.go:1503-1559: the goroutines. -/
def upWorkers (rows width k : Nat) (options : Option Int) : List (List UpStep) :=
  (upSpans rows options).map fun s => upCells width k s.1 s.2

end Jxl
