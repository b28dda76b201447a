import Verif.Model.MATree
import Verif.Model.Util

/-!
# Modular channels (frame/ModularChannel.go, frame/WPParams.go)

Sample values are `int32`; sums and products wrap, and because wrapping is compatible with addition and
multiplication it is applied once to each expression. Widths and heights are below 2^31, so the conversions between
`uint32` and `int32` of coordinates do nothing.
-/
namespace Jxl

/-- `>>` on a signed value. -/
def sar (x : Int) (k : Nat) : Int := x / 2 ^ k

/-- The two-dimensional access `b[y][x]`. -/
def at2 {α : Type} (b : List (List α)) (y x : Int) : Res α := do
  let r ← idx b y
  idx r x

/-- The assignment `b[y][x] = v`. -/
def set2 {α : Type} (b : List (List α)) (y x : Int) (v : α) : Res (List (List α)) := do
  let r ← idx b y
  let r' ← setAt r x v
  setAt b y r'

/-- util/MathsHelper.go:117-133 `Clamp3` on integers. -/
def clamp3Int (v a b : Int) : Int := (clamp3 (BitVec.ofInt 32 v) (BitVec.ofInt 32 a) (BitVec.ofInt 32 b)).toInt
/-- util/MathsHelper.go:157-183 `Clamp` on integers. -/
def clamp4Int (v a b c : Int) : Int :=
  (clamp4 (BitVec.ofInt 32 v) (BitVec.ofInt 32 a) (BitVec.ofInt 32 b) (BitVec.ofInt 32 c)).toInt

/-- frame/ModularChannel.go:204-212 `west`. -/
def west (b : List (List Int)) (x y : Int) : Res Int :=
  if 0 < x then at2 b y (x - 1) else if 0 < y then at2 b (y - 1) x else .ok 0
/-- frame/ModularChannel.go:214-222 `north`. -/
def north (b : List (List Int)) (x y : Int) : Res Int :=
  if 0 < y then at2 b (y - 1) x else if 0 < x then at2 b y (x - 1) else .ok 0
/-- frame/ModularChannel.go:224-238 `northWest`. -/
def northWest (b : List (List Int)) (x y : Int) : Res Int :=
  if x ≤ 0 then (if 0 < y then at2 b (y - 1) x else .ok 0)
  else if 0 < y then at2 b (y - 1) (x - 1) else at2 b y (x - 1)
/-- frame/ModularChannel.go:240-245 `northEast`. -/
def northEast (w : Int) (b : List (List Int)) (x y : Int) : Res Int :=
  if 0 < y ∧ x + 1 < w then at2 b (y - 1) (x + 1) else north b x y
/-- frame/ModularChannel.go:247-252 `northNorth`. -/
def northNorth (b : List (List Int)) (x y : Int) : Res Int :=
  if 1 < y then at2 b (y - 2) x else north b x y
/-- frame/ModularChannel.go:254-259 `northEastEast`. -/
def northEastEast (w : Int) (b : List (List Int)) (x y : Int) : Res Int :=
  if x + 2 < w ∧ 0 < y then at2 b (y - 1) (x + 2) else northEast w b x y
/-- frame/ModularChannel.go:261-266 `westWest`. -/
def westWest (b : List (List Int)) (x y : Int) : Res Int :=
  if 1 < x then at2 b y (x - 2) else west b x y

/-- frame/ModularChannel.go:89-133 `prediction`. `pred` is the plane of weighted predictions (empty when it was not
allocated). -/
def prediction (w : Int) (b pred : List (List Int)) (y x k : Int) : Res Int :=
  if k = 0 then .ok 0
  else if k = 1 then west b x y
  else if k = 2 then north b x y
  else if k = 3 then do
    let a ← west b x y; let n ← north b x y; .ok ((i32 (a + n)).tdiv 2)
  else if k = 4 then do
    let a ← west b x y; let n ← north b x y; let nw ← northWest b x y
    if abs32 (i32 (n - nw)) < abs32 (i32 (a - nw)) then .ok a else .ok n
  else if k = 5 then do
    let a ← west b x y; let n ← north b x y; let nw ← northWest b x y
    .ok (clamp3Int (i32 (a + n - nw)) n a)
  else if k = 6 then do
    let p ← at2 pred y x; .ok (sar (i32 (p + 3)) 3)
  else if k = 7 then northEast w b x y
  else if k = 8 then northWest b x y
  else if k = 9 then westWest b x y
  else if k = 10 then do
    let a ← west b x y; let nw ← northWest b x y; .ok ((i32 (a + nw)).tdiv 2)
  else if k = 11 then do
    let n ← north b x y; let nw ← northWest b x y; .ok ((i32 (n + nw)).tdiv 2)
  else if k = 12 then do
    let n ← north b x y; let ne ← northEast w b x y; .ok ((i32 (n + ne)).tdiv 2)
  else if k = 13 then do
    let n ← north b x y; let nn ← northNorth b x y; let a ← west b x y
    let ww ← westWest b x y; let nee ← northEastEast w b x y; let ne ← northEast w b x y
    .ok ((i32 (6 * n - 2 * nn + 7 * a + ww + nee + 3 * ne + 8)).tdiv 16)
  else .err

/-- frame/WPParams.go:5-14 `WPParams`. -/
structure WPParams where
  param1 : Int
  param2 : Int
  param3a : Int
  param3b : Int
  param3c : Int
  param3d : Int
  param3e : Int
  weight : List Int
  deriving Repr, DecidableEq

/-- frame/WPParams.go:16-101 `NewWPParams`. -/
def readWPParams : Rd WPParams := do
  let d ← readBool
  if d then Pure.pure ⟨16, 10, 7, 7, 7, 0, 0, [13, 12, 12, 12]⟩
  else do
    let p1 ← readBits 5
    let p2 ← readBits 5
    let a ← readBits 5
    let b ← readBits 5
    let c ← readBits 5
    let d ← readBits 5
    let e ← readBits 5
    let w0 ← readBits 4
    let w1 ← readBits 4
    let w2 ← readBits 4
    let w3 ← readBits 4
    Pure.pure ⟨p1, p2, a, b, c, d, e, [(w0 : Int), w1, w2, w3]⟩

/-- frame/ModularChannel.go:45-49: the reciprocal table `oneL24OverKP1`. -/
def oneL24OverKP1 : List Int := (List.range 64).map (fun i => ((16777216 / (i + 1) : Nat) : Int))

/-- The planes of the weighted predictor: four error planes and the plane of true errors (`err`), and the weighted
predictions (`pred`); empty when not allocated. -/
structure WPPlanes where
  err : List (List (List Int))
  pred : List (List Int)
  deriving Repr, DecidableEq

/-- `mc.err[e][y][x]`. -/
def WPPlanes.at (p : WPPlanes) (e : Nat) (y x : Int) : Res Int := do
  let pl ← idx p.err (e : Int)
  at2 pl y x

/-- frame/ModularChannel.go:268-274 `errorNorth`. -/
def errN (p : WPPlanes) (x y : Int) (e : Nat) : Res Int := if y ≤ 0 then .ok 0 else p.at e (y - 1) x
/-- frame/ModularChannel.go:276-281 `errorWest`. -/
def errW (p : WPPlanes) (x y : Int) (e : Nat) : Res Int := if x ≤ 0 then .ok 0 else p.at e y (x - 1)
/-- frame/ModularChannel.go:283-290 `errorWestWest`. -/
def errWW (p : WPPlanes) (x y : Int) (e : Nat) : Res Int := if x ≤ 1 then .ok 0 else p.at e y (x - 2)
/-- frame/ModularChannel.go:292-297 `errorNorthWest`. -/
def errNW (p : WPPlanes) (x y : Int) (e : Nat) : Res Int := if 0 < x ∧ 0 < y then p.at e (y - 1) (x - 1) else errN p x y e
/-- frame/ModularChannel.go:299-306 `errorNorthEast`. -/
def errNE (w : Int) (p : WPPlanes) (x y : Int) (e : Nat) : Res Int := if x + 1 < w ∧ 0 < y then p.at e (y - 1) (x + 1) else errN p x y e

/-- frame/ModularChannel.go:157-160: the sum of errors `eSum` for sub-predictor `e`. -/
def errorSum (w : Int) (p : WPPlanes) (x y : Int) (e : Nat) : Res Int := do
  let n ← errN p x y e
  let a ← errW p x y e
  let nw ← errNW p x y e
  let ww ← errWW p x y e
  let ne ← errNE w p x y e
  .ok (if x + 1 = w then i32 (n + a + nw + ww + ne + a) else i32 (n + a + nw + ww + ne))

/-- frame/ModularChannel.go:161-164: the shift of the error sum. The conversion to `uint64` extends the sign. -/
def weightShift (eSum : Int) : Nat := floorLog1p 64 (eSum % 18446744073709551616).toNat - 5

/-- frame/ModularChannel.go:161-165: the weight of a sub-predictor with maximal weight `mw`. -/
def errorWeight (mw eSum : Int) : Res Int := do
  let t ← idx oneL24OverKP1 (sar eSum (weightShift eSum))
  .ok (i32 (4 + sar (mw * t) (weightShift eSum)))

/-- frame/ModularChannel.go:156-167: all four weights. -/
def errorWeights (w : Int) (p : WPPlanes) (x y : Int) : Nat → List Int → Res (List Int)
  | _, [] => .ok []
  | e, mw :: mws => do
    let s ← errorSum w p x y e
    let r ← errorWeight mw s
    let rest ← errorWeights w p x y (e + 1) mws
    .ok (r :: rest)

/-- frame/ModularChannel.go:146-153: the four sub-predictions. -/
def subPredictions (wp : WPParams) (n3 nw3 ne3 w3 nn3 tN tW tNE tNW : Int) : List Int :=
  [i32 (w3 + ne3 - n3),
   i32 (n3 - sar (i32 ((tW + tN + tNE) * wp.param1)) 5),
   i32 (w3 - sar (i32 ((tW + tN + tNW) * wp.param2)) 5),
   i32 (n3 - sar (i32 (tNW * wp.param3a + tN * wp.param3b + tNE * wp.param3c + (nn3 - n3) * wp.param3d + (nw3 - w3) * wp.param3e)) 5)]

/-- Sum of the products of two lists. -/
def dotProd : List Int → List Int → Int
  | a :: as, b :: bs => a * b + dotProd as bs
  | _, _ => 0

/-- frame/ModularChannel.go:168-180: the weighted average of the sub-predictions, before clamping. A negative shift count
panics. -/
def weightedAverage (sub weights : List Int) : Res Int :=
  let wSum := i32 weights.sum
  let logWeight : Int := floorLog1p 64 ((wSum - 1) % 18446744073709551616).toNat - 4
  if logWeight < 0 then .panic
  else do
    let weights' := weights.map (sar · logWeight.toNat)
    let wSum' := i32 weights'.sum
    let s := i32 (dotProd sub weights' + (sar wSum' 1 - 1))
    let t ← idx oneL24OverKP1 (wSum' - 1)
    .ok (i32 (sar (s * t) 24))

/-- frame/ModularChannel.go:181: `(tN^tW)|(tN^tNW) <= 0`. -/
def errorSignsDiffer (tN tW tNW : Int) : Bool :=
  decide (((BitVec.ofInt 32 tN ^^^ BitVec.ofInt 32 tW) ||| (BitVec.ofInt 32 tN ^^^ BitVec.ofInt 32 tNW)).toInt ≤ 0)

/-- frame/ModularChannel.go:186-198: the error of largest magnitude, the first one in the order W, N, NW, NE. -/
def maxErrorOf (tW tN tNW tNE : Int) : Int :=
  let m := tW
  let m := if abs32 m < abs32 tN then tN else m
  let m := if abs32 m < abs32 tNW then tNW else m
  if abs32 m < abs32 tNE then tNE else m

/-- What `prePredictWP` computes at a sample. -/
structure WPResult where
  sub : List Int
  pred : Int
  maxError : Int
  deriving Repr, DecidableEq

/-- frame/ModularChannel.go:135-201 `prePredictWP`. -/
def prePredictWP (w : Int) (wp : WPParams) (b : List (List Int)) (p : WPPlanes) (x y : Int) : Res WPResult := do
  let n ← north b x y
  let nw ← northWest b x y
  let ne ← northEast w b x y
  let a ← west b x y
  let nn ← northNorth b x y
  let tN ← errN p x y 4
  let tW ← errW p x y 4
  let tNE ← errNE w p x y 4
  let tNW ← errNW p x y 4
  let n3 := i32 (n * 8)
  let nw3 := i32 (nw * 8)
  let ne3 := i32 (ne * 8)
  let w3 := i32 (a * 8)
  let nn3 := i32 (nn * 8)
  let sub := subPredictions wp n3 nw3 ne3 w3 nn3 tN tW tNE tNW
  let weights ← errorWeights w p x y 0 wp.weight
  let avg ← weightedAverage sub weights
  let pred := if errorSignsDiffer tN tW tNW then clamp4Int avg w3 n3 ne3 else avg
  .ok ⟨sub, pred, maxErrorOf tW tN tNW tNE⟩

/-- What the property callback needs to know about a channel. -/
structure Chan where
  width : Nat
  height : Nat
  hshift : Int
  vshift : Int
  forceWP : Bool
  buffer : List (List Int)
  deriving Repr, DecidableEq

/-- frame/ModularChannel.go:375-379. -/
def refWest (b : List (List Int)) (x y : Int) : Res Int := if 0 < x then at2 b y (x - 1) else .ok 0
/-- frame/ModularChannel.go:381-385. -/
def refNorth (b : List (List Int)) (rW x y : Int) : Res Int := if 0 < y then at2 b (y - 1) x else .ok rW
/-- frame/ModularChannel.go:386-390. -/
def refNorthWest (b : List (List Int)) (rW x y : Int) : Res Int := if 0 < x ∧ 0 < y then at2 b (y - 1) (x - 1) else .ok rW

/-- frame/ModularChannel.go:375-391: the gradient residual of a sample of an earlier channel. -/
def refGradient (b : List (List Int)) (rC x y : Int) : Res Int := do
  let rW ← refWest b x y
  let rN ← refNorth b rW x y
  let rNW ← refNorthWest b rW x y
  .ok (i32 (rC - clamp3Int (i32 (rW + rN - rNW)) rN rW))

/-- frame/ModularChannel.go:351-402: the loop over the earlier channels, nearest first. -/
def refProperty (c : Chan) (x y k : Int) : Int → List Chan → Res Int
  | _, [] => .ok 0
  | k2, ch :: chs =>
    if ch.width ≠ c.width ∨ ch.height ≠ c.height ∨ ch.hshift ≠ c.hshift ∨ ch.vshift ≠ c.vshift then refProperty c x y k k2 chs
    else if k2 + 4 ≤ k then refProperty c x y k (k2 + 4) chs
    else do
      let rC ← at2 ch.buffer y x
      if k2 = k then .ok (abs32 rC)
      else if k2 + 1 = k then .ok rC
      else do
        let rG ← refGradient ch.buffer rC x y
        if k2 + 2 = k then .ok (abs32 rG)
        else if k2 + 3 = k then .ok rG
        else refProperty c x y k (k2 + 4) chs

/-- frame/ModularChannel.go:308-405 `getWalkerFunc`. `prev` are the channels before this one, nearest first. -/
def propValue (c : Chan) (prev : List Chan) (channelIndex streamIndex x y maxError : Int) (k : Int) : Res Int :=
  let b := c.buffer
  let w : Int := c.width
  if k = 0 then .ok channelIndex
  else if k = 1 then .ok streamIndex
  else if k = 2 then .ok y
  else if k = 3 then .ok x
  else if k = 4 then do let n ← north b x y; .ok (abs32 n)
  else if k = 5 then do let a ← west b x y; .ok (abs32 a)
  else if k = 6 then north b x y
  else if k = 7 then west b x y
  else if k = 8 then do
    let a ← west b x y
    if 0 < x then do
      let a' ← west b (x - 1) y; let n' ← north b (x - 1) y; let nw' ← northWest b (x - 1) y
      .ok (i32 (a - (a' + n' - nw')))
    else .ok a
  else if k = 9 then do
    let a ← west b x y; let n ← north b x y; let nw ← northWest b x y; .ok (i32 (a + n - nw))
  else if k = 10 then do let a ← west b x y; let nw ← northWest b x y; .ok (i32 (a - nw))
  else if k = 11 then do let nw ← northWest b x y; let n ← north b x y; .ok (i32 (nw - n))
  else if k = 12 then do let n ← north b x y; let ne ← northEast w b x y; .ok (i32 (n - ne))
  else if k = 13 then do let n ← north b x y; let nn ← northNorth b x y; .ok (i32 (n - nn))
  else if k = 14 then do let a ← west b x y; let ww ← westWest b x y; .ok (i32 (a - ww))
  else if k = 15 then .ok maxError
  else if 4 * channelIndex ≤ k - 16 then .ok 0
  else refProperty c x y k 16 prev

/-- The parts of `decode` that stay fixed while a channel is decoded. -/
structure ChanEnv where
  chan : Chan
  prev : List Chan
  channelIndex : Int
  streamIndex : Int
  distMultiplier : Int
  wp : WPParams
  useWP : Bool

/-- What changes: the samples, the planes of the weighted predictor, the entropy decoder. -/
structure ChanState where
  buffer : List (List Int)
  planes : WPPlanes
  es : ES

/-- frame/ModularChannel.go:77-87: allocation; a channel that is empty in one direction has no rows. -/
def zeroPlane (h w : Nat) : List (List Int) := if h = 0 ∨ w = 0 then [] else List.replicate h (List.replicate w 0)

/-- frame/ModularChannel.go:443-451, 180: the weighted prediction and the error property at a sample, and the planes after
storing the prediction. -/
def wpStep (env : ChanEnv) (b : List (List Int)) (p : WPPlanes) (x y : Nat) : Res (WPResult × WPPlanes) :=
  if env.useWP then do
    let r ← prePredictWP env.chan.width env.wp b p x y
    let pred ← set2 p.pred y x r.pred
    .ok (r, { p with pred := pred })
  else .ok (⟨[], 0, 0⟩, p)

/-- frame/ModularChannel.go:470-473: storing the errors of the sub-predictions in the first planes ... -/
def storeErrors (v : Int) (y x : Nat) : Nat → List Int → List (List (List Int)) → Res (List (List (List Int)))
  | _, [], err => .ok err
  | e, s :: ss, err => do
    let pl ← idx err (e : Int)
    let pl' ← set2 pl y x (sar (i32 (abs32 (i32 (s - i32 (v * 8))) + 3)) 3)
    let err' ← setAt err (e : Int) pl'
    storeErrors v y x (e + 1) ss err'

/-- frame/ModularChannel.go:474: ... and the true error in the last one. -/
def storeTrueError (r : WPResult) (v : Int) (y x : Nat) (err : List (List (List Int))) : Res (List (List (List Int))) := do
  let pl ← idx err 4
  let pl' ← set2 pl y x (i32 (r.pred - i32 (v * 8)))
  setAt err 4 pl'

/-- frame/ModularChannel.go:470-475. -/
def wpUpdate (env : ChanEnv) (r : WPResult) (v : Int) (p : WPPlanes) (x y : Nat) : Res WPPlanes :=
  if env.useWP then do
    let err ← storeErrors v y x 0 r.sub p.err
    let err' ← storeTrueError r v y x err
    .ok { p with err := err' }
  else .ok p

/-- frame/ModularChannel.go:407-416, 453: the leaf for a sample. -/
def leafFor (env : ChanEnv) (tree : MATree) (b : List (List Int)) (maxError : Int) (x y : Nat) : Res MALeaf :=
  tree.walk (propValue { env.chan with buffer := b } env.prev env.channelIndex env.streamIndex x y maxError)

/-- frame/ModularChannel.go:441-476: one sample. -/
def decodeSample (env : ChanEnv) (tree : MATree) (y x : Nat) (st : ChanState) : Rd ChanState := do
  let wp ← Rd.lift (wpStep env st.buffer st.planes x y)
  let leaf ← Rd.lift (leafFor env tree st.buffer wp.1.maxError x y)
  let sym ← st.es.readSymbolMul leaf.context env.distMultiplier
  let p ← Rd.lift (prediction env.chan.width st.buffer wp.2.pred y x leaf.predictor)
  let v := i32 (i32 (unpackSigned (toU32 sym.1) * leaf.multiplier + leaf.offset) + p)
  let buffer ← Rd.lift (set2 st.buffer y x v)
  let planes ← Rd.lift (wpUpdate env wp.1 v wp.2 x y)
  Pure.pure ⟨buffer, planes, sym.2⟩

/-- frame/ModularChannel.go:441-476: the rest of a row, `n` samples from column `x` on. -/
def decodeRow (env : ChanEnv) (tree : MATree) (y : Nat) : Nat → Nat → ChanState → Rd ChanState
  | 0, _, st => Pure.pure st
  | n + 1, x, st => do
    let st ← decodeSample env tree y x st
    decodeRow env tree y n (x + 1) st

/-- frame/ModularChannel.go:437-477: `n` rows from row `y` on; the tree is specialised to each row. -/
def decodeRows (env : ChanEnv) (tree : MATree) : Nat → Nat → ChanState → Rd ChanState
  | 0, _, st => Pure.pure st
  | n + 1, y, st => do
    let st ← decodeRow env (tree.compactifyWithY env.channelIndex env.streamIndex y) y env.chan.width 0 st
    decodeRows env tree n (y + 1) st

/-- frame/ModularChannel.go:428-435: the planes of the weighted predictor. -/
def initPlanes (useWP : Bool) (h w : Nat) : WPPlanes :=
  if useWP then ⟨List.replicate 5 (List.replicate h (List.replicate w 0)), List.replicate h (List.replicate w 0)⟩ else ⟨[], []⟩

/-- frame/ModularChannel.go:418-482 `decode` of a channel that is not decoded yet; the result is the sample buffer and
the entropy decoder. -/
def decodeChannel (c : Chan) (prev : List Chan) (wp : WPParams) (tree : MATree) (channelIndex streamIndex distMultiplier : Int)
    (es : ES) : Rd (List (List Int) × WPPlanes × ES) := do
  let t := tree.compactify channelIndex streamIndex
  let useWP := c.forceWP || t.useWP
  let env : ChanEnv := ⟨c, prev, channelIndex, streamIndex, distMultiplier, wp, useWP⟩
  let st ← decodeRows env t c.height 0 ⟨zeroPlane c.height c.width, initPlanes useWP c.height c.width, es⟩
  Pure.pure (st.buffer, st.planes, st.es)

end Jxl
