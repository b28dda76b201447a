import Verif.Model.VarDCT
import Verif.Model.HFMetadata

/-!
# From quantized coefficients to the coefficients of the blocks (frame/HFCoefficients.go:248-439)

Written for any arithmetic. All planes and tables are different slices. Positions are numbers, not `int32`: they stay far below 2^31. A block knows its place in its group
(units of 8 pixels); its place in the LF group is this plus the place of the group, `groupPos`.
-/
namespace Jxl

/-- A block with its multiplier (frame/HFCoefficients.go:280-286, 301: `dctSelect` and `hfMultiplier` at its place). -/
structure QBlock extends VBlock where
  hfMult : Int

/-- frame/HFCoefficients.go:78-91, 281-289, 301: the blocks of the LF group that begin in a group; `groupPos` is the place of the group in the LF group, in units of 8 pixels. Simplified: blocks
of other groups are left out, in the code they are nil. -/
def groupQBlocks (groupPos : Nat × Nat) (m : HFMetadata) : List Point → Res (List QBlock)
  | [] => .ok []
  | p :: ps =>
    let groupY := p.y - groupPos.1
    let groupX := p.x - groupPos.2
    if groupY < 0 ∨ groupX < 0 ∨ groupY ≥ 32 ∨ groupX ≥ 32 then groupQBlocks groupPos m ps
    else do
      let t ← at2 m.dctSelect p.y p.x
      match t with
      | none => .panic
      | some tt => do
        let mult ← at2 m.hfMultiplier p.y p.x
        let rest ← groupQBlocks groupPos m ps
        .ok (⟨⟨groupY.toNat, groupX.toNat, placedRef tt⟩, mult⟩ :: rest)

section
variable {α : Type} [Arith α]

/-- frame/HFCoefficients.go:268-273: the scale factors of the three channels. `pow e` is `float32(math.Pow(0.8, e))`; the exponent is a difference of numbers of type
`uint32`. -/
def scaleFactors (pow : Nat → α) (globalScale : Int) (xqmScale bqmScale : Nat) : List α :=
  let g := Arith.lit 65536 / Arith.lit (globalScale : Rat)
  [g * pow ((xqmScale + 2 ^ 32 - 2) % 2 ^ 32), g, g * pow ((bqmScale + 2 ^ 32 - 2) % 2 ^ 32)]

/-- frame/HFCoefficients.go:275-279 and 313-318: a coefficient without its scale. Simplified: -0 is 0. -/
def unquantize (bias numerator : α) (coeff : Int) : Res α :=
  if coeff > -2 ∧ coeff < 2 then idx [Arith.lit 0 - bias, Arith.lit 0, bias] (coeff + 1)
  else .ok (Arith.lit (coeff : Rat) - numerator / Arith.lit (coeff : Rat))

/-- frame/HFCoefficients.go:305-328: one channel of a block. -/
def dequantBlock (quantized : List (List Int)) (weights : List (List α)) (sfc bias numerator : α) (tt : TransformType) (ppg : Nat × Nat) (dq : List (List α)) :
    Res (List (List α)) :=
  forFrom (fun y dq => forFrom (fun x dq =>
    if y < tt.dctHeight.toNat ∧ x < tt.dctWidth.toNat then .ok dq else do
    let coeff ← at2 quantized ((ppg.1 + y : Nat) : Int) ((ppg.2 + x : Nat) : Int)
    let quant ← unquantize bias numerator coeff
    let wy := if tt.flip then x else y
    let w ← at2 weights (wy : Int) ((x ^^^ y ^^^ wy : Nat) : Int)
    set2 dq ((ppg.1 + y : Nat) : Int) ((ppg.2 + x : Nat) : Int) (quant * sfc * w)) tt.pixelWidth.toNat 0 dq) tt.pixelHeight.toNat 0 dq

/-- frame/HFCoefficients.go:281-299, 397-416: the loops over blocks and channels; a channel is skipped unless the block begins at one of its samples. -/
def eachPlane {σ : Type} (ups : List (Nat × Nat)) (f : Nat → QBlock → List (List α) × σ → Res (List (List α) × σ)) :
    List QBlock → List (List (List α)) × σ → Res (List (List (List α)) × σ)
  | [], s => .ok s
  | b :: bs, s => do
    let s ← forFrom (fun c s => do
      let u ← idx ups (c : Int)
      if !b.takesPart u then .ok s else do
      let m ← idx s.1 (c : Int)
      let r ← f c b (m, s.2)
      let planes ← setAt s.1 (c : Int) r.1
      .ok (planes, r.2)) 3 0 s
    eachPlane ups f bs s

/-- frame/HFCoefficients.go:265-332 `dequantizeHFCoefficients`. Simplified: the weights are looked up in the loop over the channels. -/
def dequantizeHF (weights : List (List (List (List α)))) (scale bias : List α) (numerator : α) (quantized : List (List (List Int))) (ups : List (Nat × Nat))
    (blocks : List QBlock) (planes : List (List (List α))) : Res (List (List (List α))) := do
  let r ← eachPlane ups (fun c b s => do
    let u ← idx ups (c : Int)
    let w2 ← idx weights b.tt.tt.parameterIndex
    let w3 ← idx w2 (c : Int)
    let sf ← idx scale (c : Int)
    let bi ← idx bias (c : Int)
    let q ← idx quantized (c : Int)
    let m ← dequantBlock q w3 (sf / Arith.lit (b.hfMult : Rat)) bi numerator b.tt.tt (b.ppg u) s.1
    .ok (m, ())) blocks (planes, ())
  .ok r.1

/-- What `chromaFromLuma` changes: the factors of the tiles and the planes of the channels 0 and 2. -/
structure CflState (α : Type) where
  xF : List (List α)
  bF : List (List α)
  p0 : List (List α)
  p2 : List (List α)

/-- What it reads: the basic correlations, the reciprocal of the colour factor and the factors of the tiles in the LF group. -/
structure CflParams (α : Type) where
  baseX : α
  baseB : α
  inv : α
  hfX : List (List Int)
  hfB : List (List Int)

/-- frame/HFCoefficients.go:374-381: the factors of a tile are computed at its first pixel. -/
def cflFactors (p : CflParams α) (y x : Nat) (s : CflState α) : Res (CflState α) :=
  let fy := y >>> 6
  let fx := x >>> 6
  if fy <<< 6 == y && fx <<< 6 == x then do
    let vx ← at2 p.hfX (fy : Int) (fx : Int)
    let vb ← at2 p.hfB (fy : Int) (fx : Int)
    let xF ← set2 s.xF (fy : Int) (fx : Int) (p.baseX + Arith.lit (vx : Rat) * p.inv)
    let bF ← set2 s.bF (fy : Int) (fx : Int) (p.baseB + Arith.lit (vb : Rat) * p.inv)
    .ok { s with xF := xF, bF := bF }
  else .ok s

/-- frame/HFCoefficients.go:370-389: one pixel; `y` and `x` are its place in the LF group. Simplified: factors just computed are read back from the tables. -/
def cflPixel (p : CflParams α) (luma : List (List α)) (y x : Nat) (s : CflState α) : Res (CflState α) := do
  let s ← cflFactors p y x s
  let kX ← at2 s.xF ((y >>> 6 : Nat) : Int) ((x >>> 6 : Nat) : Int)
  let kB ← at2 s.bF ((y >>> 6 : Nat) : Int) ((x >>> 6 : Nat) : Int)
  let l ← at2 luma ((y &&& 255 : Nat) : Int) ((x &&& 255 : Nat) : Int)
  let v0 ← at2 s.p0 ((y &&& 255 : Nat) : Int) ((x &&& 255 : Nat) : Int)
  let p0 ← set2 s.p0 ((y &&& 255 : Nat) : Int) ((x &&& 255 : Nat) : Int) (v0 + kX * l)
  let v2 ← at2 s.p2 ((y &&& 255 : Nat) : Int) ((x &&& 255 : Nat) : Int)
  let p2 ← set2 s.p2 ((y &&& 255 : Nat) : Int) ((x &&& 255 : Nat) : Int) (v2 + kB * l)
  .ok { s with p0 := p0, p2 := p2 }

/-- frame/HFCoefficients.go:354-391: the loop over the blocks. -/
def cflBlocks (p : CflParams α) (groupPos : Nat × Nat) (luma : List (List α)) : List QBlock → CflState α → Res (CflState α)
  | [], s => .ok s
  | b :: bs, s => do
    let s ← forFrom (fun iy s => forFrom (fun ix s =>
      cflPixel p luma ((groupPos.1 + b.groupY) <<< 3 + iy) ((groupPos.2 + b.groupX) <<< 3 + ix) s) b.tt.tt.pixelWidth.toNat 0 s) b.tt.tt.pixelHeight.toNat 0 s
    cflBlocks p groupPos luma bs s

/-- frame/HFCoefficients.go:334-392 `chromaFromLuma`. -/
def chromaFromLuma (p : CflParams α) (ups : List (Nat × Nat)) (groupPos : Nat × Nat) (blocks : List QBlock) (planes : List (List (List α))) : Res (List (List (List α))) :=
  if ups.any (fun u => u.2 != 0) || ups.any (fun u => u.1 != 0) then .ok planes
  else do
    let rx ← idx p.hfX 0
    let rb ← idx p.hfB 0
    let p0 ← idx planes 0
    let luma ← idx planes 1
    let p2 ← idx planes 2
    let s ← cflBlocks p groupPos luma blocks ⟨List.replicate p.hfX.length (List.replicate rx.length (Arith.lit 0)),
      List.replicate p.hfB.length (List.replicate rb.length (Arith.lit 0)), p0, p2⟩
    .ok [s.p0, luma, s.p2]

/-- frame/transformtype.go:92-115, 143-147: the scales of the low frequencies of a type. `scale i j` is `float32(SCALE_F[i] * SCALE_F[j])`, computed in `float64`. -/
def llfScale (scale : Nat → Nat → α) (tt : TransformType) : List (List α) :=
  let yll := ceilLog2 32 tt.dctHeight.toNat
  let xll := ceilLog2 32 tt.dctWidth.toNat
  (List.range tt.dctHeight.toNat).map fun (y : Nat) => (List.range tt.dctWidth.toNat).map fun (x : Nat) => scale (y <<< (5 - yll)) (x <<< (5 - xll))

/-- frame/HFCoefficients.go:418-436: one channel of a block; `src` is the place of its LF samples. -/
def llfBlock (lut : List (List (List α))) (scale : Nat → Nat → α) (lf : List (List α)) (tt : TransformType) (src ppg : Nat × Nat) (s : List (List α) × List (List α) × List (List α)) :
    Res (List (List α) × List (List α) × List (List α)) := do
  let size := (tt.dctHeight.toNat, tt.dctWidth.toNat)
  let r ← forwardDCT2D lut lf s.1 src ppg size s.2.1 s.2.2
  let m ← forFrom (fun y m => forFrom (fun x m => do
    let v ← at2 m ((ppg.1 + y : Nat) : Int) ((ppg.2 + x : Nat) : Int)
    let k ← at2 (llfScale scale tt) (y : Int) (x : Int)
    set2 m ((ppg.1 + y : Nat) : Int) ((ppg.2 + x : Nat) : Int) (v * k)) size.2 0 m) size.1 0 r.1
  .ok (m, r.2)

/-- frame/HFCoefficients.go:394-439 `finalizeLLF`. The scratch spaces come from a pool, with the contents of earlier uses. -/
def finalizeLLF (lut : List (List (List α))) (scale : Nat → Nat → α) (lf : List (List (List α))) (ups : List (Nat × Nat)) (groupPos : Nat × Nat) (blocks : List QBlock)
    (planes : List (List (List α))) (scratch : List (List α) × List (List α)) : Res (List (List (List α))) := do
  let r ← eachPlane ups (fun c b s => do
    let u ← idx ups (c : Int)
    let l ← idx lf (c : Int)
    llfBlock lut scale l b.tt.tt ((groupPos.1 + b.groupY) >>> u.1, (groupPos.2 + b.groupX) >>> u.2) (b.ppg u) s) blocks (planes, scratch)
  .ok r.1

/-- frame/HFCoefficients.go:248-263 `bakeDequantizedCoeffs`. -/
def bakeDequantizedCoeffs (lut : List (List (List α))) (scale : Nat → Nat → α) (weights : List (List (List (List α)))) (factors bias : List α) (numerator : α) (p : CflParams α)
    (quantized : List (List (List Int))) (lf : List (List (List α))) (ups : List (Nat × Nat)) (groupPos : Nat × Nat) (blocks : List QBlock)
    (planes : List (List (List α))) (scratch : List (List α) × List (List α)) : Res (List (List (List α))) := do
  let planes ← dequantizeHF weights factors bias numerator quantized ups blocks planes
  let planes ← chromaFromLuma p ups groupPos blocks planes
  finalizeLLF lut scale lf ups groupPos blocks planes scratch

end

end Jxl
