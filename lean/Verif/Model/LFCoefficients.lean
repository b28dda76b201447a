import Verif.Model.Dequant
import Verif.Model.HFCoefficients
import Verif.Model.F16

/-!
# Low-frequency coefficients (frame/lfcoefficients.go, frame/LFChannelCorrelation.go, frame/LFGlobal.go:82-127)

Written for any arithmetic. Samples of an LF frame are floats already (the code converts integers first).
-/
namespace Jxl

/-- frame/LFChannelCorrelation.go:5-11 `LFChannelCorrelation`. -/
structure LFCorrelation where
  colorFactor : Nat
  baseX : ℚ
  baseB : ℚ
  xFactorLF : Nat
  bFactorLF : Nat
  deriving DecidableEq

/-- frame/LFChannelCorrelation.go:17-58 `NewLFChannelCorrelationWithReader`. -/
def readLFCorrelation : Rd LFCorrelation := do
  let allDefault ← readBool
  if allDefault then pure ⟨84, 0, 1, 128, 128⟩
  else do
    let colorFactor ← readU32 84 0 256 0 2 8 258 16
    let baseX ← readF16
    let baseB ← readF16
    let x ← readBits 8
    let b ← readBits 8
    pure ⟨colorFactor, baseX, baseB, x, b⟩

/-- frame/LFGlobal.go:29, 84-95: the factors of the channels. The product by 1/128 is exact, so it is taken in rational numbers. -/
def readLFDequant : Rd (List ℚ) := do
  let dflt ← readBool
  if dflt then pure [1 / 4096, 1 / 512, 1 / 256]
  else do
    let a ← readF16
    let b ← readF16
    let c ← readF16
    pure [a * (1 / 128), b * (1 / 128), c * (1 / 128)]

/-- frame/LFGlobal.go:97-107: the global scale and the quantizer of the low frequencies. -/
def readLFQuantizer : Rd (Int × Int) := do
  let globalScale ← readU32 1 11 2049 11 4097 12 8193 16
  let quantLF ← readU32 16 0 1 5 1 8 1 16
  pure (i32 globalScale, i32 quantLF)

section
variable {α : Type} [Arith α]

/-- frame/LFGlobal.go:108-110: the quantization steps; the product is of type `int32`. -/
def scaledDequant (globalScale quantLF : Int) (lfDequant : List ℚ) : List α :=
  lfDequant.map fun d => Arith.lit 65536 * Arith.lit d / Arith.lit (i32 (globalScale * quantLF) : Rat)

/-- frame/lfcoefficients.go:94-95: the factor of luma in a chroma channel; the difference is of type `uint32`. -/
def lfFactor (base : α) (factor colorFactor : Nat) : α := base + Arith.lit (((factor + 2 ^ 32 - 128) % 2 ^ 32 : Nat) : Rat) / Arith.lit (colorFactor : Rat)

/-- frame/*.go `cMap`: the place of a channel in the modular stream. -/
def cMap : List Int := [1, 0, 2]

/-- frame/lfcoefficients.go:78-86: one channel. -/
def dequantLFPlane (sd : α) (q : List (List Int)) (m : List (List α)) : Res (List (List α)) :=
  forFrom (fun y m => do
    let row ← idx q (y : Int)
    forFrom (fun x m => do
      let v ← idx row (x : Int)
      set2 m (y : Int) (x : Int) (Arith.lit (v : Rat) * sd)) row.length 0 m) q.length 0 m

/-- frame/lfcoefficients.go:74-87: the three channels. -/
def dequantLF (extraPrecision : Nat) (steps : List α) (lfQuant : List (List (List Int))) (planes : List (List (List α))) : Res (List (List (List α))) :=
  forFrom (fun i planes => do
    let c ← idx cMap (i : Int)
    let s ← idx steps (i : Int)
    let q ← idx lfQuant c
    let m ← idx planes (i : Int)
    let m ← dequantLFPlane (s / Arith.lit ((2 ^ extraPrecision : Nat) : Rat)) q m
    setAt planes (i : Int) m) 3 0 planes

/-- frame/lfcoefficients.go:96-107: luma is added to the other two channels. -/
def correlateLF (kX kB : α) (planes : List (List (List α))) : Res (List (List (List α))) := do
  let py ← idx planes 1
  let px ← idx planes 0
  let pb ← idx planes 2
  let r ← forFrom (fun y (s : List (List α) × List (List α)) => do
    let row ← idx py (y : Int)
    forFrom (fun x s => do
      let v ← idx row (x : Int)
      let vx ← at2 s.1 (y : Int) (x : Int)
      let px ← set2 s.1 (y : Int) (x : Int) (vx + kX * v)
      let vb ← at2 s.2 (y : Int) (x : Int)
      let pb ← set2 s.2 (y : Int) (x : Int) (vb + kB * v)
      .ok (px, pb)) row.length 0 s) py.length 0 (px, pb)
  .ok [r.1, py, r.2]

/-- frame/lfcoefficients.go:176-186: the weighted sum of a sample and its neighbours. -/
def lfWeighted (co : List (List α)) (y x : Nat) : Res α := do
  let sample ← at2 co (y : Int) (x : Int)
  let a ← at2 co (y : Int) ((x : Int) - 1)
  let b ← at2 co (y : Int) ((x : Int) + 1)
  let c ← at2 co ((y : Int) - 1) (x : Int)
  let d ← at2 co ((y : Int) + 1) (x : Int)
  let e ← at2 co ((y : Int) - 1) ((x : Int) - 1)
  let f ← at2 co ((y : Int) - 1) ((x : Int) + 1)
  let g ← at2 co ((y : Int) + 1) ((x : Int) - 1)
  let h ← at2 co ((y : Int) + 1) ((x : Int) + 1)
  let adjacent := a + b + c + d
  let diag := e + f + g + h
  .ok (Arith.lit (5226273532324128 / 10 ^ 17) * sample + Arith.lit (20345139757231578 / 10 ^ 17) * adjacent + Arith.lit (334829185968739 / 10 ^ 16) * diag)

/-- frame/lfcoefficients.go:168-193: the weighted sums of a channel, and the largest differences so far. -/
def lfGapPlane (co : List (List α)) (sd : α) (s : List (List α) × List (List α)) : Res (List (List α) × List (List α)) :=
  forFrom (fun y s => do
    let row ← idx co (y : Int)
    forFrom (fun x s => do
      let w ← lfWeighted co y x
      let weighted ← set2 s.1 (y : Int) (x : Int) w
      let sample ← at2 co (y : Int) (x : Int)
      let g := Arith.abs (sample - w) * sd
      let old ← at2 s.2 (y : Int) (x : Int)
      if Arith.lt old g then do
        let gap ← set2 s.2 (y : Int) (x : Int) g
        .ok (weighted, gap)
      else .ok (weighted, s.2)) (row.length - 2) 1 s) (co.length - 2) 1 s

/-- frame/lfcoefficients.go:196-201: `util.Max(0.0, 3.0-4.0*gap)`, which gives the first argument unless the second one is larger (the differences are never NaN). -/
def lfStrength (g : α) : α :=
  let v := Arith.lit 3 - Arith.lit 4 * g
  if Arith.lt (Arith.lit 0) v then v else Arith.lit 0

/-- frame/lfcoefficients.go:196-201: the differences become factors, in all rows but the first and the last. -/
def lfStrengths (height width : Nat) (gap : List (List α)) : Res (List (List α)) :=
  forFrom (fun y gap => forFrom (fun x gap => do
    let g ← at2 gap (y : Int) (x : Int)
    set2 gap (y : Int) (x : Int) (lfStrength g)) width 0 gap) (height - 2) 1 gap

/-- frame/lfcoefficients.go:203-224: the new samples of a channel. Simplified: the first and the last sample of a row are set by the loop, which in Go begins after them and ends before them. -/
def lfSmoothPlane (co weighted gap : List (List α)) (out : List (List α)) : Res (List (List α)) :=
  forFrom (fun y out => do
    let row ← idx co (y : Int)
    forFrom (fun x out => do
      let v ← idx row (x : Int)
      if y = 0 ∨ y + 1 = co.length ∨ x = 0 ∨ x + 1 = row.length then set2 out (y : Int) (x : Int) v
      else do
        let w ← at2 weighted (y : Int) (x : Int)
        let g ← at2 gap (y : Int) (x : Int)
        set2 out (y : Int) (x : Int) ((v - w) * g + w)) row.length 0 out) co.length 0 out

/-- frame/lfcoefficients.go:155-225 `adaptiveSmooth`. `zero` and `half` are tables of 0 and of the first differences (0.5 but in the first and the last row). -/
def adaptiveSmooth (planes : List (List (List α))) (steps : List α) : Res (List (List (List α))) := do
  let p0 ← idx planes 0
  let p1 ← idx planes 1
  let p2 ← idx planes 2
  let s0 ← idx steps 0
  let s1 ← idx steps 1
  let s2 ← idx steps 2
  let height := p0.length
  let first ← idx p0 0
  let width := first.length
  let zero : List (List α) := List.replicate height (List.replicate width (Arith.lit 0))
  let gap : List (List α) := (List.range height).map fun (y : Nat) => List.replicate width (if 0 < y ∧ y + 1 < height then Arith.lit (1 / 2) else Arith.lit 0)
  let r0 ← lfGapPlane p0 s0 (zero, gap)
  let r1 ← lfGapPlane p1 s1 (zero, r0.2)
  let r2 ← lfGapPlane p2 s2 (zero, r1.2)
  let gap ← lfStrengths height width r2.2
  let q0 ← lfSmoothPlane p0 r0.1 gap zero
  let q1 ← lfSmoothPlane p1 r1.1 gap zero
  let q2 ← lfSmoothPlane p2 r2.1 gap zero
  .ok [q0, q1, q2]

/-- frame/lfcoefficients.go:48-57: the samples of an LF frame are copied; (`pY`, `pX`) is the place of the LF group in it. -/
def copyLFFrame (pY pX : Nat) (lf : List (List (List α))) (planes : List (List (List α))) : Res (List (List (List α))) :=
  forFrom (fun c planes => do
    let b ← idx lf (c : Int)
    let m ← idx planes (c : Int)
    let m ← forFrom (fun y m => do
      let row ← idx m (y : Int)
      forFrom (fun x m => do
        let v ← at2 b ((pY + y : Nat) : Int) ((pX + x : Nat) : Int)
        set2 m (y : Int) (x : Int) v) row.length 0 m) m.length 0 m
    setAt planes (c : Int) m) 3 0 planes

/-- What the function takes from the frame. `skipSmoothing` and `useLFFrame` are flags of the header, `ups` the subsamplings, (`height`, `width`) the size of the LF group in units of 8
pixels. -/
structure LFParams (α : Type) where
  skipSmoothing : Bool
  useLFFrame : Bool
  ups : List (Nat × Nat)
  height : Nat
  width : Nat
  steps : List α
  baseX : α
  baseB : α
  colorFactor : Nat
  xFactorLF : Nat
  bFactorLF : Nat
  pY : Nat
  pX : Nat

/-- frame/lfcoefficients.go:30-31: is a channel subsampled? -/
def LFParams.subsampled (p : LFParams α) : Bool := p.ups.any fun u => u.1 != 0 || u.2 != 0

/-- frame/lfcoefficients.go:27-45: the empty planes. -/
def LFParams.empty (p : LFParams α) : List (List (List α)) :=
  p.ups.map fun u => List.replicate (p.height >>> u.1) (List.replicate (p.width >>> u.2) (Arith.lit 0))

/-- frame/lfcoefficients.go:21-122 `NewLFCoefficientsWithReader` without the indices of the contexts (`getLFIndex`), which are computed from the quantized numbers.
`decode` is the modular stream: its three channels. -/
def newLFCoefficients (p : LFParams α) (lfBuffer : List (List (List α))) (decode : Rd (List (List (List Int)))) : Rd (List (List (List α)) × List (List (List Int))) :=
  let smoothing := !p.skipSmoothing && !p.useLFFrame
  if smoothing && p.subsampled then Rd.fail
  else do
    let planes ← Rd.lift (if p.useLFFrame then copyLFFrame p.pY p.pX lfBuffer p.empty else .ok p.empty)
    let extraPrecision ← readBits 2
    let lfQuant ← decode
    let planes ← Rd.lift (dequantLF extraPrecision p.steps lfQuant planes)
    let planes ← Rd.lift (if !p.subsampled then correlateLF (lfFactor p.baseX p.xFactorLF p.colorFactor) (lfFactor p.baseB p.bFactorLF p.colorFactor) planes else .ok planes)
    let planes ← Rd.lift (if smoothing then adaptiveSmooth planes p.steps else .ok planes)
    pure (planes, lfQuant)

end

end Jxl
