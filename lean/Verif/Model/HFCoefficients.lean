import Verif.Model.HFMetadata
import Verif.Model.FrameHeader

/-!
# Coefficient contexts and coefficients (frame/HFBlockContext.go, frame/lfcoefficients.go:123-157, frame/HFCoefficients.go)

Symbols come from an `entropy.EntropyStreamer`, an interface in Go: the model takes its method `ReadSymbol` as a parameter. Coordinates and numbers of contexts are small
enough not to wrap around, except where `i32` is written.
-/
namespace Jxl

/-- frame/HFBlockContext.go:10-16 `HFBlockContext`. -/
structure HFBlockContext where
  lfThresholds : List (List Int)
  clusterMap : List Int
  numClusters : Int
  qfThresholds : List Int
  numLFContexts : Int
  deriving DecidableEq, Repr

/-- frame/HFBlockContext.go:28-37: the default. -/
def HFBlockContext.dflt : HFBlockContext where
  lfThresholds := [[], [], []]
  clusterMap := [0, 1, 2, 2, 3, 3, 4, 5, 6, 6, 6, 6, 6, 7, 8, 9, 9, 10, 11, 12, 13, 14, 14, 14, 14, 14, 7, 8, 9, 9, 10, 11, 12, 13, 14, 14, 14, 14, 14]
  numClusters := 15
  qfThresholds := []
  numLFContexts := 1

/-- frame/HFBlockContext.go:49-55: the thresholds of one channel. -/
def readThresholds : Nat → Rd (List Int)
  | 0 => pure []
  | n + 1 => do
    let t ← readU32 0 4 16 8 272 16 65808 32
    let ts ← readThresholds n
    pure (unpackSigned t :: ts)

/-- frame/HFBlockContext.go:40-56: the thresholds of `n` channels. -/
def readLFThresholds : Nat → Rd (List (List Int))
  | 0 => pure []
  | n + 1 => do
    let nb ← readBits 4
    let ts ← readThresholds nb
    let rest ← readLFThresholds n
    pure (ts :: rest)

/-- frame/HFBlockContext.go:63-70: the thresholds of the multiplier. -/
def readQFThresholds : Nat → Rd (List Int)
  | 0 => pure []
  | n + 1 => do
    let t ← readU32 0 2 4 3 12 5 44 8
    let ts ← readQFThresholds n
    pure (((t : Int) + 1) :: ts)

/-- frame/HFBlockContext.go:44, 58: the product of the numbers of intervals. -/
def intervals (thresholds : List (List Int)) : Int := thresholds.foldl (fun n t => n * ((t.length : Int) + 1)) 1

/-- frame/HFBlockContext.go:19-86 `NewHFBlockContextWithReader`. -/
def readHFBlockContext : Rd HFBlockContext := do
  let useDefault ← readBool
  if useDefault then pure HFBlockContext.dflt
  else do
    let lf ← readLFThresholds 3
    let nbQf ← readBits 4
    let qf ← readQFThresholds nbQf
    let bSize := 39 * ((nbQf : Int) + 1) * intervals lf
    if 39 * 64 < bSize then Rd.fail
    else do
      let m ← readClusterMap 2 bSize.toNat 16
      pure ⟨lf, m.1, m.2, qf, intervals lf⟩

/-- frame/lfcoefficients.go:139-143, frame/HFCoefficients.go:218-222: the number of thresholds below a value. -/
def countBelow (ts : List Int) (v : Int) : Int := ts.foldl (fun n t => if t < v then n + 1 else n) 0

/-- frame/lfcoefficients.go:134-144: the interval of the quantised value of a channel. `order` is `cMap[i]`. -/
def lfInterval (hf : HFBlockContext) (jpegY jpegX : List Nat) (lfQuant : List (List (List Int))) (order : Int) (i : Nat) (y x : Nat) : Res Int := do
  let sy ← idx jpegY i
  let sx ← idx jpegX i
  let ts ← idx hf.lfThresholds i
  if ts = [] then .ok 0
  else do
    let q ← idx lfQuant order
    let v ← at2 q (y >>> sy : Nat) (x >>> sx : Nat)
    .ok (countBelow ts v)

/-- frame/lfcoefficients.go:133-152 `getLFIndex`. -/
def getLFIndex (hf : HFBlockContext) (jpegY jpegX : List Nat) (lfQuant : List (List (List Int))) (y x : Nat) : Res Int := do
  let i0 ← lfInterval hf jpegY jpegX lfQuant 1 0 y x
  let i1 ← lfInterval hf jpegY jpegX lfQuant 0 1 y x
  let i2 ← lfInterval hf jpegY jpegX lfQuant 2 2 y x
  let t1 ← idx hf.lfThresholds 1
  let t2 ← idx hf.lfThresholds 2
  .ok (i32 ((i0 * ((t2.length : Int) + 1) + i2) * ((t1.length : Int) + 1) + i1))

/-- frame/HFCoefficients.go:208-226 `getBlockContext`. -/
def getBlockContext (hf : HFBlockContext) (c orderID hfMult lfIndex : Int) : Res Int := do
  let i := if c < 2 then 1 - c else c
  let i := i * 13 + orderID
  let i := i * ((hf.qfThresholds.length : Int) + 1) + countBelow hf.qfThresholds hfMult
  let i := i * hf.numLFContexts
  let v ← idx hf.clusterMap (i32 (i32 i + lfIndex))
  .ok (i32 v)

/-- frame/HFCoefficients.go:228-237 `getNonZeroContext`. -/
def getNonZeroContext (hf : HFBlockContext) (predicted ctx : Int) : Int :=
  let predicted := if 64 < predicted then 64 else predicted
  if predicted < 8 then i32 (ctx + hf.numClusters * predicted) else i32 (ctx + hf.numClusters * (4 + predicted / 2))

/-- frame/HFCoefficients.go:15-19 -/
def coeffFreqCtx : List Int := [
  -1, 0, 1, 2, 3, 4, 5, 6, 7, 8, 9, 10, 11, 12, 13, 14,
  15, 15, 16, 16, 17, 17, 18, 18, 19, 19, 20, 20, 21, 21, 22, 22,
  23, 23, 23, 23, 24, 24, 24, 24, 25, 25, 25, 25, 26, 26, 26, 26,
  27, 27, 27, 27, 28, 28, 28, 28, 29, 29, 29, 29, 30, 30, 30, 30]

/-- frame/HFCoefficients.go:20-25 -/
def coeffNumNonzeroCtx : List Int := [
  -1, 0, 31, 62, 62, 93, 93, 93, 93, 123, 123, 123, 123, 152, 152,
  152, 152, 152, 152, 152, 152, 180, 180, 180, 180, 180, 180, 180,
  180, 180, 180, 180, 180, 206, 206, 206, 206, 206, 206, 206, 206,
  206, 206, 206, 206, 206, 206, 206, 206, 206, 206, 206, 206, 206,
  206, 206, 206, 206, 206, 206, 206, 206, 206, 206]

/-- frame/HFCoefficients.go:239-243 `getCoefficientContext`. -/
def getCoefficientContext (k nonZeros numBlocks prev : Int) : Res Int := do
  let a ← idx coeffNumNonzeroCtx (Int.tdiv (i32 (nonZeros + numBlocks - 1)) numBlocks)
  let b ← idx coeffFreqCtx (Int.tdiv k numBlocks)
  .ok ((a + b) * 2 + prev)

/-- frame/HFCoefficients.go:453-466 `getPredictedNonZeros`. -/
def getPredictedNonZeros (nz : List (List Int)) (y x : Int) : Res Int :=
  if x = 0 ∧ y = 0 then .ok 32
  else if x = 0 then at2 nz (y - 1) 0
  else if y = 0 then at2 nz 0 (x - 1)
  else do
    let a ← at2 nz (y - 1) x
    let b ← at2 nz y (x - 1)
    .ok (i32 (a + b + 1) / 2)

/-- A block to be decoded: its place in the group in units of 8 pixels, its type, its multiplier and the interval of its low frequencies. -/
structure HFBlock where
  groupY : Int
  groupX : Int
  tt : TransformType
  hfMult : Int
  lfIndex : Int

/-- The tables of one channel: the numbers of non-zero coefficients of the cells, and the coefficients. -/
structure HFPlane where
  nonZeros : List (List Int)
  coeffs : List (List Int)
  deriving DecidableEq

section
variable {σ : Type} (read : σ → Int → Rd (Int × σ))

/-- frame/HFCoefficients.go:114-118: the number of non-zero coefficients is entered for all cells of the block. -/
def setNonZeros (tt : TransformType) (y x : Int) (v : Int) (nz : List (List Int)) : Res (List (List Int)) :=
  forFrom (fun iy nz => forFrom (fun ix nz => set2 nz (y + iy) (x + ix) v) tt.dctWidth.toNat 0 nz) tt.dctHeight.toNat 0 nz

/-- frame/HFCoefficients.go:162-170: the place of a coefficient, relative to the corner of the block. -/
def coeffPlace (flip : Bool) (o : Point) : Point := if flip then ⟨o.x, o.y⟩ else o

/-- frame/HFCoefficients.go:133-145: was the coefficient before this one non-zero? -/
def prevFlag (k nonZero orderSize prevUcoeff : Int) : Int :=
  if k = 0 then (if orderSize / 16 < nonZero then 0 else 1) else if prevUcoeff ≠ 0 then 1 else 0

/-- frame/HFCoefficients.go:131-182: the coefficients `k`, `k + 1`, … (`n` of them) of a block whose corner is at `py`, `px`. -/
def coeffLoop (histCtx numBlocks : Int) (order : List Point) (flip : Bool) (py px : Int) (shift : Nat) :
    Nat → Int → Int → Int → σ → List (List Int) → Rd (Int × σ × List (List Int))
  | 0, _, nonZero, _, st, q => pure (nonZero, st, q)
  | n + 1, k, nonZero, prevUcoeff, st, q => do
    let ctx ← Rd.lift (getCoefficientContext (k + numBlocks) nonZero numBlocks (prevFlag k nonZero order.length prevUcoeff))
    let r ← read st (i32 (histCtx + ctx))
    let o ← Rd.lift (idx order (k + numBlocks))
    let q ← Rd.lift (set2 q (py + (coeffPlace flip o).y) (px + (coeffPlace flip o).x) (i32 (unpackSigned (toU32 r.1) * 2 ^ shift)))
    if r.1 ≠ 0 then
      if nonZero - 1 = 0 then pure (0, r.2, q) else coeffLoop histCtx numBlocks order flip py px shift n (k + 1) (nonZero - 1) r.1 r.2 q
    else coeffLoop histCtx numBlocks order flip py px shift n (k + 1) nonZero r.1 r.2 q

/-- frame/HFCoefficients.go:102-186: one channel of a block at `sy`, `sx` in the group. -/
def readBlockPlane (hf : HFBlockContext) (offset : Int) (shift : Nat) (order : List Point) (b : HFBlock) (c sy sx : Int) (st : σ) (p : HFPlane) : Rd (σ × HFPlane) := do
  let numBlocks := b.tt.dctHeight * b.tt.dctWidth
  let predicted ← Rd.lift (getPredictedNonZeros p.nonZeros sy sx)
  let blockCtx ← Rd.lift (getBlockContext hf c b.tt.orderID b.hfMult b.lfIndex)
  let r ← read st (i32 (offset + getNonZeroContext hf predicted blockCtx))
  let nz ← Rd.lift (setNonZeros b.tt sy sx (Int.tdiv (i32 (r.1 + numBlocks - 1)) numBlocks) p.nonZeros)
  if r.1 ≤ 0 then pure (r.2, ⟨nz, p.coeffs⟩)
  else do
    let t ← coeffLoop read (i32 (offset + 458 * blockCtx + 37 * hf.numClusters)) numBlocks order b.tt.flip (sy * 8) (sx * 8) shift
      ((order.length : Int) - numBlocks).toNat 0 r.1 0 r.2 p.coeffs
    if t.1 ≠ 0 then Rd.fail else pure (t.2.1, ⟨nz, t.2.2⟩)

/-- frame/HFCoefficients.go:95-101: channel `c` of a block, which is skipped unless the block begins at a sample of the channel. The order is
looked up first, which in Go happens only when there are coefficients; a pass always has all orders. -/
def readBlockChannel (hf : HFBlockContext) (offset : Int) (shift : Nat) (jpegY jpegX : List Nat) (orders : List (List (List Point))) (b : HFBlock) (c : Int)
    (s : σ × List HFPlane) : Rd (σ × List HFPlane) := do
  let uy ← Rd.lift (idx jpegY c)
  let ux ← Rd.lift (idx jpegX c)
  if b.groupY ≠ sar b.groupY uy * 2 ^ uy ∨ b.groupX ≠ sar b.groupX ux * 2 ^ ux then pure s
  else do
    let p ← Rd.lift (idx s.2 c)
    let os ← Rd.lift (idx orders b.tt.orderID)
    let order ← Rd.lift (idx os c)
    let r ← readBlockPlane read hf offset shift order b c (sar b.groupY uy) (sar b.groupX ux) s.1 p
    let ps ← Rd.lift (setAt s.2 c r.2)
    pure (r.1, ps)

/-- frame/HFCoefficients.go:95-187: the channels of a block (the second one first). -/
def readBlock (hf : HFBlockContext) (offset : Int) (shift : Nat) (jpegY jpegX : List Nat) (orders : List (List (List Point))) (b : HFBlock)
    (s : σ × List HFPlane) : Rd (σ × List HFPlane) := do
  let s ← readBlockChannel read hf offset shift jpegY jpegX orders b 1 s
  let s ← readBlockChannel read hf offset shift jpegY jpegX orders b 0 s
  readBlockChannel read hf offset shift jpegY jpegX orders b 2 s

/-- frame/HFCoefficients.go:80-189: the blocks of a group. -/
def readBlocks (hf : HFBlockContext) (offset : Int) (shift : Nat) (jpegY jpegX : List Nat) (orders : List (List (List Point))) :
    List HFBlock → σ × List HFPlane → Rd (σ × List HFPlane)
  | [], s => pure s
  | b :: bs, s => do
    let s ← readBlock read hf offset shift jpegY jpegX orders b s
    readBlocks hf offset shift jpegY jpegX orders bs s

end

/-- frame/HFCoefficients.go:81-93: the blocks of an LF group that belong to the group at `gy`, `gx` (in units of 8 pixels). -/
def groupBlocks (m : HFMetadata) (lfIndex : List (List Int)) (gy gx : Int) : List Point → Res (List HFBlock)
  | [] => .ok []
  | p :: ps => do
    if p.y - gy < 0 ∨ p.x - gx < 0 ∨ 32 ≤ p.y - gy ∨ 32 ≤ p.x - gx then groupBlocks m lfIndex gy gx ps
    else do
      let tt ← at2 m.dctSelect p.y p.x
      let mul ← at2 m.hfMultiplier p.y p.x
      let lf ← at2 lfIndex p.y p.x
      match tt with
      | none => .panic
      | some tt => do
        let r ← groupBlocks m lfIndex gy gx ps
        .ok (⟨p.y - gy, p.x - gx, tt, mul, lf⟩ :: r)

/-- frame/HFCoefficients.go:63-73: the empty tables of the channels of a group. -/
def emptyPlanes (height width : Nat) : List Nat → List Nat → List HFPlane
  | uy :: ys, ux :: xs => ⟨List.replicate 32 (List.replicate 32 0), List.replicate (height >>> uy) (List.replicate (width >>> ux) 0)⟩ :: emptyPlanes height width ys xs
  | _, _ => []

/-- frame/HFCoefficients.go:40-194 `NewHFCoefficientsWithReader`, given the blocks of the group. The index of an array is computed from the interval and the multiplier of
all blocks before any of them is decoded; in Go these steps alternate. -/
def readHFCoefficients (numHFPresets : Int) (hf : HFBlockContext) (pass : HFPass) (shift : Nat) (jpegY jpegX : List Nat) (height width : Nat) (blocks : List HFBlock) :
    Rd (List HFPlane) := do
  let hfPreset ← readBits (ceilLog1p (i32 (numHFPresets - 1)).toNat)
  let s ← readBlocks ES.readSymbol hf (i32 (i32 (495 * hf.numClusters) * i32 hfPreset)) shift jpegY jpegX pass.order blocks
    (pass.contextStream.fresh, emptyPlanes height width jpegY jpegX)
  if s.1.validateFinalState then pure s.2 else Rd.fail

end Jxl
