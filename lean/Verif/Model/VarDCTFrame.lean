import Verif.Model.FilterFrame
import Verif.Model.LFCoefficients
import Verif.Model.HFGlobal

/-!
# Decoding a VarDCT frame (frame/Frame.go:324-479, 540-834, frame/LFGlobal.go:43-168, frame/LFGroup.go:19-64, frame/hfmetadata.go:22-73, frame/Pass.go:21-67,
frame/PassGroup.go:73-270, frame/HFCoefficients.go:40-263)

Written for any arithmetic. As for modular frames, sections are read one after the other.
-/
namespace Jxl

/-! ## The global section -/

/-- What the global section of a VarDCT frame contains. -/
structure VarGlobal where
  dequant : List ℚ
  globalScale : Int
  quantLF : Int
  hfctx : HFBlockContext
  corr : LFCorrelation
  tree : GlobalTree
  stream : GlobalStream

/-- frame/LFGlobal.go:43-168 `NewLFGlobalWithReader` for a VarDCT frame. The global stream has the extra channels only. -/
def readVarGlobal (h : ImageHeader) (f : FrameHeader) : Rd VarGlobal :=
  if refusedFlags f.flags then Rd.fail
  else do
    let d ← readLFDequant
    let q ← readLFQuantizer
    let hf ← readHFBlockContext
    let co ← readLFCorrelation
    let has ← readBool
    let tree ← readGlobalTree has
    let st ← readGlobalStream f.groupDim tree (globalBlanks h f)
    Pure.pure ⟨d, q.1, q.2, hf, co, tree, st⟩

/-! ## LF groups -/

/-- frame/ModularStream.go:189-394: a stream of channels that have no place in the frame: the samples of its channels. -/
def readChannels (bitDepth : Nat) (global : GlobalTree) (streamIndex : Nat) (chs : List MChan) : Rd (List (List (List Int))) :=
  match chs with
  | [] => Pure.pure []
  | c :: cs => do
    let hd ← readModHeader
    let _ ← Rd.lift (planAll hd.transforms ⟨c :: cs, 0⟩)
    let t ← streamTree global hd.useGlobalTree
    let r ← decodeModular bitDepth hd.transforms (c :: cs) hd.wp t.1 streamIndex t.2
    Pure.pure (r.1.map fun c => c.buffer)

/-- frame/lfcoefficients.go:36-42: the channel of the stream for channel `i` of the frame. -/
def lfBlank (f : FrameHeader) (height width : Nat) (i : Int) : Res MChan := do
  let uy ← idx f.jpegY i
  let ux ← idx f.jpegX i
  .ok (MChan.new (height >>> uy) (width >>> ux) uy ux false)

/-- frame/lfcoefficients.go:36-42: the channels of the stream, the second one of the frame first. -/
def lfBlanks (f : FrameHeader) (height width : Nat) : Res (List MChan) := do
  let a ← lfBlank f height width 1
  let b ← lfBlank f height width 0
  let c ← lfBlank f height width 2
  .ok [a, b, c]

/-- frame/lfcoefficients.go:124-137 `populatedLFIndex`: the intervals of all cells. -/
def lfIndices (hf : HFBlockContext) (f : FrameHeader) (lfQuant : List (List (List Int))) (height width : Nat) : Res (List (List Int)) :=
  tabulate (fun y x => getLFIndex hf f.jpegY f.jpegX lfQuant y x) width height 0

/-- frame/hfmetadata.go:25-46: the factors of the tiles, the types and multipliers of the blocks, and the sharpness. -/
def readBlockInfo (bitDepth : Nat) (global : GlobalTree) (streamIndex : Nat) (height width : Nat) : Rd (Nat × List (List (List Int))) := do
  let n ← readBits (ceilLog2 32 (u32 (height * width)))
  let nb := n + 1
  let ch := (height + 7) / 8
  let cw := (width + 7) / 8
  let r ← readChannels bitDepth global streamIndex [MChan.new ch cw 0 0 false, MChan.new ch cw 0 0 false, MChan.new 2 nb 0 0 false, MChan.new height width 0 0 false]
  Pure.pure (nb, r)

/-- frame/hfmetadata.go:54-60: the types and the multipliers of the blocks. Simplified: they are looked up before the first block is placed. -/
def blockPairs (info : List (List Int)) (nb : Nat) : Res (List (Int × Int)) :=
  (List.range nb).mapM fun (i : Nat) => do
    let t ← at2 info 0 (i : Int)
    let m ← at2 info 1 (i : Int)
    .ok (t, m)

/-- frame/LFGroup.go:9-17: what is known about an LF group. -/
structure VarLFGroup (α : Type) where
  lf : List (List (List α))
  lfIndex : List (List Int)
  points : List Point
  cells : HFMetadata
  hfX : List (List Int)
  hfB : List (List Int)
  sharpness : List (List Int)
  stream : List (MChan × Origin)

section
variable {α : Type} [Arith α]

/-- frame/lfcoefficients.go:21-122: what the low frequencies of an LF group depend on. -/
def lfParams (f : FrameHeader) (g : VarGlobal) (pos : Int × Int) (height width : Nat) : LFParams α where
  skipSmoothing := f.flags.testBit 7
  useLFFrame := f.flags.testBit 5
  ups := f.jpegY.zip f.jpegX
  height := height
  width := width
  steps := scaledDequant g.globalScale g.quantLF g.dequant
  baseX := Arith.lit g.corr.baseX
  baseB := Arith.lit g.corr.baseB
  colorFactor := g.corr.colorFactor
  xFactorLF := g.corr.xFactorLF
  bFactorLF := g.corr.bFactorLF
  pY := pos.1.toNat <<< 8
  pX := pos.2.toNat <<< 8

/-- frame/LFGroup.go:19-64 `NewLFGroupWithReader` for a VarDCT frame: the LF group of `height` by `width` cells. -/
def lfGroupBody (h : ImageHeader) (f : FrameHeader) (l : Layout) (g : VarGlobal) (lfBuffer : List (List (List α))) (id : Nat) (pos : Int × Int) (chs : List (MChan × Origin))
    (height width : Nat) : Rd (VarLFGroup α) := do
  let blanks ← Rd.lift (lfBlanks f height width)
  let co ← newLFCoefficients (lfParams f g pos height width) lfBuffer (readChannels h.bitDepth.bits g.tree (1 + id) blanks)
  let index ← Rd.lift (lfIndices g.hfctx f co.2 height width)
  let st ← readGroupStream h.bitDepth.bits g.tree (1 + u32 (l.numLFGroups + id)) chs
  let info ← readBlockInfo h.bitDepth.bits g.tree (1 + 2 * l.numLFGroups + id) height width
  let bi ← Rd.lift (idx info.2 2)
  let pairs ← Rd.lift (blockPairs bi info.1)
  let m ← Rd.lift (newHFMetadata height width pairs)
  let hfX ← Rd.lift (idx info.2 0)
  let hfB ← Rd.lift (idx info.2 1)
  let sh ← Rd.lift (idx info.2 3)
  Pure.pure ⟨co.1, index, m.1, m.2, hfX, hfB, sh, st⟩

/-- frame/Frame.go:594-632 for a VarDCT frame. -/
def readVarLFGroup (h : ImageHeader) (f : FrameHeader) (l : Layout) (toc : TOC) (readers : List SectionReader) (padded : Dim) (g : VarGlobal) (lfBuffer : List (List (List α)))
    (id : Nat) : Rd (VarLFGroup α) := do
  let pos ← Rd.lift (gridLocation l.lfGroupRowStride id)
  let a ← Rd.lift (lfGroupArea f l id)
  onSection toc readers (1 + id) (lfGroupBody h f l g lfBuffer id pos ((g.stream.rest.filter inLFGroups).map (lfGroupChannel f padded pos)) (a.height >>> 3) (a.width >>> 3))

/-- frame/Frame.go:590-633: the LF groups from `id` on. -/
def readVarLFGroups (h : ImageHeader) (f : FrameHeader) (l : Layout) (toc : TOC) (readers : List SectionReader) (padded : Dim) (g : VarGlobal) (lfBuffer : List (List (List α))) :
    Nat → Nat → Rd (List (Option (VarLFGroup α)))
  | 0, _ => Pure.pure []
  | n + 1, id => do
    let a ← orEmpty (readVarLFGroup h f l toc readers padded g lfBuffer id)
    let rest ← readVarLFGroups h f l toc readers padded g lfBuffer n (id + 1)
    Pure.pure (a :: rest)

/-! ## Weights and passes -/

/-- frame/Frame.go:483-501, frame/Pass.go:56-64: the orders and codes of the passes. -/
def readHFPasses (presets clusters : Int) : Nat → Rd (List HFPass)
  | 0 => Pure.pure []
  | n + 1 => do
    let p ← readHFPass presets clusters
    let ps ← readHFPasses presets clusters n
    Pure.pure (p :: ps)

/-- frame/HFGlobal.go:366-382: a matrix that is written out is a stream of three channels. -/
def readRawMatrix (bitDepth : Nat) (global : GlobalTree) (numLFGroups index height width : Nat) : Rd (List (List (List Int))) :=
  readChannels bitDepth global (1 + 3 * numLFGroups + index) (List.replicate 3 (MChan.new height width 0 0 false))

/-- frame/Frame.go:389-407: what the section after those of the LF groups contains: the weights, the number of presets, the passes. -/
def readHFSection (F : QuantFuncs α) (h : ImageHeader) (f : FrameHeader) (l : Layout) (g : VarGlobal) : Rd ((List (List (List (List α))) × Nat) × List HFPass) := do
  let w ← readHFGlobal F (readRawMatrix h.bitDepth.bits g.tree l.numLFGroups) l.numGroups
  let ps ← readHFPasses w.2 g.hfctx.numClusters f.passes.numPasses
  Pure.pure (w, ps)

/-! ## Pass groups -/

/-- frame/PassGroup.go:64-71, frame/HFCoefficients.go:27-38: a group of a pass: its LF group, its place there in cells, its size in pixels, its coefficients, the parts of the modular
channels. -/
structure VarGroup (α : Type) where
  lfg : VarLFGroup α
  pos : Int × Int
  area : Area
  coeffs : List (List (List Int))
  stream : List (MChan × Origin)

/-- frame/PassGroup.go:73-106 `NewPassGroupWithReader` for a VarDCT frame. The number of the preset is read after the blocks are looked up; in Go before. -/
def groupBody (h : ImageHeader) (f : FrameHeader) (l : Layout) (g : VarGlobal) (lfgs : List (VarLFGroup α)) (presets : Nat) (passes : List HFPass) (pass group : Nat)
    (chs : List (MChan × Origin)) : Rd (VarGroup α) := do
  let lfId ← Rd.lift (lfGroupFor l group)
  let lfg ← Rd.lift (idx lfgs lfId)
  let shift ← Rd.lift (idx f.passes.shift pass)
  let p ← Rd.lift (idx passes pass)
  let a ← Rd.lift (groupArea f l group)
  let gp ← Rd.lift (groupPosInLFGroup l lfId group)
  let blocks ← Rd.lift (groupBlocks lfg.cells lfg.lfIndex (i32 (gp.1 * 32)) (i32 (gp.2 * 32)) lfg.points)
  let planes ← readHFCoefficients presets g.hfctx p shift f.jpegY f.jpegX a.height a.width blocks
  let st ← readGroupStream h.bitDepth.bits g.tree (u32 (18 + 3 * l.numLFGroups + l.numGroups * pass + group)) chs
  Pure.pure ⟨lfg, (i32 (gp.1 * 32), i32 (gp.2 * 32)), a, planes.map HFPlane.coeffs, st⟩

/-- frame/Frame.go:690-725 `doProcessing` for a VarDCT frame. -/
def readVarGroup (h : ImageHeader) (f : FrameHeader) (l : Layout) (toc : TOC) (readers : List SectionReader) (g : VarGlobal) (lfgs : List (VarLFGroup α)) (presets : Nat)
    (passes : List HFPass) (sh : Nat × Nat) (pass group : Nat) : Rd (VarGroup α) := do
  let chs ← Rd.lift ((g.stream.rest.filter (inPass sh)).mapM (groupChannel f.groupDim group))
  onSection toc readers (2 + l.numLFGroups + pass * l.numGroups + group) (groupBody h f l g lfgs presets passes pass group chs)

/-- frame/Frame.go:681-688, 732-762: the groups of a pass, from `group` on. -/
def readVarGroups (h : ImageHeader) (f : FrameHeader) (l : Layout) (toc : TOC) (readers : List SectionReader) (g : VarGlobal) (lfgs : List (VarLFGroup α)) (presets : Nat)
    (passes : List HFPass) (sh : Nat × Nat) (pass : Nat) : Nat → Nat → Rd (List (Option (VarGroup α)))
  | 0, _ => Pure.pure []
  | n + 1, group => do
    let a ← orEmpty (readVarGroup h f l toc readers g lfgs presets passes sh pass group)
    let rest ← readVarGroups h f l toc readers g lfgs presets passes sh pass n (group + 1)
    Pure.pure (a :: rest)

/-- frame/Frame.go:732-762: the passes from `pass` on. -/
def readVarPasses (h : ImageHeader) (f : FrameHeader) (l : Layout) (toc : TOC) (readers : List SectionReader) (g : VarGlobal) (lfgs : List (VarLFGroup α)) (presets : Nat)
    (passes : List HFPass) : List (Nat × Nat) → Nat → Rd (List (List (Option (VarGroup α))))
  | [], _ => Pure.pure []
  | sh :: shs, pass => do
    let a ← readVarGroups h f l toc readers g lfgs presets passes sh pass l.numGroups 0
    let rest ← readVarPasses h f l toc readers g lfgs presets passes shs (pass + 1)
    Pure.pure (a :: rest)

/-! ## Samples -/

/-- The tables and functions that the code computes in floating point, and what is left in the memory that a group uses: coefficients (frame/HFCoefficients.go:66-72), scratch of the low
frequencies (frame/HFCoefficients.go:415-420), scratch of the transforms (frame/PassGroup.go:124-130), by pass and group.
The last part is what the filters need. -/
structure VarParts (α : Type) where
  lut : List (List (List α))
  basis : List (List α)
  scale : Nat → Nat → α
  pow : Nat → α
  quant : QuantFuncs α
  scratchLF : Nat → Nat → List (List α) × List (List α)
  scratch : Nat → Nat → Scratch α
  filters : FilterParts α

/-- colour/OpsinInverseMatrix.go:17-18, 60-90: the biases of quantized coefficients. -/
def quantBiases (h : ImageHeader) : List ℚ :=
  match h.opsin with
  | none => [1 - 5465007330715401 / 10 ^ 17, 1 - 7005449891748593 / 10 ^ 17, 1 - 49935103337343655 / 10 ^ 18]
  | some l => (l.drop 12).take 3

/-- colour/OpsinInverseMatrix.go:17-18, 60-90: the numerator of the correction of larger coefficients. -/
def quantNumerator (h : ImageHeader) : ℚ :=
  match h.opsin with
  | none => 145 / 1000
  | some l => l.getD 15 0

/-- frame/HFCoefficients.go:334-352: the factors of luma in the other channels. -/
def cflOf (g : VarGlobal) (lfg : VarLFGroup α) : CflParams α :=
  ⟨Arith.lit g.corr.baseX, Arith.lit g.corr.baseB, Arith.lit 1 / Arith.lit (g.corr.colorFactor : Rat), lfg.hfX, lfg.hfB⟩

/-- frame/HFCoefficients.go:66-72: the planes for the coefficients of a group. -/
def blankCoeffs (f : FrameHeader) (a : Area) : List (List (List α)) :=
  (f.jpegY.zip f.jpegX).map fun u => List.replicate (a.height >>> u.1) (List.replicate (a.width >>> u.2) (Arith.lit 0))

/-- frame/PassGroup.go:108-270 `invertVarDCT` with `bakeDequantizedCoeffs`: one group of a pass. -/
def invertVarGroup (V : VarParts α) (h : ImageHeader) (f : FrameHeader) (l : Layout) (g : VarGlobal) (weights : List (List (List (List α)))) (pass group : Nat) (vg : VarGroup α)
    (fb : List (List (List α))) : Res (List (List (List α))) := do
  let gpos := (vg.pos.1.toNat, vg.pos.2.toNat)
  let ups := f.jpegY.zip f.jpegX
  let blocks ← groupQBlocks gpos vg.lfg.cells vg.lfg.points
  let dq ← bakeDequantizedCoeffs V.lut V.scale weights (scaleFactors V.pow g.globalScale f.xqm f.bqm) ((quantBiases h).map Arith.lit) (Arith.lit (quantNumerator h)) (cflOf g vg.lfg)
    vg.coeffs vg.lfg.lf ups gpos blocks (blankCoeffs f vg.area) (V.scratchLF pass group)
  let loc ← gridLocation l.groupRowStride group
  let r ← invertVarDCT V.lut V.basis (decide (0 < pass)) dq ups (loc.1.toNat, loc.2.toNat) (blocks.map QBlock.toVBlock) fb (V.scratch pass group)
  .ok r.1

/-- frame/Frame.go:798-823: the groups of a pass, from `group` on. A group that was not read has no coefficients. -/
def invertVarGroups (V : VarParts α) (h : ImageHeader) (f : FrameHeader) (l : Layout) (g : VarGlobal) (weights : List (List (List (List α)))) (pass : Nat) :
    List (Option (VarGroup α)) → Nat → List (List (List α)) → Res (List (List (List α)))
  | [], _, fb => .ok fb
  | none :: _, _, _ => .panic
  | some vg :: rest, group, fb => do
    let fb ← invertVarGroup V h f l g weights pass group vg fb
    invertVarGroups V h f l g weights pass rest (group + 1) fb

/-- frame/Frame.go:798-823: the passes. -/
def invertVarPasses (V : VarParts α) (h : ImageHeader) (f : FrameHeader) (l : Layout) (g : VarGlobal) (weights : List (List (List (List α)))) :
    List (List (Option (VarGroup α))) → Nat → List (List (List α)) → Res (List (List (List α)))
  | [], _, fb => .ok fb
  | gs :: rest, pass, fb => do
    let fb ← invertVarGroups V h f l g weights pass gs 0 fb
    invertVarPasses V h f l g weights rest (pass + 1) fb

/-! ## The frame -/

/-- frame/Frame.go:1101-1115: the inverse sigma of a block of 8 by 8 pixels. -/
def blockSigma (globalScale : Int) (sharp : List ℚ) (quantMul : ℚ) (stride : Nat) (lfgs : List (VarLFGroup α)) (y x : Nat) : Res α := do
  let lfg ← idx lfgs (((y >>> 8) * stride + (x >>> 8) : Nat) : Int)
  let hf ← at2 lfg.cells.hfMultiplier ((y - (y >>> 8) <<< 8 : Nat) : Int) ((x - (x >>> 8) <<< 8 : Nat) : Int)
  let sh ← at2 lfg.sharpness ((y - (y >>> 8) <<< 8 : Nat) : Int) ((x - (x >>> 8) <<< 8 : Nat) : Int)
  if sh < 0 ∨ 7 < sh then .err
  else do
    let v ← idx sharp sh
    .ok (Arith.lit 1 / (Arith.lit 65536 / Arith.lit (globalScale : ℚ) * (Arith.lit v * Arith.lit quantMul) / Arith.lit (hf : ℚ)))

/-- frame/Frame.go:1080-1086, 1097-1117: the inverse sigmas of a VarDCT frame. The table for the sharpness is multiplied when the header is read (frame/RestorationFilter.go:182-184). -/
def varSigmas (f : FrameHeader) (l : Layout) (g : VarGlobal) (lfgs : List (VarLFGroup α)) : Res (List (List α)) := do
  let padded ← paddedFrameSize f
  tabulate (blockSigma g.globalScale f.restoration.sharp f.restoration.quantMul l.lfGroupRowStride lfgs) ((padded.width + 7) >>> 3) ((padded.height + 7) >>> 3) 0

/-- frame/Frame.go:380-415, 727-834 for a VarDCT frame: what follows the global section. `fb` are the planes of the colours. The result: their samples, the channels of the global stream, and the LF groups. -/
def decodeVarGroups (V : VarParts α) (h : ImageHeader) (f : FrameHeader) (l : Layout) (toc : TOC) (readers : List SectionReader) (padded : Dim) (g : VarGlobal)
    (lfBuffer fb : List (List (List α))) : Rd (List (List (List α)) × List MChan × List (VarLFGroup α)) := do
  let lfs ← readVarLFGroups h f l toc readers padded g lfBuffer l.numLFGroups 0
  let lfs ← Rd.lift (allRead lfs)
  let rest ← Rd.lift (pasteLF (lfs.map VarLFGroup.stream) g.stream.rest g.stream.done.length)
  let hf ← onSection toc readers (1 + l.numLFGroups) (readHFSection V.quant h f l g)
  let shs ← Rd.lift (passShifts f.passes f.passes.numPasses 0 3)
  let groups ← readVarPasses h f l toc readers g lfs hf.1.2 hf.2 shs 0
  let rest ← Rd.lift (pastePasses shs (groups.map fun gs => gs.map fun a => a.map VarGroup.stream) rest)
  let fb ← Rd.lift (invertVarPasses V h f l g hf.1.1 groups 0 fb)
  let chs ← Rd.lift (applyTransforms h.bitDepth.bits g.stream.steps (g.stream.done ++ rest))
  Pure.pure (fb, chs, lfs)

end

/-- frame/Frame.go:324-479 `DecodeFrame` for a VarDCT frame; `A` is the arithmetic of `float32`. -/
def decodeVarDCTFrame (A : Arith F32) (V : VarParts F32) (P : FrameParts) (I : FloatImpl) (h : ImageHeader) (f : FrameHeader) (l : Layout) (toc : TOC) (lfBuffer : List (List (List F32))) :
    Rd (List ImageBuffer) := do
  let readers ← setupBitReaders toc
  let g ← onSection toc readers 0 (readVarGlobal h f)
  let padded ← Rd.lift (paddedFrameSize f)
  let bufs ← Rd.lift (framePlanes h f)
  let r ← @decodeVarGroups F32 A V h f l toc readers padded g lfBuffer ((bufs.take 3).map ImageBuffer.floats)
  let bufs ← Rd.lift (storeModular I h f (g.dequant.map F32.fin) (r.2.1.map fun c => c.buffer) (putFloats r.1 bufs))
  Rd.lift (finishPlanes { P with filters := runFilters A V.filters (@varSigmas F32 A f l g r.2.2) } h f bufs)

/-- The decoder with the model of VarDCT frames. -/
def FrameParts.withVarDCT (P : FrameParts) (A : Arith F32) (V : VarParts F32) (I : FloatImpl) (lfBuffer : List (List (List F32))) : FrameParts :=
  { P with vardct := fun h f toc => do
      let l ← Rd.lift (frameLayout f)
      decodeVarDCTFrame A V P I h f l toc lfBuffer }

end Jxl
