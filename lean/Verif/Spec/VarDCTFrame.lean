import Verif.Model.VarDCTFrame
import Verif.Spec.ModularCoding
import Verif.Spec.CoefficientCoding
import Verif.Spec.GroupBlocks
import Verif.Spec.HFGlobal
import Verif.Spec.Dequant
import Verif.Spec.VarDCT
import Verif.Spec.Orders
import Verif.Spec.Lehmer
import Verif.Spec.LFCoefficients
import Verif.Spec.Filters

/-!
# Specification: how VarDCT frames are written

From ISO/IEC 18181-1. Of the decoder, only its data structures are used. Frames with one pass, without subsampling or LF frame; the side of a group is 256.
-/
namespace Jxl
open Spec

/-! ## Block contexts -/

/-- A signed number: even numbers are halved, odd ones are negative. -/
def signed (t : Nat) : Int := if t % 2 = 0 then ((t / 2 : Nat) : Int) else -(((t + 1) / 2 : Nat) : Int)

/-- A threshold for quantized LF samples. Larger ones are left out (`unpackSigned`, C16). -/
def decThreshold : Dec Int := do
  let t ← decU32 fun k => match k with | 0 => (0, 4) | 1 => (16, 8) | 2 => (272, 16) | 3 => (65808, 32)
  let t ← decCheck (decide (t < 2 ^ 31)) t
  return signed t

/-- The thresholds of a channel. -/
def decThresholds : Dec (List Int) := do
  let n ← decBits 4
  decList decThreshold n

/-- A threshold for the multipliers of blocks. -/
def decMulThreshold : Dec Int := do
  let t ← decU32 fun k => match k with | 0 => (0, 2) | 1 => (4, 3) | 2 => (12, 5) | 3 => (44, 8)
  return (t : Int) + 1

/-- A table of clusters written with a fixed number of bits for every entry; the highest entry is 15 at most. -/
def decFixedMap (n : Nat) : Dec (List Nat) := do
  let simple ← decBool
  let _ ← decCheck simple ()
  let w ← decBits 2
  decList (decBits w) n

/-- The table of block contexts that is used by default. -/
def defaultContexts : List Int := [0, 1, 2, 2, 3, 3, 4, 5, 6, 6, 6, 6, 6, 7, 8, 9, 9, 10, 11, 12, 13, 14, 14, 14, 14, 14, 7, 8, 9, 9, 10, 11, 12, 13, 14, 14, 14, 14, 14]

/-- `HfBlockContext`: by default, or thresholds for X, Y and B, thresholds for the multipliers, and a table with a fixed number of bits for every entry. -/
def decHFContext : Dec HFBlockContext := do
  let dflt ← decBool
  if dflt then return ⟨[[], [], []], defaultContexts, 15, [], 1⟩
  else do
    let tx ← decThresholds
    let ty ← decThresholds
    let tb ← decThresholds
    let n ← decBits 4
    let qf ← decList decMulThreshold n
    let lf := (tx.length + 1) * (ty.length + 1) * (tb.length + 1)
    let _ ← decCheck (decide (39 * (n + 1) * lf ≤ 39 * 64)) ()
    let m ← decFixedMap (39 * (n + 1) * lf)
    return ⟨[tx, ty, tb], m.map Int.ofNat, ((m.foldl max 0 + 1 : Nat) : Int), qf, (lf : Int)⟩

/-! ## Frames -/

/-- The number of groups and of LF groups. -/
def varGroups (f : FrameHeader) : Nat := groupsAcross 256 f.size.width * groupsAcross 256 f.size.height
def varLFGroups (f : FrameHeader) : Nat := groupsAcross 2048 f.size.width * groupsAcross 2048 f.size.height

/-- The rows and columns of blocks of 8 by 8 pixels of LF group `i`. -/
def lfRows (f : FrameHeader) (i : Nat) : Nat := min 256 ((f.size.height + 7) / 8 - 256 * (i / groupsAcross 2048 f.size.width))
def lfCols (f : FrameHeader) (i : Nat) : Nat := min 256 ((f.size.width + 7) / 8 - 256 * (i % groupsAcross 2048 f.size.width))

/-- The LF group of group `g`, and the place of the group in it. -/
def lfGroupOf (f : FrameHeader) (g : Nat) : Nat :=
  g / groupsAcross 256 f.size.width / 8 * groupsAcross 2048 f.size.width + g % groupsAcross 256 f.size.width / 8
def placeInLF (f : FrameHeader) (g : Nat) : Nat × Nat := (g / groupsAcross 256 f.size.width % 8, g % groupsAcross 256 f.size.width % 8)

/-- How the extra channels of a VarDCT frame are coded: the header of their modular stream, the channels that its transforms make of them, the first of which are palettes; and their samples,
by channel, row and column. -/
structure CodedExtra where
  header : ModHeader
  palettes : Nat
  enc : List MChan
  v : Nat → Nat → Nat → Int

/-- No extra channels. -/
def CodedExtra.none : CodedExtra := ⟨⟨false, ⟨16, 10, 7, 7, 7, 0, 0, [13, 12, 12, 12]⟩, []⟩, 0, [], fun _ _ _ => 0⟩

/-- What is coded in a VarDCT frame. `lf`, `blocks` (last one first), `hfX`, `hfB`, `sharpness` and `extra` are given by LF group, `q` and `preset` by group. -/
structure CodedFrame where
  dequant : List ℚ
  globalScale : Int
  quantLF : Int
  ctx : HFBlockContext
  corr : LFCorrelation
  tree : GlobalTree
  params : List DCTParam
  presets : Nat
  orders : List (List (List Point))
  codes : ES
  extra : Nat → Nat
  lf : Nat → Nat → Nat → Nat → Int
  blocks : Nat → List Block
  hfX : Nat → Nat → Nat → Int
  hfB : Nat → Nat → Nat → Int
  sharpness : Nat → Nat → Nat → Int
  preset : Nat → Nat
  q : Nat → Nat → Nat → Nat → Int
  channels : CodedExtra := .none

/-- The channels of which the groups have the parts: those that the global stream leaves. -/
def CodedFrame.rest (F : CodedFrame) : List MChan := F.channels.enc.drop (globalCount 256 F.channels.palettes F.channels.enc)

/-- The interval of the LF samples at a place of an LF group. -/
def CodedFrame.lfContext (F : CodedFrame) (i y x : Nat) : Int :=
  let t := fun c => F.ctx.lfThresholds.getD c []
  (((below (t 0) (F.lf i 0 y x) : Int) * (((t 2).length : Int) + 1) + below (t 2) (F.lf i 2 y x)) * (((t 1).length : Int) + 1) + below (t 1) (F.lf i 1 y x))

/-- The blocks of a group, in the order in which they are coded. -/
def CodedFrame.groupBlocks (F : CodedFrame) (f : FrameHeader) (g : Nat) : List Block := (F.blocks (lfGroupOf f g)).reverse.filter fun b => b.inGroup (placeInLF f g)

/-- A block, with its place in its group. -/
def CodedFrame.hfBlock (F : CodedFrame) (f : FrameHeader) (g : Nat) (b : Block) : HFBlock :=
  ⟨((b.y - 32 * (placeInLF f g).1 : Nat) : Int), ((b.x - 32 * (placeInLF f g).2 : Nat) : Int), b.tt, b.mul, F.lfContext (lfGroupOf f g) b.y b.x⟩

/-- A channel of a modular stream. -/
def planeChannel (rows cols : Nat) (v : Nat → Nat → Int) : MChan := ⟨⟨cols, rows, 0, 0, false, tab rows cols v⟩, []⟩

/-- The types of the blocks in the first row, their multipliers minus 1 in the second one. -/
def blockRows (l : List Block) (y x : Nat) : Int :=
  match l[x]? with
  | some b => if y = 0 then b.type else b.mul - 1
  | none => 0

/-- The global section: factors, quantizer, block contexts, correlation, tree. -/
def VarGlobalAt (F : CodedFrame) (data : List UInt8) (p q : Nat) : Prop :=
  ∃ p1 p2 p3 p4, DecAt decLFDequant data p p1 F.dequant ∧ DecAt decQuantizer data p1 p2 (F.globalScale, F.quantLF) ∧ DecAt decHFContext data p2 p3 F.ctx ∧
    DecAt decLFCorrelation data p3 p4 F.corr ∧ GlobalTreeAt data p4 q F.tree

/-- The section of an LF group: LF samples (Y, X, B), number of blocks, and a stream of four channels: the factors of X and B, the blocks, the sharpness. -/
def LFGroupAt (bitDepth : Nat) (F : CodedFrame) (f : FrameHeader) (i : Nat) (data : List UInt8) (p q : Nat) : Prop :=
  ∃ (p1 p2 p3 : Nat) (hd1 hd2 : ModHeader) (m1 m2 : Nat) (enc1 enc2 : List MChan),
    DecAt (decBits 2) data p p1 (F.extra i) ∧
    StreamAt bitDepth F.tree (1 + i) data p1 p2 hd1 [planeChannel (lfRows f i) (lfCols f i) (F.lf i 1), planeChannel (lfRows f i) (lfCols f i) (F.lf i 0),
      planeChannel (lfRows f i) (lfCols f i) (F.lf i 2)] m1 enc1 enc1.length ∧
    DecAt (decBits (Nat.clog 2 (lfRows f i * lfCols f i))) data p2 p3 ((F.blocks i).length - 1) ∧
    StreamAt bitDepth F.tree (1 + 2 * varLFGroups f + i) data p3 q hd2 [planeChannel ((lfRows f i + 7) / 8) ((lfCols f i + 7) / 8) (F.hfX i),
      planeChannel ((lfRows f i + 7) / 8) ((lfCols f i + 7) / 8) (F.hfB i), planeChannel 2 (F.blocks i).length (blockRows (F.blocks i).reverse),
      planeChannel (lfRows f i) (lfCols f i) (F.sharpness i)] m2 enc2 enc2.length

/-- The parameters of the quantization matrices: all default, or one after the other. -/
def decParams : Nat → Nat → Dec (List DCTParam)
  | 0, _ => return []
  | n + 1, i => do
    let p ← decParam i
    let ps ← decParams n (i + 1)
    return p :: ps

def decHFParams : Dec (List DCTParam) := do
  let dflt ← decBool
  if dflt then return defaultParams else decParams 17 0

/-! ## Orders -/

/-- The context of a number `x`: its length in bits, 7 at most. -/
def lengthContext (x : Nat) : Int := ((min 7 (Nat.clog 2 (x + 1)) : Nat) : Int)

/-- The numbers that are written for a permutation `p` of `size` positions of which the first `skip` are fixed: the number `n` of entries of its Lehmer code that follow (the others are zero), and
the entries. The context of an entry is that of the entry before. -/
def permutationNumbers (size skip n : Nat) (p : List Nat) : List (Int × Nat) :=
  let code := ((lehmerEncode (List.range size) p).drop skip).take n
  (lengthContext size, n) :: ((0 :: code).map lengthContext).zip code

/-- A permutation that can be written with `n` entries. -/
structure Writes (size skip n : Nat) (p : List Nat) : Prop where
  count : skip + n ≤ size
  perm : p.Perm (List.range size)
  fixed : ∀ i : Nat, i < skip → p[i]? = some i
  zeros : ∀ i k : Nat, skip + n ≤ i → (lehmerEncode (List.range size) p)[i]? = some k → k = 0

/-- The orders of the 13 classes and three channels: the natural ones of classes whose bit in `used` is not set, the others permuted. `n` and `perm` are given by class and channel. -/
structure HasOrders (used : Nat) (natural : Nat → List Point) (n : Nat → Nat → Nat) (perm : Nat → Nat → List Nat) (orders : List (List (List Point))) : Prop where
  classes : ∀ b size, classSizes[b]? = some size → IsNatural size.1 size.2 (natural b)
  perms : ∀ b c, b < 13 → c < 3 → used.testBit b = true → Writes (natural b).length ((natural b).length / 64) (n b c) (perm b c)
  eq : orders = (List.range 13).map fun (b : Nat) => (List.range 3).map fun (c : Nat) =>
    if used.testBit b then (perm b c).map fun (i : Nat) => (natural b).getD i ⟨0, 0⟩ else natural b

/-- The bits from `p` to `q` describe orders: nothing if all are natural, or codes for 8 contexts and the permutations. -/
def OrdersAt (data : List UInt8) (p q used : Nat) (orders : List (List (List Point))) : Prop :=
  ∃ natural n perm, HasOrders used natural n perm orders ∧
    ((used = 0 ∧ q = p) ∨ (used ≠ 0 ∧ ∃ es p1, CodesAt data p p1 8 es ∧ NumbersAt data p1 q es 0 ((List.range 13).flatMap fun (b : Nat) => (List.range 3).flatMap fun (c : Nat) =>
      if used.testBit b then permutationNumbers (natural b).length ((natural b).length / 64) (n b c) (perm b c) else [])))

/-- The bits from `p` to `q` describe the orders and the codes of a pass: a number whose bits say which orders are not natural, the orders, the codes. -/
def PassAt (data : List UInt8) (p q presets clusters : Nat) (orders : List (List (List Point))) (codes : ES) : Prop :=
  ∃ used p1 p2, DecAt (decU32 fun k => match k with | 0 => (0x5F, 0) | 1 => (0x13, 0) | 2 => (0, 0) | 3 => (0, 13)) data p p1 used ∧ OrdersAt data p1 p2 used orders ∧
    CodesAt data p2 q (495 * clusters * presets) codes

/-- The section after those of the LF groups: matrices, number of presets, orders and codes. -/
def HFSectionAt (F : CodedFrame) (f : FrameHeader) (data : List UInt8) (p q : Nat) : Prop :=
  ∃ p1 p2, DecAt decHFParams data p p1 F.params ∧ DecAt (decBits (Nat.clog 2 (varGroups f))) data p1 p2 (F.presets - 1) ∧ PassAt data p2 q F.presets F.ctx.numClusters.toNat F.orders F.codes

/-- The section of a group: the number of its preset, and its coefficients. -/
def CoeffsAt (F : CodedFrame) (f : FrameHeader) (g : Nat) (data : List UInt8) (p q : Nat) : Prop :=
  ∃ p1, DecAt (decBits (Nat.clog 2 F.presets)) data p p1 (F.preset g) ∧
    NumbersAt data p1 q F.codes 0 ((groupSymbols F.ctx F.orders (fun _ => 0) (fun _ => 0) (F.q g) ((F.groupBlocks f g).map (F.hfBlock f g)) (fun _ _ _ => 0)).map
      fun t => (((495 * F.ctx.numClusters.toNat * F.preset g + t.1 : Nat) : Int), t.2))

/-- The global stream of the extra channels, if there are some: the channels up to the first that is larger than a group. -/
def ExtraAt (h : ImageHeader) (f : FrameHeader) (F : CodedFrame) (data : List UInt8) (p q : Nat) : Prop :=
  if h.extra.length = 0 then F.channels.enc = [] ∧ q = p
  else StreamAt h.bitDepth.bits F.tree 0 data p q F.channels.header (imageChannels h.extra.length f.size F.channels.v) F.channels.palettes F.channels.enc
    (globalCount 256 F.channels.palettes F.channels.enc)

/-- The stream of a group codes the parts of the channels `chs` in the group, with colour transforms or palettes of one channel or none (compare `GroupAt`). -/
def TilesAt (bitDepth stride : Nat) (tree : GlobalTree) (index : Nat) (data : List UInt8) (p q id : Nat) (chs : List MChan) : Prop :=
  (chs = [] ∧ q = p) ∨ chs ≠ [] ∧ ∃ (tiles enc : List MChan) (hd : ModHeader) (m : Nat), List.Forall₂ (IsTile 256 stride id) chs tiles ∧
    (∀ t ∈ hd.transforms, t.tr = 0 ∨ t.tr = 1 ∧ t.numC = 1) ∧ StreamAt bitDepth tree index data p q hd tiles m enc enc.length

/-- The sections of a VarDCT frame. Section `i` is in the bits from `start i` to `stop i` of `data i`. Channels that have been halved three times or more are left out, as in `SectionsAt`. -/
structure VarDCTAt (h : ImageHeader) (F : CodedFrame) (f : FrameHeader) (data : Nat → List UInt8) (start stop : Nat → Nat) : Prop where
  global : ∃ p, VarGlobalAt F (data 0) (start 0) p ∧ ExtraAt h f F (data 0) p (stop 0)
  channels : ∀ c ∈ F.rest, OnGroups 256 (groupsAcross 256 f.size.width) (groupsAcross 256 f.size.height) c ∧ min c.hshift c.vshift < 3
  range : ∀ c y x, c < h.extra.length → y < f.size.height → x < f.size.width → |F.channels.v c y x| < 2 ^ 24
  lf : ∀ i, i < varLFGroups f → LFGroupAt h.bitDepth.bits F f i (data (1 + i)) (start (1 + i)) (stop (1 + i))
  hf : HFSectionAt F f (data (1 + varLFGroups f)) (start (1 + varLFGroups f)) (stop (1 + varLFGroups f))
  groups : ∀ g, g < varGroups f → ∃ p, CoeffsAt F f g (data (2 + varLFGroups f + g)) (start (2 + varLFGroups f + g)) p ∧
    TilesAt h.bitDepth.bits (groupsAcross 256 f.size.width) F.tree (groupStreamIndex (varLFGroups f) (varGroups f) 0 g) (data (2 + varLFGroups f + g)) p (stop (2 + varLFGroups f + g)) g F.rest

/-- The place (`y`, `x`) of a group is a coefficient of high frequency of the block `b`; `g` is the place of the group in its LF group. -/
def Spec.Block.HasHigh (b : Block) (g : Nat × Nat) (y x : Nat) : Prop :=
  ∃ dy dx, y = 8 * (b.y - 32 * g.1) + dy ∧ x = 8 * (b.x - 32 * g.2) + dx ∧ dy < 8 * b.rows ∧ dx < 8 * b.cols ∧ ¬(dy < b.rows ∧ dx < b.cols)

/-- What encoders write: blocks that keep to groups and tiles, coefficients only where blocks have some, numbers in their ranges. Left out are what the decoder computes in 32 bits
(`C71_steps_fails`, `C71_factor_fails`), and blocks of the type DCT 4×4 (`C49`). -/
structure CodedFrame.Ok (F : CodedFrame) (f : FrameHeader) : Prop where
  blocks : ∀ i, i < varLFGroups f → Tiled (lfRows f i) (lfCols f i) (F.blocks i) ∧ ∀ b ∈ F.blocks i, b.type ≠ 3
  quantizer : 0 < F.globalScale * F.quantLF ∧ F.globalScale * F.quantLF < 2 ^ 31
  corr : (128 ≤ F.corr.xFactorLF ∧ F.corr.xFactorLF < 256) ∧ 128 ≤ F.corr.bFactorLF ∧ F.corr.bFactorLF < 256
  presets : 0 < F.presets ∧ 495 * F.ctx.numClusters * F.presets < 2 ^ 31 ∧ ∀ g, g < varGroups f → F.preset g < F.presets
  range : ∀ g c y x, -2 ^ 30 ≤ F.q g c y x ∧ F.q g c y x < 2 ^ 30
  support : ∀ g c y x, g < varGroups f → c < 3 → F.q g c y x ≠ 0 → ∃ b ∈ F.groupBlocks f g, b.HasHigh (placeInLF f g) y x
  sharpness : 0 < f.restoration.iterations → ∀ i y x, i < varLFGroups f → y < lfRows f i → x < lfCols f i → 0 ≤ F.sharpness i y x ∧ F.sharpness i y x ≤ 7

/-- A VarDCT frame with one stated pass and groups of side 256; no subsampling, no LF frame, no patches, splines or noise. The exponents
of the factors of X and B are not negative (`C69_scale_fails`). Extra channels have integer samples and the size of the frame. -/
structure PlainVarDCT (h : ImageHeader) (f : FrameHeader) : Prop where
  framed : Framed f
  small : f.size.height ≤ 2 ^ 30 ∧ f.size.width ≤ 2 ^ 30
  groups : f.groupDim = 256
  encoding : f.encoding = 0
  passes : f.passes = onePass
  extra : ∀ e ∈ h.extra, e.bitDepth.expBits = 0 ∧ e.dimShift = 0
  opsin : ∀ l, h.opsin = some l → l.length = 16
  jpegX : f.jpegX = [0, 0, 0]
  jpegY : f.jpegY = [0, 0, 0]
  filtered : (f.restoration.gab = true ∨ 0 < f.restoration.iterations) → f.size.height + 8 ≤ 2 ^ 30
  restoration : f.restoration.gab1.length = 3 ∧ f.restoration.gab2.length = 3 ∧ f.restoration.channelScale.length = 3 ∧ f.restoration.sharp.length = 8
  scales : (2 ≤ f.xqm ∧ f.xqm < 8) ∧ 2 ≤ f.bqm ∧ f.bqm < 8
  flags : f.flags.testBit 0 = false ∧ f.flags.testBit 1 = false ∧ f.flags.testBit 4 = false ∧ f.flags.testBit 5 = false

section
variable {α : Type} [Arith α]

/-- The LF samples of an LF group. -/
def CodedFrame.lfGroup (F : CodedFrame) (i : Nat) : LFGroup α where
  q := F.lf i
  step c := (lfSteps F.globalScale F.quantLF F.dequant).getD c (Arith.lit 0)
  extra := F.extra i
  kX := lfLuma (Arith.lit F.corr.baseX) F.corr.xFactorLF F.corr.colorFactor
  kB := lfLuma (Arith.lit F.corr.baseB) F.corr.bFactorLF F.corr.colorFactor

/-- The LF samples of an LF group with smoothing, unless the header says that there is none. Smoothing is what the code does, not what the format says (`C72_fails`). -/
def CodedFrame.lfSamples (F : CodedFrame) (f : FrameHeader) (i : Nat) : Nat → Nat → Nat → α :=
  if f.flags.testBit 7 then (F.lfGroup i).sample else codeSmoothed (lfRows f i) (lfCols f i) (F.lfGroup i).sample (F.lfGroup i).step

/-- The biases of quantized coefficients, and the numerator of the correction of larger ones. -/
def biasOf (h : ImageHeader) (c : Nat) : ℚ :=
  match h.opsin with
  | none => [1 - 5465007330715401 / 10 ^ 17, 1 - 7005449891748593 / 10 ^ 17, 1 - 49935103337343655 / 10 ^ 18].getD c 0
  | some l => l.getD (12 + c) 0

def numeratorOf (h : ImageHeader) : ℚ :=
  match h.opsin with
  | none => 145 / 1000
  | some l => l.getD 15 0

/-- What is known about a group when its samples are computed. `weights` are the quantization matrices; `pow e` is 0.8 to the power of `e`. -/
def CodedFrame.group (F : CodedFrame) (h : ImageHeader) (f : FrameHeader) (pow : Nat → α) (weights : List (List (List (List α)))) (g : Nat) : CodedGroup α where
  weight i c y x := (sample ((weights.getD i []).getD c []) y x).getD (Arith.lit 0)
  factor c := if c = 0 then Arith.lit 65536 / Arith.lit (F.globalScale : ℚ) * pow (f.xqm - 2)
    else if c = 2 then Arith.lit 65536 / Arith.lit (F.globalScale : ℚ) * pow (f.bqm - 2) else Arith.lit 65536 / Arith.lit (F.globalScale : ℚ)
  bias c := Arith.lit (biasOf h c)
  numerator := Arith.lit (numeratorOf h)
  q := F.q g
  lf := F.lfSamples f (lfGroupOf f g)
  baseX := Arith.lit F.corr.baseX
  baseB := Arith.lit F.corr.baseB
  inv := Arith.lit 1 / Arith.lit (F.corr.colorFactor : ℚ)
  hfX := F.hfX (lfGroupOf f g)
  hfB := F.hfB (lfGroupOf f g)

/-- The group of a block of LF group `i`. -/
def groupOfBlock (f : FrameHeader) (i : Nat) (b : Block) : Nat :=
  (8 * (i / groupsAcross 2048 f.size.width) + b.y / 32) * groupsAcross 256 f.size.width + (8 * (i % groupsAcross 2048 f.size.width) + b.x / 32)

/-- The samples of a block of LF group `i` in channel `c`: the inverse transform of its coefficients. `cos`, `B` and `scale` are the tables of the transforms. -/
def CodedFrame.samplesOf (F : CodedFrame) (h : ImageHeader) (f : FrameHeader) (cos : Nat → Nat → Nat → α) (B : Nat → Nat → α) (scale : Nat → Nat → α) (pow : Nat → α)
    (weights : List (List (List (List α)))) (i : Nat) (b : Block) (c : Nat) : Nat → Nat → α :=
  blockSamples cos B b.tt false false
    ((F.group h f pow weights (groupOfBlock f i b)).formatCoeff cos scale (32 * (b.y / 32), 32 * (b.x / 32)) (b.y, b.x) c b.tt b.mul)

/-- The planes of X, Y and B of a frame: whole blocks, with the samples that have been coded. LF groups have 2048 by 2048 pixels. -/
def CodedFrame.ShownIn (F : CodedFrame) (h : ImageHeader) (f : FrameHeader) (cos : Nat → Nat → Nat → α) (B : Nat → Nat → α) (scale : Nat → Nat → α) (pow : Nat → α)
    (weights : List (List (List (List α)))) (planes : List (List (List α))) : Prop :=
  planes.length = 3 ∧ ∀ (c : Nat) plane, planes[c]? = some plane → Table (8 * ((f.size.height + 7) / 8)) (8 * ((f.size.width + 7) / 8)) plane ∧
    ∀ i, i < varLFGroups f → ∀ b ∈ F.blocks i,
      HasBlock (2048 * (i / groupsAcross 2048 f.size.width) + 8 * b.y) (2048 * (i % groupsAcross 2048 f.size.width) + 8 * b.x) (8 * b.rows) (8 * b.cols)
        (F.samplesOf h f cos B scale pow weights i b c) plane

/-! ## Filters -/

/-- `s y x` is the inverse of sigma for the 8 by 8 pixels at row `y` and column `x` of blocks, from the multiplier of the block that covers them and their sharpness. -/
def CodedFrame.HasSigmas (F : CodedFrame) (f : FrameHeader) (s : Nat → Nat → α) : Prop :=
  ∀ i, i < varLFGroups f → ∀ b ∈ F.blocks i, ∀ y x, b.Covers y x →
    s (256 * (i / groupsAcross 2048 f.size.width) + y) (256 * (i % groupsAcross 2048 f.size.width) + x) =
      Arith.lit 1 / (Arith.lit 65536 / Arith.lit (F.globalScale : ℚ) * (Arith.lit (f.restoration.sharp.getD (F.sharpness i y x).toNat 0) * Arith.lit f.restoration.quantMul) / Arith.lit (b.mul : ℚ))

/-- The planes after Gaborish, if the header asks for it. -/
def gaborished (f : FrameHeader) (h w : Nat) (p : Nat → Nat → Nat → α) : Nat → Nat → Nat → α := fun c y x =>
  if f.restoration.gab then gabValue (Arith.lit (f.restoration.gab1.getD c 0)) (Arith.lit (f.restoration.gab2.getD c 0)) h w (p c) y x else p c y x

/-- The passes of the edge-preserving filter. -/
def filterPasses : Nat → List Nat
  | 0 => []
  | 1 => [1]
  | 2 => [1, 2]
  | _ => [0, 1, 2]

/-- The scale of sigma in a pass; `step` is the scale of the pass in the middle. -/
def passScale (f : FrameHeader) (step : α) : Nat → α
  | 0 => step * Arith.lit f.restoration.pass0
  | 2 => step * Arith.lit f.restoration.pass2
  | _ => step

/-- `after` are the planes of X, Y and B that the filters make of `before`. -/
def CodedFrame.Filtered (F : CodedFrame) (f : FrameHeader) (step : α) (before after : List (List (List α))) : Prop :=
  ∃ (p : Nat → Nat → Nat → α) (s : Nat → Nat → α), (0 < f.restoration.iterations → F.HasSigmas f s) ∧
    Planes (fun _ => 8 * ((f.size.height + 7) / 8)) (fun _ => 8 * ((f.size.width + 7) / 8)) p before ∧
    Planes (fun _ => 8 * ((f.size.height + 7) / 8)) (fun _ => 8 * ((f.size.width + 7) / 8))
      (epfAll 3 (8 * ((f.size.height + 7) / 8)) (8 * ((f.size.width + 7) / 8)) (fun c => Arith.lit (f.restoration.channelScale.getD c 0)) (Arith.lit f.restoration.borderSad) s (passScale f step)
        (filterPasses f.restoration.iterations) (gaborished f (8 * ((f.size.height + 7) / 8)) (8 * ((f.size.width + 7) / 8)) p)) after

end

end Jxl
