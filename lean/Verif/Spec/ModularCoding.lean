import Verif.Model.ModularFrame
import Verif.Spec.ImageHeader
import Verif.Spec.Transforms
import Verif.Spec.ModularStream
import Verif.Spec.TreeCoding
import Verif.Spec.Groups
import Verif.Spec.LFCoefficients
import Verif.Spec.FrameHeader
import Verif.Spec.Filters

/-!
# Specification: how modular streams and modular frames are written

From ISO/IEC 18181-1. Of the decoder, only its data structures are used.
-/
namespace Jxl
open Spec

/-- The documented decoder finds the value `a` between the bits `p` and `q`. -/
def DecAt {α : Type} (d : Dec α) (data : List UInt8) (p q : Nat) (a : α) : Prop := q ≤ 8 * data.length ∧ d (bitsFrom data p) = some (a, bitsFrom data q)

/-- The parameters of the weighted predictor: all default, or seven numbers of 5 bits and four of 4 bits. -/
def decWP : Dec WPParams := do
  let d ← decBool
  if d then return ⟨16, 10, 7, 7, 7, 0, 0, [13, 12, 12, 12]⟩
  else do
    let p1 ← decBits 5
    let p2 ← decBits 5
    let a ← decBits 5
    let b ← decBits 5
    let c ← decBits 5
    let d ← decBits 5
    let e ← decBits 5
    let w0 ← decBits 4
    let w1 ← decBits 4
    let w2 ← decBits 4
    let w3 ← decBits 4
    return ⟨p1, p2, a, b, c, d, e, [(w0 : Int), w1, w2, w3]⟩

def distNumTransforms : Fin 4 → Nat × Nat := fun k => match k with | 0 => (0, 0) | 1 => (1, 0) | 2 => (2, 4) | 3 => (18, 8)

/-- What a modular stream starts with. Explicit squeeze steps are left out (the code does not read them, `C48_violated`). -/
def decModHeader : Dec ModHeader := do
  let g ← decBool
  let wp ← decWP
  let n ← decU32 distNumTransforms
  let ts ← decList (decTransform Dec.fail) n
  return ⟨g, wp, ts⟩

/-- The tree of a stream and the codes of its leaves: those of the frame, or others, which follow the header. -/
def StreamTreeAt (data : List UInt8) (p q : Nat) (global : GlobalTree) (useGlobal : Bool) (t : MATree) (es : ES) : Prop :=
  if useGlobal then global = some (t, es) ∧ q = p else TreeAt data p q t es ∧ t.size ≤ 2 ^ 20 + 1

/-- The bits from `p` to `q` are a modular stream: header, tree, numbers. The transforms of the header turn the image `chs` into the channels `enc`, the first `m`
of which are palettes. The numbers are those of the first `n` channels. -/
def StreamAt (bitDepth : Nat) (global : GlobalTree) (index : Nat) (data : List UInt8) (p q : Nat) (hd : ModHeader) (chs : List MChan) (m : Nat) (enc : List MChan)
    (n : Nat) : Prop :=
  ∃ (p1 p2 : Nat) (t : MATree) (es : ES) (out : List (Int × Nat)), DecAt decModHeader data p p1 hd ∧ StreamTreeAt data p1 p2 global hd.useGlobalTree t es ∧
    AppliesAll bitDepth hd.transforms 0 chs m enc ∧ (∀ c ∈ enc.take n, c.Shaped ∧ Small c.buffer) ∧
    encodeAll hd.wp t index (maxWidth enc) (enc.take n) [] = some out ∧ NumbersAt data p2 q es (maxWidth enc) out

/-- Channels that are larger than a group. -/
def Exceeds (groupDim : Nat) (c : MChan) : Bool := decide (groupDim < c.width) || decide (groupDim < c.height)

/-- The number of channels in the global stream: the palettes, and all others up to the first that is larger than a group. -/
def globalCount (groupDim m : Nat) (enc : List MChan) : Nat := m + (enc.drop m).findIdx (Exceeds groupDim)

/-- The global tree, after a bit that says whether there is one. -/
def GlobalTreeAt (data : List UInt8) (p q : Nat) (tree : GlobalTree) : Prop :=
  match tree with
  | none => DecAt decBool data p q false
  | some (t, es) => DecAt decBool data p (p + 1) true ∧ TreeAt data (p + 1) q t es ∧ t.size ≤ 2 ^ 20 + 1

/-- The global section of a modular frame: the factors of the channels, the global tree, the global stream. -/
def GlobalAt (bitDepth groupDim : Nat) (data : List UInt8) (p q : Nat) (deq : List ℚ) (tree : GlobalTree) (hd : ModHeader) (chs : List MChan) (m : Nat)
    (enc : List MChan) : Prop :=
  ∃ p1 p2, DecAt decLFDequant data p p1 deq ∧ GlobalTreeAt data p1 p2 tree ∧ StreamAt bitDepth tree 0 data p2 q hd chs m enc (globalCount groupDim m enc)

/-- The place and size of the part of a channel in a group, in a frame with `stride` groups side by side. -/
def tileArea (groupDim stride : Nat) (c : MChan) (id : Nat) : Area :=
  let gh := groupDim >>> c.vshift.toNat
  let gw := groupDim >>> c.hshift.toNat
  ⟨(id / stride * gh : Nat), (id % stride * gw : Nat), min gh (c.height - id / stride * gh), min gw (c.width - id % stride * gw)⟩

/-- `t` is the part of the channel `c` in a group. -/
def IsTile (groupDim stride id : Nat) (c t : MChan) : Prop :=
  t.blank = MChan.new (tileArea groupDim stride c id).height (tileArea groupDim stride c id).width c.vshift c.hshift c.forceWP ∧
    CutFrom c.buffer (tileArea groupDim stride c id) t.buffer

/-- A channel is cut into as many parts as there are groups, `stride` side by side. -/
structure OnGroups (groupDim stride rows : Nat) (c : MChan) : Prop where
  shaped : c.Shaped
  height : 0 < c.height ∧ c.height < 2 ^ 31
  width : 0 < c.width ∧ c.width < 2 ^ 31
  shifts : 0 ≤ c.vshift ∧ 0 ≤ c.hshift
  shift : 0 < groupDim >>> c.vshift.toNat ∧ 0 < groupDim >>> c.hshift.toNat
  columns : (c.width - 1) / (groupDim >>> c.hshift.toNat) + 1 = stride
  rows : (c.height - 1) / (groupDim >>> c.vshift.toNat) + 1 = rows

/-- The number of the stream of a group in a pass. -/
def groupStreamIndex (numLFGroups numGroups pass group : Nat) : Nat := 18 + 3 * numLFGroups + numGroups * pass + group

/-- The section of a group in a pass codes the parts of the channels `chs` in the group, with colour transforms or palettes of one channel or none. If there are
no channels the section is empty (its contents do not matter). -/
def GroupAt (bitDepth groupDim stride : Nat) (tree : GlobalTree) (index : Nat) (bytes : List UInt8) (id : Nat) (chs : List MChan) : Prop :=
  chs = [] ∨ ∃ (tiles enc : List MChan) (hd : ModHeader) (m q : Nat), List.Forall₂ (IsTile groupDim stride id) chs tiles ∧
    (∀ t ∈ hd.transforms, t.tr = 0 ∨ t.tr = 1 ∧ t.numC = 1) ∧ StreamAt bitDepth tree index bytes 0 q hd tiles m enc enc.length

/-! ## Frames -/

/-- The channels of a picture whose channel `c` has the sample `v c y x` in row `y` and column `x`. -/
def imageChannels (n : Nat) (size : Dim) (v : Nat → Nat → Nat → Int) : List MChan :=
  (List.range n).map fun c => ⟨⟨size.width, size.height, 0, 0, false, tab size.height size.width (v c)⟩, []⟩

/-- A modular frame whose samples are the decoded integers: not XYB, integer samples, no subsampling, no filters, no patches, splines or noise, all extra channels as large
as the frame. -/
structure Plain (h : ImageHeader) (f : FrameHeader) : Prop where
  framed : Framed f
  small : f.size.height ≤ 2 ^ 30 ∧ f.size.width ≤ 2 ^ 30
  modular : f.encoding = 1
  xyb : h.xyb = false
  gray : h.colour.space = 1 → f.doYCbCr = false
  integers : h.bitDepth.expBits = 0 ∧ ∀ e ∈ h.extra, e.bitDepth.expBits = 0 ∧ e.dimShift = 0
  jpegX : f.jpegX = [0, 0, 0]
  jpegY : f.jpegY = [0, 0, 0]
  filters : f.restoration.gab = false ∧ f.restoration.iterations = 0
  flags : f.flags.testBit 0 = false ∧ f.flags.testBit 1 = false ∧ f.flags.testBit 4 = false

/-- The number of channels of a picture. -/
def channelCount (h : ImageHeader) : Nat := (if h.colour.space = 1 then 1 else 3) + h.extra.length

/-- Passes that a header states, without a factor for the last pass. -/
def PassesStated (p : Passes) : Prop := (∃ bits r, decPasses bits = some (p, r)) ∧ p.Valid (p.numPasses - 1)

/-- The channels that a pass codes. -/
def channelsOf (p : Passes) (pass : Nat) (chs : List MChan) : List MChan := chs.filter fun c => decide (pass ∈ passesOf p (min c.hshift c.vshift).toNat)

/-- Buffers of integers that show the picture. -/
def ShowsPicture (n : Nat) (size : Dim) (v : Nat → Nat → Nat → Int) (bufs : List ImageBuffer) : Prop :=
  bufs.length = n ∧ ∀ c, c < n → ∃ b, bufs[c]? = some b ∧ b.IntPicture size.height size.width ∧ HoldsPlane size.height size.width (v c) b.ints

/-- The number of groups, or of LF groups, of a frame, side by side and one above the other. -/
def groupsAcross (side width : Nat) : Nat := (width - 1) / side + 1

/-- The sections of a modular frame with more than one: the global section, those of the LF groups (empty: channels that have been halved three times or more are left out,
`C26_lf_groups_wrong`), one that is not used, and one for each pass and group. `sec` are the sections. A section may be followed by zero bits. -/
structure SectionsAt (h : ImageHeader) (f : FrameHeader) (sec : Nat → List UInt8) (deq : List ℚ) (tree : GlobalTree) (hd : ModHeader) (chs : List MChan) (m : Nat)
    (enc : List MChan) : Prop where
  global : ∃ q, GlobalAt h.bitDepth.bits f.groupDim (sec 0 ++ [0, 0, 0, 0]) 0 q deq tree hd chs m enc
  channels : ∀ c ∈ enc.drop (globalCount f.groupDim m enc),
    OnGroups f.groupDim (groupsAcross f.groupDim f.size.width) (groupsAcross f.groupDim f.size.height) c ∧ min c.hshift c.vshift < 3
  groups : ∀ pass id, pass < f.passes.numPasses → id < groupsAcross f.groupDim f.size.width * groupsAcross f.groupDim f.size.height →
    let numLF := groupsAcross (f.groupDim * 8) f.size.width * groupsAcross (f.groupDim * 8) f.size.height
    let num := groupsAcross f.groupDim f.size.width * groupsAcross f.groupDim f.size.height
    GroupAt h.bitDepth.bits f.groupDim (groupsAcross f.groupDim f.size.width) tree (groupStreamIndex numLF num pass id) (sec (2 + numLF + pass * num + id) ++ [0, 0, 0, 0]) id
      (channelsOf f.passes pass (enc.drop (globalCount f.groupDim m enc)))

end Jxl
