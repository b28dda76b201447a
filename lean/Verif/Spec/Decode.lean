import Verif.Spec.ModularCoding
import Verif.Spec.Boxes
import Verif.Spec.ICC
import Verif.Spec.TOC
import Verif.Spec.PNG

/-!
# Specification: files with losslessly coded pictures (C85)

From ISO/IEC 18181-1 and 18181-2. Of the decoder, only its data structures are used.
-/
namespace Jxl
open Spec

/-- The byte at which something begins that is aligned after bit `p`. -/
def nextByte (p : Nat) : Nat := (p + 7) / 8

/-- An encoded ICC profile of the bytes `e`: its length, codes for 41 contexts, and the bytes. -/
def ICCAt (data : List UInt8) (p q : Nat) (e : List Nat) : Prop :=
  ∃ (p1 p2 : Nat) (es : ES), DecAt decU64 data p p1 e.length ∧ CodesAt data p1 p2 41 es ∧
    NumbersAt data p2 q es 0 ((List.range e.length).map fun i => ((contextOfNext (e.take i) : Int), e.getD i 0)) ∧ ∀ b ∈ e, b < 256

/-- The bytes from `k` to `k'` are an image header, with an encoded profile if the header announces one. -/
def ImageHeaderAt (level : Nat) (data : List UInt8) (k k' : Nat) (h : ImageHeader) (profile : Option (List Nat)) : Prop :=
  ∃ p q, DecAt (decImageHeader level) data (8 * k) p h ∧ k' = nextByte q ∧
    match profile with
    | none => h.colour.useIcc = false ∧ q = p
    | some e => h.colour.useIcc = true ∧ ICCAt data p q e

/-- The number of groups of a frame. -/
def numGroupsOf (f : FrameHeader) : Nat := groupsAcross f.groupDim f.size.width * groupsAcross f.groupDim f.size.height
/-- The number of LF groups of a frame. -/
def numLFGroupsOf (f : FrameHeader) : Nat := groupsAcross (f.groupDim * 8) f.size.width * groupsAcross (f.groupDim * 8) f.size.height

/-- The number of sections of a frame. -/
def sectionCount (f : FrameHeader) : Nat :=
  if numGroupsOf f = 1 ∧ f.passes.numPasses = 1 then 1 else 2 + numLFGroupsOf f + f.passes.numPasses * numGroupsOf f

/-- What a channel has in each row and column. -/
abbrev Pic := Nat → Nat → Nat → Int

/-- The sections of a frame, from byte `k` to byte `k'`, code the picture, and the factors `deq` of the three colours. A single section ends where its stream ends. -/
def SectionsCodeWith (h : ImageHeader) (f : FrameHeader) (lengths : List Nat) (data : List UInt8) (k k' : Nat) (v : Pic) (deq : List ℚ) : Prop :=
  ∃ (tree : GlobalTree) (hd : ModHeader) (m : Nat) (enc : List MChan),
    if sectionCount f = 1 then
      ∃ q, GlobalAt h.bitDepth.bits f.groupDim data (8 * k) q deq tree hd (imageChannels (channelCount h) f.size v) m enc ∧
        enc.length ≤ globalCount f.groupDim m enc ∧ k' = nextByte q
    else
      SectionsAt h f (storedSection (data.drop k) lengths) deq tree hd (imageChannels (channelCount h) f.size v) m enc ∧
        k' = k + lengths.sum ∧ k' ≤ data.length ∧ ∀ i, i < lengths.length → k + (lengths.take i).sum < data.length

/-- The sections code the picture, whatever the factors: they matter in XYB only. -/
def SectionsCode (h : ImageHeader) (f : FrameHeader) (lengths : List Nat) (data : List UInt8) (k k' : Nat) (v : Pic) : Prop :=
  ∃ deq, SectionsCodeWith h f lengths data k k' v deq

/-- The bytes from `k` to `k'` are a frame: a header, a table of contents without permutation, and sections that code the picture. -/
def FrameCodes (h : ImageHeader) (data : List UInt8) (k k' : Nat) (f : FrameHeader) (v : Pic) : Prop :=
  ∃ (p q : Nat) (lengths : List Nat),
    DecAt (decFrameHeader 0 false h.xyb h.extra.length h.size) data (8 * k) p f ∧ DecAt decBool data p (p + 1) false ∧
    DecAt (decLengths (sectionCount f)) data (8 * nextByte (p + 1)) q lengths ∧ SectionsCode h f lengths data (nextByte q) k' v

/-- Frames one after the other. Only the last one says that it is. -/
def FramesAt (h : ImageHeader) (data : List UInt8) : Nat → List (FrameHeader × Pic) → Prop
  | _, [] => True
  | k, x :: xs => ∃ k', FrameCodes h data k k' x.1 x.2 ∧ x.1.isLast = xs.isEmpty ∧ FramesAt h data k' xs

/-- A frame that codes a picture losslessly: a modular frame (`Plain`), regular, without an LF frame; passes as in C84. -/
structure CodedSheet (h : ImageHeader) (f : FrameHeader) (v : Pic) : Prop where
  plain : Plain h f
  regular : f.frameType = 0 ∨ f.frameType = 3
  size : f.size.width < 2 ^ 30 ∧ f.size.height < 2 ^ 30
  rgb : f.doYCbCr = false
  noLF : f.flags.testBit 5 = false
  samples : ∀ c y x, c < channelCount h → y < f.size.height → x < f.size.width → |v c y x| < 2 ^ 24
  groups : numGroupsOf f < 2 ^ 31
  streams : 18 + 3 * numLFGroupsOf f + numGroupsOf f * f.passes.numPasses < 2 ^ 32
  passes : f.passes.Valid (f.passes.numPasses - 1)

/-- Such a frame, as large as it is coded; it covers some of the canvas and does not lie above it or left of it in ways that the code gets wrong (C37). -/
structure Sheet (h : ImageHeader) (f : FrameHeader) (v : Pic) : Prop extends CodedSheet h f v where
  unscaled : f.upsampling = 1 ∧ ∀ u ∈ f.ecUpsampling, u = 1
  place : (0 ≤ f.x0 ∧ 0 ≤ f.y0) ∨ (f.x0 < 0 ∧ f.y0 ≤ 0)
  meets : f.x0 ≤ h.size.width ∧ f.y0 ≤ h.size.height ∧ 0 ≤ f.x0 + f.size.width ∧ 0 ≤ f.y0 + f.size.height

/-- A frame that replaces the part of the image that it covers by a losslessly coded picture. -/
structure Layer (h : ImageHeader) (f : FrameHeader) (v : Pic) : Prop extends Sheet h f v where
  replace : f.blending.mode = 0 ∧ ∀ b ∈ f.ecBlending, b.mode = 0

/-- A picture on top of another. -/
def putOn (f : FrameHeader) (v w : Pic) : Pic := fun c y x =>
  if f.y0 ≤ y ∧ (y : Int) < f.y0 + f.size.height ∧ f.x0 ≤ x ∧ (x : Int) < f.x0 + f.size.width then v c ((y : Int) - f.y0).toNat ((x : Int) - f.x0).toNat else w c y x

/-- The pictures of the frames, on a canvas of zeros. -/
def layered (l : List (FrameHeader × Pic)) : Pic := l.foldl (fun w x => putOn x.1 x.2 w) fun _ _ _ => 0

/-- The codestream of the file starts at byte `k`: a bare codestream, or a container with one codestream box. -/
def CodestreamIn (file : List UInt8) (k level : Nat) : Prop :=
  (k = 0 ∧ level = 5 ∧ 12 ≤ file.length ∧ file.take 12 ≠ signature) ∨
  ∃ (before after : List Box) (payload : List UInt8), (∀ b ∈ before ++ [⟨kindC, payload⟩] ++ after, b.Usual) ∧
    (∀ b ∈ before ++ after, b.kind ≠ kindC ∧ b.kind ≠ kindP) ∧ file = container (before ++ [⟨kindC, payload⟩] ++ after) ∧
    k = (container before).length + 8 ∧ level = levelOf (before ++ [⟨kindC, payload⟩] ++ after)

/-- Images that the code can hold. -/
structure Viewable (h : ImageHeader) : Prop where
  noPreview : h.preview = none
  width : 0 < h.size.width ∧ h.size.width < 2 ^ 30
  height : 0 < h.size.height ∧ h.size.height < 2 ^ 30
  depths : ∀ c, c < channelCount h → 1 ≤ h.depth c ∧ h.depth c ≤ 31

/-- The integer buffers of an image show the picture, turned as the orientation says. -/
def ShowsTurned (n orientation : Nat) (size : Dim) (v : Pic) (bufs : List ImageBuffer) : Prop :=
  ∃ rs cs, exif orientation = some (rs, cs) ∧ bufs.length = n ∧ ∀ c, c < n → ∃ b, bufs[c]? = some b ∧
    b.IntPicture (shownSize rs size.height size.width).1 (shownSize rs size.height size.width).2 ∧
    ∀ y x, y < size.height → x < size.width →
      sample b.ints (shown rs cs size.height size.width y x).1 (shown rs cs size.height size.width y x).2 = some (v c y x)

/-- The bytes `e` are an encoded profile, and `icc` is the profile (C57). -/
def EncodesProfile (e icc : List Nat) : Prop :=
  (∃ (p : Profile) (size : Nat), p.Valid size ∧ size < 2 ^ 31 ∧ (p.encode size).length < 2 ^ 31 ∧ p.tagCount < 2 ^ 31 ∧ (∀ c ∈ p.cmds, Handles c) ∧ e = p.encode size ∧
    icc = p.meaning size) ∨
  ∃ es : List Nat, (∀ v ∈ es, v < 256) ∧ es.length ≤ 128 ∧ (es.length ≤ 4 ∨ 41 ≤ es.length) ∧ e = encodeShort es ∧ icc = headerBytes es.length [] es

/-- A file with an image header, a colour profile or none, and losslessly coded layers. -/
structure LosslessFile (file : List UInt8) (h : ImageHeader) (icc : Option (List Nat)) (frames : List (FrameHeader × Pic)) : Prop where
  stored : ∃ k k' level profile, CodestreamIn file k level ∧ ImageHeaderAt level file k k' h profile ∧ FramesAt h file k' frames ∧
    match profile, icc with
    | none, none => True
    | some e, some p => EncodesProfile e p
    | _, _ => False
  viewable : Viewable h
  notXyb : h.xyb = false
  some : frames ≠ []
  layers : ∀ x ∈ frames, Layer h x.1 x.2

/-- Images with 8 bits for each sample of each channel, sRGB or with a profile; the first extra channel is an alpha channel that is not premultiplied, or there is no
alpha channel. -/
structure Ordinary8 (h : ImageHeader) : Prop where
  bits : h.bitDepth.bits = 8 ∧ ∀ c, c < channelCount h → h.depth c = 8
  colours : h.colour.tf = 2 ^ 24 + 13 ∧ h.colour.primaries = 1 ∧ h.colour.whitePoint = 1
  alpha : alphaChannels h.extra = [] ∨ ((alphaChannels h.extra).head? = some 0 ∧ ∀ e, h.extra[0]? = some e → e.alphaAssociated = false)

/-- The plane `m` of a Go image shows channel `c` of the picture, turned as the orientation says. -/
def PlaneShows (h : ImageHeader) (v : Nat → Nat → Int) (m : List (List Nat)) : Prop :=
  ∃ rs cs, exif h.orientation = some (rs, cs) ∧ ∀ y x, y < h.size.height → x < h.size.width →
    ∃ o, sample m (shown rs cs h.size.height h.size.width y x).1 (shown rs cs h.size.height h.size.width y x).2 = some o ∧ (o : Int) = v y x

end Jxl
