import Verif.Spec.PFM
import Verif.Model.Writers

/-!
# Specification: PNG files and shown samples (C34)

Written from the PNG specification (ISO/IEC 15948). Compression and the CRC are those of the standard library.
-/
namespace Jxl

namespace PNG

/-- Four ASCII characters. -/
def name (a b c d : Char) : List UInt8 := PFM.text [a, b, c, d]

/-- A chunk: length of the data, type, data, CRC of type and data. -/
def chunk (type data : List UInt8) : List UInt8 := PFM.bigEndian data.length ++ type ++ data ++ PFM.bigEndian (crc32 (type ++ data))

/-- A picture as PNG describes it; one plane for each channel. -/
structure Picture where
  width : Nat
  height : Nat
  depth : Nat
  mode : Nat
  planes : List (List (List Nat))

/-- Number of channels of a colour type: gray, RGB, gray and alpha, RGB and alpha. -/
def channels : Nat → Nat
  | 0 => 1
  | 2 => 3
  | 4 => 2
  | 6 => 4
  | _ => 0

/-- The fields agree with the planes. -/
def Picture.Ok (p : Picture) : Prop :=
  (p.depth = 8 ∨ p.depth = 16) ∧ p.planes.length = channels p.mode ∧ p.width < 2 ^ 31 ∧ p.height < 2 ^ 31 ∧
    ∀ m ∈ p.planes, Table p.height p.width m ∧ ∀ y x v, sample m y x = some v → v < 2 ^ p.depth

/-- A sample of 8 or 16 bits. -/
def bytes (depth v : Nat) : List UInt8 := if depth = 8 then [UInt8.ofNat v] else [UInt8.ofNat (v / 256), UInt8.ofNat (v % 256)]

/-- The rows of a picture, each after its filter type (none). -/
def scanlines (p : Picture) : List UInt8 :=
  (List.range p.height).flatMap (fun y => 0 :: (List.range p.width).flatMap (fun x => p.planes.flatMap (fun m => bytes p.depth ((sample m y x).getD 0))))

/-- The number of bytes that the header announces for the rows. -/
def announced (width height depth mode : Nat) : Nat := height * (1 + width * (channels mode * (depth / 8)))

/-- The header chunk. -/
def header (width height depth mode : Nat) : List UInt8 :=
  chunk (name 'I' 'H' 'D' 'R') (PFM.bigEndian width ++ PFM.bigEndian height ++ [UInt8.ofNat depth, UInt8.ofNat mode, 0, 0, 0])

/-- The signature. -/
def signature : List UInt8 := [0x89, 0x50, 0x4E, 0x47, 0x0D, 0x0A, 0x1A, 0x0A]

/-- `file` is a PNG file of the picture `p` with one further chunk before the picture data. -/
def IsFile (Z : Zlib) (file type data : List UInt8) (p : Picture) : Prop :=
  p.Ok ∧ data.length < 2 ^ 31 ∧ ∃ idat, idat.length < 2 ^ 31 ∧ Z.inflate idat = some (scanlines p) ∧
    file = signature ++ header p.width p.height p.depth p.mode ++ chunk type data ++ chunk (name 'I' 'D' 'A' 'T') idat ++
      chunk (name 'I' 'E' 'N' 'D') []

end PNG

/-- Depth of channel `c`. -/
def ImageHeader.depth (h : ImageHeader) (c : Nat) : Nat :=
  if c < h.colourCount then h.bitDepth.bits else ((h.extra[c - h.colourCount]?).map (·.bitDepth.bits)).getD 0

/-- The plane `m` of samples of `B` bits shows the channel `b` of depth `d`. Integer samples that are in their range are
rescaled, to the nearest integer up to the error of `float32` arithmetic, and are unchanged if the depths are equal. Float samples
go through the curve `f` and are converted as in C36. -/
def Shows (I : FloatImpl) (B d : Nat) (f : F32 → F32) (b : ImageBuffer) (m : List (List Nat)) : Prop :=
  ∀ y x o, sample m y x = some o →
    o < 2 ^ B ∧
    (b.bufferType = 0 → ∀ v, sample b.ints y x = some v → 0 ≤ v → v < 2 ^ d →
      (d = B → (o : Int) = v) ∧ (d < 20 → |(o : ℚ) - v * (2 ^ B - 1) / (2 ^ d - 1)| ≤ 1 / 2 + 1 / 32)) ∧
    (b.bufferType = 1 → ∀ v, sample b.floats y x = some v → (o : Int) = sampleToInt I (2 ^ B - 1) (f v))

/-- The transfer functions and primaries for which a picture of ordinary range is written. -/
def Ordinary (c : ColourEncoding) : Prop :=
  c.tf ≠ tfPQ ∧ c.tf ≠ tfHLG ∧ c.tf ≠ tfLinear ∧ (c.primaries = 1 ∨ c.primaries = 11)

/-- How the colours of an image reach the output: not at all if there is a profile or the image already has the colours of the output;
through the curve of sRGB if the image is XYB-encoded. -/
inductive ColourPath (curve : Nat → F32 → F32) (img : JXLImage) (h : ImageHeader) : (F32 → F32) → Prop
  | profile (p : List Nat) : img.icc = some p → ColourPath curve img h id
  | srgb : img.icc = none → h.xyb = false → h.colour.tf = tfSRGB → h.colour.primaries = 1 → h.colour.whitePoint = 1 → ColourPath curve img h id
  | xyb : h.xyb = true → (∀ (c : Nat) (b : ImageBuffer), c < h.colourCount → img.buffers[c]? = some b → b.bufferType = 1) →
      ColourPath curve img h (curve tfSRGB)

end Jxl
