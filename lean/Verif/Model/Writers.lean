import Verif.Model.JXLImage

/-!
# Output files (core/pfm_writer.go, core/png_writer.go)

The standard library is trusted: `fmt.Sprintf("%d")` prints decimal digits, `binary.BigEndian` is big-endian,
`crc32.ChecksumIEEE` is the CRC of ISO 3309 (`crc32` below), and `compress/zlib` is a pair of functions (`Zlib`) of which
the second undoes the first. Writing to the output does not fail.
-/
namespace Jxl

/-- A string as bytes (of ASCII characters). -/
def bytesOf (l : List Char) : List UInt8 := l.map (fun c => UInt8.ofNat c.toNat)

/-- `binary.BigEndian.PutUint32`. -/
def putU32 (n : Nat) : List UInt8 :=
  [UInt8.ofNat (n / 2 ^ 24 % 256), UInt8.ofNat (n / 2 ^ 16 % 256), UInt8.ofNat (n / 2 ^ 8 % 256), UInt8.ofNat (n % 256)]

/-- `fmt.Sprintf("%d", n)`. -/
def decimal (n : Nat) : List UInt8 := bytesOf (Nat.toDigits 10 n)

/-- core/pfm_writer.go:38-44: integer channels are not supported. -/
def pfmCheck : List ImageBuffer → Res Unit
  | [] => .ok ()
  | b :: bs => if b.isInt then .panic else pfmCheck bs

/-- core/pfm_writer.go:13-68 `WritePFM`; `bits` is `math.Float32bits`. The row loop counts down: row `height-1-k` for
`k = 0, 1, …` (sizes below 2^31). The header is written before the channels are checked, which is visible only if the
writer panics. -/
def writePFM (bits : F32 → Nat) (img : JXLImage) : Res (List UInt8) := do
  let gray := decide (img.colourEncoding = 1)
  let header := bytesOf (if gray then ['P', 'f'] else ['P', 'F']) ++ bytesOf ['\n'] ++ decimal img.width ++ bytesOf [' '] ++ decimal img.height
    ++ bytesOf ['\n', '1', '.', '0', '\n']
  pfmCheck img.buffers
  let body ← forFrom (fun k acc => forFrom (fun x acc => forFrom (fun c acc => do
      let b ← idx img.buffers c
      let v ← at2 b.floats ((img.height : Int) - 1 - k) x
      .ok (acc ++ putU32 (bits v))) (if gray then 1 else 3) 0 acc) img.width 0 acc) img.height 0 []
  .ok (header ++ body)

/-- One step of the CRC of ISO 3309 (reflected polynomial EDB88320). -/
def crcBit (c : Nat) : Nat := if c % 2 = 1 then (c / 2) ^^^ 0xEDB88320 else c / 2
/-- One byte of the CRC. -/
def crcByte (c : Nat) (b : UInt8) : Nat := crcBit (crcBit (crcBit (crcBit (crcBit (crcBit (crcBit (crcBit (c ^^^ b.toNat))))))))
/-- `crc32.ChecksumIEEE`. -/
def crc32 (l : List UInt8) : Nat := (l.foldl crcByte 0xFFFFFFFF) ^^^ 0xFFFFFFFF

/-- `compress/zlib`: a writer of a given level, and the reader. -/
structure Zlib where
  deflate : Nat → List UInt8 → List UInt8
  inflate : List UInt8 → Option (List UInt8)
  undoes : ∀ level l, inflate (deflate level l) = some l

/-- The common end of the chunk writers: length (without the type), type and data, CRC. -/
def emitChunk (raw : List UInt8) : List UInt8 := putU32 (u32 (u32 raw.length + 4294967296 - 4)) ++ raw ++ putU32 (crc32 raw)

/-- core/png_writer.go:253-283 `writeIHDR`. -/
def writeIHDR (width height depth mode : Nat) : List UInt8 :=
  let ihdr := bytesOf ['I', 'H', 'D', 'R'] ++ putU32 width ++ putU32 height ++ [UInt8.ofNat depth, UInt8.ofNat mode, 0, 0, 0]
  putU32 (u32 (ihdr.length - 4)) ++ ihdr ++ putU32 (crc32 ihdr)

/-- core/png_writer.go:168-210 `writeICCP`. -/
def writeICCP (Z : Zlib) (icc : List Nat) : List UInt8 :=
  emitChunk (bytesOf ['i', 'C', 'C', 'P'] ++ bytesOf ['j', 'x', 'l', 'a', 't', 't', 'e'] ++ [0] ++ [0] ++ Z.deflate 1 (icc.map UInt8.ofNat))

/-- core/png_writer.go:212-251 `writeSRGB` (the colour encoding is always present). -/
def writeSRGB (intent : Nat) : List UInt8 :=
  let raw := bytesOf ['s', 'R', 'G', 'B'] ++ [UInt8.ofNat intent]
  putU32 1 ++ raw ++ putU32 (crc32 raw)

/-- core/png_writer.go:346-358 and 362-375: one sample. -/
def sampleBytes (depth : Nat) (v : Int) : List UInt8 := if depth = 8 then [byteOf v] else [byteOf (v / 256), byteOf v]

/-- core/png_writer.go:305-325: the first channels are cast. -/
def idatCast (I : FloatImpl) (mx : Int) (c : Nat) (img : JXLImage) : Res JXLImage := do
  let b ← idx img.buffers c
  let b ← castToIntIfMax I b mx
  let bs ← setAt img.buffers c b
  .ok { img with buffers := bs }

/-- The same, under a condition. -/
def idatCastIf (cond : Bool) (I : FloatImpl) (mx : Int) (c : Nat) (img : JXLImage) : Res JXLImage := if cond then idatCast I mx c img else .ok img

/-- core/png_writer.go:342-377: one row. -/
def idatRow (img : JXLImage) (y : Nat) (acc : List UInt8) : Res (List UInt8) :=
  forFrom (fun x acc => do
    let acc ← forFrom (fun c acc => do
      let b ← idx img.buffers c
      let v ← at2 b.ints y x
      let d ← idx img.bitDepths c
      .ok (acc ++ sampleBytes d v)) img.header.colourCount 0 acc
    if img.header.hasAlpha then do
      let b ← idx img.buffers 3
      let v ← at2 b.ints y x
      let d ← idx img.bitDepths 3
      .ok (acc ++ sampleBytes d v)
    else .ok acc) img.width 0 acc

/-- core/png_writer.go:338-378: the rows, each with filter type 0. -/
def idatRows (img : JXLImage) : Res (List UInt8) :=
  forFrom (fun y acc => idatRow img y (acc ++ [0])) img.height 0 []

/-- core/png_writer.go:285-400 `writeIDAT`. -/
def writeIDAT (I : FloatImpl) (Z : Zlib) (img : JXLImage) : Res (List UInt8 × JXLImage) := do
  let depth := if 8 < img.header.bitDepth.bits then 16 else 8
  let mx := mask32 depth
  let img ← idatCast I mx 0 img
  let img ← idatCastIf (decide (1 < img.buffers.length)) I mx 1 img
  let img ← idatCastIf (decide (2 < img.buffers.length)) I mx 2 img
  let img ← idatCastIf img.header.hasAlpha I mx 3 img
  let img ← settleChannels I depth img
  let rows ← idatRows img
  .ok (emitChunk (bytesOf ['I', 'D', 'A', 'T'] ++ Z.deflate 0 rows), img)

/-- core/png_writer.go:25-166 `WritePNG`; `srgbICC` is the field `writeSRGBICC` of the writer. The result is the file and the image
as it is afterwards. -/
def writePNG (I : FloatImpl) (Z : Zlib) (curve : Nat → F32 → F32) (srgbICC : Bool) (img : JXLImage) : Res (List UInt8 × JXLImage) := do
  let hdr := img.isHDR
  let depth := if hdr then 16 else if 8 < img.header.bitDepth.bits then 16 else 8
  let gray := decide (img.colourEncoding = 1)
  let img ← toOutputColours curve img
  let mode := if gray then (if 0 ≤ img.alphaIndex then 4 else 0) else (if 0 ≤ img.alphaIndex then 6 else 2)
  let img ← toOutputSamples I img depth
  let profile := img.icc.getD []
  let colourChunk := if hdr || decide (profile.length ≠ 0) || srgbICC then writeICCP Z profile
    else writeSRGB img.header.colour.intent
  let d ← writeIDAT I Z img
  .ok ([0x89, 0x50, 0x4E, 0x47, 0x0D, 0x0A, 0x1A, 0x0A] ++ writeIHDR img.width img.height depth mode ++ colourChunk ++ d.1
    ++ [0, 0, 0, 0] ++ [0x49, 0x45, 0x4E, 0x44] ++ [0xAE, 0x42, 0x60, 0x82], d.2)

end Jxl
