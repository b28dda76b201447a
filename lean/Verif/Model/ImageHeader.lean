import Verif.Model.F16
import Verif.Model.Entropy
/-!
# The image header (bundle/image_header.go and the bundles it consists of)
-/
namespace Jxl

/-- A field that is read only under a condition. -/
def readIf {α : Type} (c : Bool) (m : Rd α) (dflt : α) : Rd α := if c then m else Pure.pure dflt

/-- A loop that reads `n` values. -/
def readList {α : Type} (m : Rd α) : Nat → Rd (List α)
  | 0 => Pure.pure []
  | n + 1 => do
    let a ← m
    let l ← readList m n
    Pure.pure (a :: l)

/-- util/misc.go:102-105 `Dimension`. -/
structure Dim where
  width : Nat
  height : Nat
  deriving Repr, DecidableEq

/-- bundle/image_header.go:844-863 `getWidthFromRatio` (`uint32` arithmetic). -/
def getWidthFromRatio (ratio height : Nat) : Res Nat :=
  if ratio = 1 then .ok height
  else if ratio = 2 then .ok (u32 (height * 6) / 5)
  else if ratio = 3 then .ok (u32 (height * 4) / 3)
  else if ratio = 4 then .ok (u32 (height * 3) / 2)
  else if ratio = 5 then .ok (u32 (height * 16) / 9)
  else if ratio = 6 then .ok (u32 (height * 5) / 4)
  else if ratio = 7 then .ok (u32 (height * 2))
  else .err

/-- bundle/image_header.go:789-801 and 815-827: one side of a size header. -/
def readSide (div8 : Bool) : Rd Nat :=
  if div8 then do
    let v ← readBits 5
    Pure.pure (u32 (u32 (1 + u32 v) <<< 3))
  else readU32 1 9 1 13 1 18 1 30

/-- bundle/image_header.go:802-828 and 746-770: the width, from a ratio or read like the height. -/
def readWidth (side : Rd Nat) (h : Nat) : Rd Nat := do
  let ratio ← readBits 3
  if ratio ≠ 0 then Rd.lift (getWidthFromRatio ratio h) else side

/-- bundle/image_header.go:830-842: the limits. The product is a product of `uint32`s. -/
def checkSize (level : Int) (d : Dim) : Res Dim :=
  let maxDim := if level ≤ 5 then 2 ^ 18 else 2 ^ 28
  let maxTimes := if level ≤ 5 then 2 ^ 30 else 2 ^ 40
  if d.width > maxDim ∨ d.height > maxDim then .err
  else if u32 (d.width * d.height) > maxTimes then .err
  else .ok d

/-- bundle/image_header.go:780-842 `readSizeHeader`. -/
def readSizeHeader (level : Int) : Rd Dim := do
  let div8 ← readBool
  let h ← readSide div8
  let w ← readWidth (readSide div8) h
  Rd.lift (checkSize level ⟨w, h⟩)

/-- bundle/image_header.go:733-745 and 757-769: one side of a preview header. -/
def readPreviewSide (div8 : Bool) : Rd Nat :=
  if div8 then readU32 16 0 32 0 1 5 33 9 else readU32 1 6 65 8 321 10 1345 12

/-- bundle/image_header.go:724-778 `readPreviewHeader`. -/
def readPreviewHeader : Rd Dim := do
  let div8 ← readBool
  let h ← readPreviewSide div8
  let w ← readWidth (readPreviewSide div8) h
  if w > 4096 ∨ h > 4096 then Rd.fail else Pure.pure ⟨w, h⟩

/-- bundle/BitDepthHeader.go:5-9. -/
structure BitDepth where
  bits : Nat
  expBits : Nat
  float : Bool
  deriving Repr, DecidableEq

/-- bundle/BitDepthHeader.go:11-17 `NewBitDepthHeader`. -/
def BitDepth.dflt : BitDepth := ⟨8, 0, false⟩

/-- bundle/BitDepthHeader.go:19-43 `NewBitDepthHeaderWithReader`. -/
def readBitDepth : Rd BitDepth := do
  let f ← readBool
  if f then do
    let b ← readU32 32 0 16 0 24 0 1 6
    let e ← readBits 4
    Pure.pure ⟨b, u32 (1 + u32 e), true⟩
  else do
    let b ← readU32 8 0 10 0 12 0 1 6
    Pure.pure ⟨b, 0, false⟩

/-- bundle/extra_channel_info.go:9-17. The colour of a spot channel is a list of four numbers. -/
structure ExtraChannel where
  name : List Nat
  ecType : Nat
  cfaIndex : Nat
  dimShift : Nat
  spot : List ℚ
  bitDepth : BitDepth
  alphaAssociated : Bool
  deriving DecidableEq

/-- bundle/ExtraChannelType.go:15-17 `ValidateExtraChannel`. -/
def validExtraChannel (ec : Nat) : Bool := ec ≤ 6 || ec == 15 || ec == 16

/-- A byte of a name: `byte(ReadBits(8))`. -/
def readByte8 : Rd Nat := do
  let v ← readBits 8
  Pure.pure (u8 v)

/-- bundle/extra_channel_info.go:27-67: the fields of a channel that is not a default alpha channel: type, bit depth, shift, name
and alpha flag. -/
def readExtraFields : Rd (Nat × BitDepth × Nat × List Nat × Bool) := do
  let t ← readEnum
  if validExtraChannel t = false then Rd.fail
  else do
    let b ← readBitDepth
    let d ← readU32 0 0 3 0 4 0 1 3
    let n ← readU32 0 0 0 4 16 5 48 10
    let name ← readList readByte8 n
    let a ← readIf (t == 0) readBool false
    Pure.pure (t, b, d, name, a)

/-- bundle/extra_channel_info.go:19-108 `NewExtraChannelInfoWithReader`. -/
def readExtraChannel : Rd ExtraChannel := do
  let dAlpha ← readBool
  let f ← readIf (!dAlpha) readExtraFields (0, BitDepth.dflt, 0, [], false)
  let spot ← readIf (f.1 == 2) (readList readF16 4) [0, 0, 0, 0]
  let cfa ← readIf (f.1 == 5) (readU32 1 0 0 2 3 4 19 8) 1
  Pure.pure ⟨f.2.2.2.1, f.1, cfa, f.2.2.1, spot, f.2.1, f.2.2.2.2⟩

/-- bundle/Extensions.go:10-13. The payloads of extensions that are absent are empty. -/
structure Extensions where
  payloads : List (List Nat)
  key : Nat
  deriving Repr, DecidableEq

/-- bundle/Extensions.go:15-19 `NewExtensions`. -/
def Extensions.none : Extensions := ⟨List.replicate 64 [], 0⟩

/-- bundle/Extensions.go:28-39: the lengths of the extensions from bit `i` on (0 for an absent one). -/
def readExtLengths (key : Nat) : Nat → Nat → Rd (List Nat)
  | 0, _ => Pure.pure []
  | n + 1, i => do
    let l ← readIf (key.testBit i) readU64 0
    if l > 4294967295 then Rd.fail
    else do
      let ls ← readExtLengths key n (i + 1)
      Pure.pure (l :: ls)

/-- bundle/Extensions.go:40-50: the payloads. -/
def readPayloads : List Nat → Rd (List (List Nat))
  | [] => Pure.pure []
  | l :: ls => do
    let p ← readList readByte8 l
    let ps ← readPayloads ls
    Pure.pure (p :: ps)

/-- bundle/Extensions.go:21-52 `NewExtensionsWithReader`. -/
def readExtensions : Rd Extensions := do
  let key ← readU64
  let ls ← readExtLengths key 64 0
  let ps ← readPayloads ls
  Pure.pure ⟨ps, key⟩

/-- colour/ToneMapping.go:9-14. -/
structure ToneMapping where
  intensityTarget : ℚ
  minNits : ℚ
  linearBelow : ℚ
  relative : Bool
  deriving DecidableEq

/-- colour/ToneMapping.go:16-25 `NewToneMapping`. -/
def ToneMapping.dflt : ToneMapping := ⟨255, 0, 0, false⟩

/-- colour/ToneMapping.go:27-69 `NewToneMappingWithReader`. -/
def readToneMapping : Rd ToneMapping := do
  let d ← readBool
  if d then Pure.pure ToneMapping.dflt
  else do
    let it ← readF16
    if it ≤ 0 then Rd.fail
    else do
      let mn ← readF16
      if mn < 0 then Rd.fail
      else if mn > it then Rd.fail
      else do
        let r ← readBool
        let lb ← readF16
        if r = true ∧ (lb < 0 ∨ lb > 1) then Rd.fail
        else if r = false ∧ lb < 0 then Rd.fail
        else Pure.pure ⟨it, mn, lb, r⟩

/-- colour/colour_encoding_bundle.go:9-18. `White` and `Prim` are kept as the integers of the stream (millionths) when custom; the
tables of named white points and primaries are not part of this model. -/
structure ColourEncoding where
  useIcc : Bool
  space : Nat
  whitePoint : Nat
  white : List Int
  primaries : Nat
  prim : List Int
  tf : Nat
  intent : Nat
  deriving Repr, DecidableEq

/-- colour/colour_encoding_bundle.go:20-31 `NewColourEncodingBundle` (enum values of colour/colour_flags.go:3-32). -/
def ColourEncoding.dflt : ColourEncoding := ⟨false, 0, 1, [], 1, [], 13 + 2 ^ 24, 1⟩

/-- colour/CustomXY.go:22-38 `readCustom`: one coordinate, in millionths. -/
def readCustom : Rd Int := do
  let u ← readU32 0 19 524288 19 1048576 20 2097152 21
  Pure.pure (unpackSigned u)

/-- colour/colour_flags.go:38-40 `ValidateWhitePoint`. -/
def validWhitePoint (w : Nat) : Bool := w == 1 || w == 2 || w == 10 || w == 11
/-- colour/colour_flags.go:42-44 `ValidatePrimaries`. -/
def validPrimaries (p : Nat) : Bool := p == 1 || p == 2 || p == 9 || p == 11
/-- colour/colour_flags.go:50-68 `ValidateTransfer`. -/
def validTransfer (t : Nat) : Bool :=
  if t ≤ 10000000 then true
  else if t < 2 ^ 24 then false
  else t == 1 + 2 ^ 24 || t == 2 + 2 ^ 24 || t == 8 + 2 ^ 24 || t == 13 + 2 ^ 24 || t == 16 + 2 ^ 24 || t == 17 + 2 ^ 24 || t == 18 + 2 ^ 24

/-- A value that must be valid. -/
def check {α : Type} (c : Bool) (a : α) : Rd α := if c then Pure.pure a else Rd.fail

/-- colour/colour_encoding_bundle.go:116-128: the transfer function. -/
def readTransfer : Rd Nat := do
  let useGamma ← readBool
  if useGamma then readBits 24
  else do
    let e ← readEnum
    Pure.pure (2 ^ 24 + e)

/-- colour/colour_encoding_bundle.go:111-137: the transfer function and the rendering intent. -/
def readTfIntent : Rd (Nat × Nat) := do
  let tf ← readTransfer
  let tf ← check (validTransfer tf) tf
  let ri ← readEnum
  let ri ← check (ri ≤ 3) ri
  Pure.pure (tf, ri)

/-- colour/colour_encoding_bundle.go:33-144 `NewColourEncodingBundleWithReader`. -/
def readColourEncoding : Rd ColourEncoding := do
  let allDefault ← readBool
  let useIcc ← readIf (!allDefault) readBool false
  let space ← readIf (!allDefault) readEnum 0
  let space ← check (space ≤ 3) space
  let wp ← readIf (!allDefault && !useIcc && space != 2) readEnum 1
  let wp ← check (validWhitePoint wp) wp
  let white ← readIf (wp == 2) (readList readCustom 2) []
  let pr ← readIf (!allDefault && !useIcc && space != 2 && space != 1) readEnum 1
  let pr ← check (validPrimaries pr) pr
  let prim ← readIf (pr == 2) (readList readCustom 6) []
  let ti ← readIf (!allDefault && !useIcc) readTfIntent (13 + 2 ^ 24, 1)
  Pure.pure ⟨useIcc, space, wp, white, pr, prim, ti.1, ti.2⟩

/-- colour/OpsinInverseMatrix.go:54-96 `NewOpsinInverseMatrixWithReader`: `none` when the default is used; the matrix row by row,
the opsin bias, the quantisation bias and its numerator otherwise. -/
def readOpsin : Rd (Option (List ℚ)) := do
  let useMatrix ← readBool
  if useMatrix then Pure.pure none
  else do
    let l ← readList readF16 16
    Pure.pure (some l)

/-- bundle/image_header.go:93-120: the fields that are read. The intrinsic size and the preview are `none` when absent; custom
upsampling weights are `none` when the defaults are used. -/
structure ImageHeader where
  size : Dim
  orientation : Nat
  orientedSize : Dim
  intrinsic : Option Dim
  preview : Option Dim
  bitDepth : BitDepth
  modular16 : Bool
  extra : List ExtraChannel
  alphaIndices : List Nat
  xyb : Bool
  colour : ColourEncoding
  tone : ToneMapping
  extensions : Extensions
  opsin : Option (List ℚ)
  up2 : Option (List ℚ)
  up4 : Option (List ℚ)
  up8 : Option (List ℚ)
  deriving DecidableEq

/-- bundle/image_header.go:162-197: orientation, intrinsic size, preview. Animations are not supported (bundle/AnimationHeader.go:13-15). -/
def readExtraImageFields (level : Int) : Rd (Nat × Option Dim × Option Dim) := do
  let o ← readBits 3
  let hasI ← readBool
  let intr ← readIf hasI (do let d ← readSizeHeader level; Pure.pure (some d)) none
  let hasP ← readBool
  let prev ← readIf hasP (do let d ← readPreviewHeader; Pure.pure (some d)) none
  let anim ← readBool
  if anim then Rd.fail else Pure.pure (1 + o, intr, prev)

/-- bundle/image_header.go:231-247: the positions of the alpha channels. -/
def alphaPositions : Nat → List ExtraChannel → List Nat
  | _, [] => []
  | i, c :: cs => if c.ecType = 0 then i :: alphaPositions (i + 1) cs else alphaPositions (i + 1) cs

/-- bundle/image_header.go:217-255: bit depth, buffers, extra channels, colours. -/
def readImageFields : Rd (BitDepth × Bool × List ExtraChannel × Bool × ColourEncoding) := do
  let b ← readBitDepth
  let m16 ← readBool
  let n ← readU32 0 0 1 0 2 4 1 12
  let ecs ← readList readExtraChannel n
  let xyb ← readBool
  let ce ← readColourEncoding
  Pure.pure (b, m16, ecs, xyb, ce)

/-- bundle/image_header.go:298-330: custom weights for one upsampling factor. -/
def readWeights (custom : Bool) (n : Nat) : Rd (Option (List ℚ)) :=
  readIf custom (do let l ← readList readF16 n; Pure.pure (some l)) none

/-- bundle/image_header.go:129-330: `ParseImageHeader` up to the colour profile. -/
def readImageHeaderFields (level : Int) : Rd ImageHeader := do
  let magic ← readBits 16
  let _ ← check (magic == 0x0AFF) ()
  let _ ← check (level == 5 || level == 10) ()
  let size ← readSizeHeader level
  let allDefault ← readBool
  let extraFields ← readIf (!allDefault) readBool false
  let x ← readIf extraFields (readExtraImageFields level) (1, none, none)
  let oriented : Dim := if x.1 > 4 then ⟨size.height, size.width⟩ else size
  let f ← readIf (!allDefault) readImageFields (BitDepth.dflt, true, [], true, ColourEncoding.dflt)
  let tone ← readIf extraFields readToneMapping ToneMapping.dflt
  let ext ← readIf (!allDefault) readExtensions Extensions.none
  let defaultMatrix ← readBool
  let opsin ← readIf (!defaultMatrix && f.2.2.2.1) readOpsin none
  let cw ← readIf (!defaultMatrix) (readBits 3) 0
  let up2 ← readWeights (cw.testBit 0) 15
  let up4 ← readWeights (cw.testBit 1) 55
  let up8 ← readWeights (cw.testBit 2) 210
  Pure.pure ⟨size, x.1, oriented, x.2.1, x.2.2, f.1, f.2.1, f.2.2.1, alphaPositions 0 f.2.2.1, f.2.2.2.1, f.2.2.2.2, tone, ext, opsin, up2, up4, up8⟩

end Jxl
