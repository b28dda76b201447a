import Verif.Model.Image
import Verif.Model.ImageHeader
import Verif.Model.ICC

/-!
# Decoded images (core/jxl_image.go)

Colours: `float32` chromaticities as `F32`. Simplification: in `CIEXY.Matches` the two `float64` operations are exact.
The transfer curves themselves (colour/transfer_function.go) are in Model/TransferFunction.lean, over the real numbers.
Here `curve tf` is the function applied to a
sample for the transfer function `tf`, `v ↦ float32(FromLinear(float64(v)))`, and may be any function.
-/
namespace Jxl

/-- colour/CIEXY.go:10-13 `CIEXY`. -/
structure CIEXY where
  x : F32
  y : F32
  deriving DecidableEq

/-- colour/CIEPrimaries.go:3-7 `CIEPrimaries`. -/
structure CIEPrimaries where
  red : CIEXY
  green : CIEXY
  blue : CIEXY
  deriving DecidableEq

/-- `math.Abs(float64(a-b))`, `none` if it is infinite or NaN. -/
def F32.dist (a b : F32) : Option ℚ :=
  match F32.sub a b with
  | .fin q => some |q|
  | _ => none

/-- colour/CIEXY.go:22-28 `Matches`. -/
def CIEXY.matches (a b : CIEXY) : Bool :=
  match F32.dist a.x b.x, F32.dist a.y b.y with
  | some dx, some dy => decide (dx + dy < 1 / 10000)
  | _, _ => false

/-- colour/CIEPrimaries.go:17-23 `Matches`. -/
def CIEPrimaries.matches (a b : CIEPrimaries) : Bool := a.red.matches b.red && a.green.matches b.green && a.blue.matches b.blue

/-- A `float32` constant. -/
def cieXY (x y : ℚ) : CIEXY := ⟨F32.round x, F32.round y⟩

/-- colour/colour_flags.go:72-77: sRGB. -/
def priSRGB : CIEPrimaries :=
  ⟨cieXY (639998686 / 1000000000) (330010138 / 1000000000), cieXY (300003784 / 1000000000) (600003357 / 1000000000),
   cieXY (150002046 / 1000000000) (59997204 / 1000000000)⟩
/-- colour/colour_flags.go:78-82: BT.2100. -/
def priBT2100 : CIEPrimaries := ⟨cieXY (708 / 1000) (292 / 1000), cieXY (170 / 1000) (797 / 1000), cieXY (131 / 1000) (46 / 1000)⟩
/-- colour/colour_flags.go:83-87: P3. -/
def priP3 : CIEPrimaries := ⟨cieXY (680 / 1000) (320 / 1000), cieXY (265 / 1000) (690 / 1000), cieXY (150 / 1000) (60 / 1000)⟩
/-- colour/colour_flags.go:96-97: D65. -/
def wpD65 : CIEXY := cieXY (3127 / 10000) (3290 / 10000)

/-- colour/CustomXY.go:22-38: `float32(u) * 1e-6`. -/
def customCoord (u : Int) : F32 := F32.mul (F32.ofInt u) (F32.round (1 / 1000000))
/-- The `i`-th pair of coordinates of the stream. -/
def customXY (l : List Int) (i : Nat) : CIEXY := ⟨customCoord (l.getD (2 * i) 0), customCoord (l.getD (2 * i + 1) 0)⟩

/-- colour/colour_encoding_bundle.go:91-109 and colour/colour_flags.go:70-92: `Prim` (never `nil`, the enum has been checked). -/
def ColourEncoding.primXY (c : ColourEncoding) : CIEPrimaries :=
  if c.primaries = 2 then ⟨customXY c.prim 0, customXY c.prim 1, customXY c.prim 2⟩
  else if c.primaries = 9 then priBT2100
  else if c.primaries = 11 then priP3
  else priSRGB

/-- colour/colour_encoding_bundle.go:66-74 and 147-159: `White`. -/
def ColourEncoding.whiteXY (c : ColourEncoding) : CIEXY :=
  if c.whitePoint = 2 then customXY c.white 0
  else if c.whitePoint = 10 then cieXY (1 / 3) (1 / 3)
  else if c.whitePoint = 11 then cieXY (314 / 1000) (351 / 1000)
  else wpD65

/-- colour/colour_flags.go:24-30: transfer functions. -/
def tfLinear : Nat := 8 + 2 ^ 24
/-- colour/colour_flags.go:27. -/
def tfSRGB : Nat := 13 + 2 ^ 24
/-- colour/colour_flags.go:28. -/
def tfPQ : Nat := 16 + 2 ^ 24
/-- colour/colour_flags.go:30. -/
def tfHLG : Nat := 18 + 2 ^ 24

/-- core/jxl_image.go:22-38 `JXLImage`. A `nil` profile is `none`. -/
structure JXLImage where
  buffers : List ImageBuffer
  icc : Option (List Nat)
  bitDepths : List Nat
  prim : CIEPrimaries
  white : CIEXY
  header : ImageHeader
  width : Nat
  height : Nat
  colourEncoding : Nat
  alphaIndex : Int
  primaries : Nat
  whitePoint : Nat
  transfer : Nat
  taggedTransfer : Nat
  premultiplied : Bool
  deriving DecidableEq

/-- bundle/image_header.go:364-370 `GetColourChannelCount`. -/
def ImageHeader.colourCount (h : ImageHeader) : Nat := if h.colour.space = 1 then 1 else 3
/-- bundle/image_header.go:388-390 `HasAlpha`. -/
def ImageHeader.hasAlpha (h : ImageHeader) : Bool := decide (0 < h.alphaIndices.length)

/-- core/jxl_image.go:74-80: the depths of the channels from channel `c` on. -/
def channelDepths (h : ImageHeader) (colours : Nat) : Nat → Nat → Res (List Nat)
  | _, 0 => .ok []
  | c, n + 1 => do
    let d ← if c < colours then .ok h.bitDepth.bits else do
      let e ← idx h.extra ((c : Int) - colours)
      .ok e.bitDepth.bits
    let ds ← channelDepths h colours (c + 1) n
    .ok (d :: ds)

/-- core/jxl_image.go:60-69: the profile and the transfer function; `enc` is the encoded profile of the header. -/
def imageProfile (h : ImageHeader) (enc : Option (List UInt8)) : Res (Nat × Option (List Nat)) :=
  if h.xyb then .ok (tfLinear, none)
  else match enc with
    | none => .ok (h.colour.tf, none)
    | some e => do
      let p ← getDecodedICC e
      .ok (h.colour.tf, some p)

/-- core/jxl_image.go:71: is the first alpha channel premultiplied? -/
def imagePremultiplied (h : ImageHeader) (alphaIndex : Int) : Res Bool :=
  if h.hasAlpha then do
    let e ← idx h.extra alphaIndex
    .ok e.alphaAssociated
  else .ok false

/-- core/jxl_image.go:41-82 `NewJXLImageWithBuffer`. -/
def newJXLImage (buffers : List ImageBuffer) (h : ImageHeader) (enc : Option (List UInt8)) : Res JXLImage := do
  let alpha ← if h.hasAlpha then (do let a ← idx h.alphaIndices 0; Res.ok (a : Int)) else .ok (-1)
  let p ← imageProfile h enc
  let pre ← imagePremultiplied h alpha
  let ds ← channelDepths h (if h.colour.space = 1 then 1 else 3) 0 buffers.length
  .ok ⟨buffers, p.2, ds, h.colour.primXY, h.colour.whiteXY, h, h.orientedSize.width, h.orientedSize.height, h.colour.space, alpha,
    h.colour.primaries, h.colour.whitePoint, p.1, h.colour.tf, pre⟩

/-- core/jxl_image.go:104-107: the loop ranges over the buffers of the *new* image, of which there are none (`range`
evaluates its operand once). The body would append a copy of each. -/
def copyChannels (copyOf : ImageBuffer → ImageBuffer) : List ImageBuffer → List ImageBuffer → List ImageBuffer
  | [], acc => acc
  | b :: bs, acc => copyChannels copyOf bs (acc ++ [copyOf b])

/-- image/imagebuffer.go:67-82 `NewImageBufferFromImageBuffer`, as a value. -/
def copyBuffer (copyIt : Bool) (b : ImageBuffer) : ImageBuffer :=
  if copyIt then b
  else { b with
    ints := List.replicate b.height.toNat (List.replicate b.width.toNat 0)
    floats := List.replicate b.height.toNat (List.replicate b.width.toNat (F32.fin 0)) }

/-- core/jxl_image.go:84-110 `NewJXLImageFromJXLImage`. -/
def newFromImage (img : JXLImage) (copyIt : Bool) : JXLImage :=
  let empty : List ImageBuffer := []
  { img with buffers := copyChannels (copyBuffer copyIt) empty empty }

/-- `^(^0 << n)` as an `int32`. -/
def mask32 (n : Nat) : Int := if 32 ≤ n then -1 else 2 ^ n - 1

/-- core/jxl_image.go:370-378 `isHDR`. -/
def JXLImage.isHDR (img : JXLImage) : Bool :=
  if img.taggedTransfer = tfPQ ∨ img.taggedTransfer = tfHLG ∨ img.taggedTransfer = tfLinear then true
  else !img.header.colour.primXY.matches priSRGB && !img.header.colour.primXY.matches priP3

/-- core/jxl_image.go:529-536 `linearize`. -/
def linearize (img : JXLImage) : Res JXLImage := if img.transfer = tfLinear then .ok img else .panic

/-- image/imagebuffer.go:103-113 `MaxInt`. -/
def maxInt (m : List (List Int)) : Int := m.foldl (fun a r => r.foldl (fun a v => if a < v then v else a) a) 0
/-- image/imagebuffer.go:115-125 `MaxFloat`. -/
def maxFloat (m : List (List F32)) : F32 := m.foldl (fun a r => r.foldl (fun a v => if F32.lt a v then v else a) a) (.fin 0)

/-- core/jxl_image.go:435-458 `determinePeak`, for a linear image (the only case in which it returns). -/
def determinePeak (img : JXLImage) : Res F32 :=
  if img.transfer ≠ tfLinear then .panic
  else do
    let c : Int := if img.colourEncoding ≠ 1 then 1 else 0
    let b ← idx img.buffers c
    if b.isInt then do
      let d ← idx img.bitDepths c
      .ok (F32.div (F32.ofInt (maxInt b.ints)) (F32.ofInt (if 64 ≤ d then -1 else 2 ^ d - 1)))
    else .ok (maxFloat b.floats)

/-- A loop `for c … { jxl.Buffer[c] = f(jxl.bitDepths[c], jxl.Buffer[c]) }` over the `n` channels from `c` on; a body need not look
at the depth. -/
def eachChannel (f : Res Nat → ImageBuffer → Res ImageBuffer) : Nat → Nat → JXLImage → Res JXLImage
  | _, 0, img => .ok img
  | c, n + 1, img => do
    let b ← idx img.buffers c
    let b ← f (idx img.bitDepths c) b
    let bs ← setAt img.buffers c b
    eachChannel f (c + 1) n { img with buffers := bs }

/-- Casts the first `n` channels to floats, with the maximum given by `mx`. -/
def castChannels (mx : Nat → Int) (n : Nat) (img : JXLImage) : Res JXLImage :=
  eachChannel (fun d b => do
    let d ← d
    castToFloatIfMax b (mx d)) 0 n img

/-- core/jxl_image.go:460-486 `transferWithOp`. -/
def transferWithOp (f : F32 → F32) (img : JXLImage) : Res JXLImage := do
  let colours := if img.colourEncoding = 1 then 1 else 3
  let img ← castChannels mask32 colours img
  let out := newFromImage img false
  let bs ← forFrom (fun c bs => do
    let b ← idx bs c
    let s ← idx img.buffers c
    let m ← fillLoop img.height img.width (fun y x => do
      let v ← at2 s.floats y x
      .ok (f v)) b.floats
    setAt bs c { b with floats := m }) colours 0 out.buffers
  .ok { out with buffers := bs }

/-- colour/colour_management.go:114-136 `GetTransferFunction`: which transfer functions exist. -/
def hasCurve (tf : Nat) : Bool :=
  tf == tfLinear || tf == tfSRGB || tf == tfPQ || tf == 1 + 2 ^ 24 || tf == 17 + 2 ^ 24 || decide (tf < 2 ^ 24)

/-- core/jxl_image.go:542-564 `transferInPlace`. -/
def transferInPlace (f : F32 → F32) (img : JXLImage) : Res JXLImage := do
  let colours := if img.colourEncoding = 1 then 1 else 3
  let img ← castChannels (fun d => i32 d) colours img
  eachChannel (fun _ b => do
    let m ← fillLoop img.height img.width (fun y x => do
      let v ← at2 b.floats y x
      .ok (f v)) b.floats
    .ok { b with floats := m }) 0 colours img

/-- core/jxl_image.go:499-516: scaling of a PQ image (with automatic peak detection). -/
def peakScale (img : JXLImage) (tf : Nat) : Res JXLImage :=
  if img.taggedTransfer = tfPQ ∧ (img.transfer = tfPQ ∨ img.transfer = tfLinear) ∧ ¬ (tf = tfPQ ∨ tf = tfLinear) then do
    let peak ← determinePeak img
    let scale := F32.div (.fin 1) peak
    if F32.lt (.fin 1) scale then transferWithOp (fun v => F32.mul v scale) img else .ok img
  else .ok img

/-- core/jxl_image.go:488-527 `transferImage`, with automatic peak detection. The transfer function recorded in the image is
not updated. -/
def transferImage (curve : Nat → F32 → F32) (img : JXLImage) (tf : Nat) : Res JXLImage :=
  if tf = img.transfer then .ok img
  else do
    let img ← linearize img
    let img ← peakScale img tf
    if hasCurve tf then transferInPlace (curve tf) img else .err

/-- core/jxl_image.go:380-401 `transform`; `toneMapLinear` (538-540) does nothing. -/
def transform (curve : Nat → F32 → F32) (img : JXLImage) (prim : CIEPrimaries) (white : CIEXY) (tf : Nat) : Res JXLImage :=
  if prim.matches img.prim && white.matches img.white then transferImage curve img tf
  else do
    let img ← linearize img
    transferImage curve img tf

/-- core/jxl_image.go:225-242 and core/png_writer.go:42-57: the colours of the output. -/
def toOutputColours (curve : Nat → F32 → F32) (img : JXLImage) : Res JXLImage :=
  match img.icc with
  | some _ => .ok img
  | none => transform curve img (if img.isHDR then priBT2100 else priSRGB) wpD65 (if img.isHDR then tfPQ else tfSRGB)

/-- core/jxl_image.go:249-256 and core/png_writer.go:84-91: is there an integer channel of another depth? -/
def needsCoerce (depth : Nat) : List ImageBuffer → List Nat → Res Bool
  | [], _ => .ok false
  | b :: bs, ds =>
    if b.isInt then
      match ds with
      | [] => .panic
      | d :: ds => if d ≠ depth then .ok true else needsCoerce depth bs ds
    else needsCoerce depth bs ds.tail

/-- core/jxl_image.go:267-277, core/png_writer.go:103-113 and 327-337: a channel becomes an integer channel. -/
def settleChannel (I : FloatImpl) (depth : Nat) (d : Res Nat) (b : ImageBuffer) : Res ImageBuffer := do
  let same ← if b.isInt then (do let d ← d; Res.ok (decide (d = depth))) else .ok false
  if same then clampBuffer b (mask32 depth) else castToIntIfMax I b (mask32 depth)

/-- The same loops, over all channels. -/
def settleChannels (I : FloatImpl) (depth : Nat) (img : JXLImage) : Res JXLImage :=
  eachChannel (settleChannel I depth) 0 img.buffers.length img

/-- core/jxl_image.go:244-263 and core/png_writer.go:79-98: if a channel has another depth, all become floats. -/
def coerceSamples (img : JXLImage) (depth : Nat) : Res JXLImage := do
  let coerce ← if img.premultiplied then .ok true else needsCoerce depth img.buffers img.bitDepths
  if coerce then castChannels mask32 img.buffers.length img else .ok img

/-- core/jxl_image.go:244-277 and core/png_writer.go:79-113: the samples of the output, with `depth` bits. -/
def toOutputSamples (I : FloatImpl) (img : JXLImage) (depth : Nat) : Res JXLImage := do
  let img ← coerceSamples img depth
  if img.premultiplied then .panic else settleChannels I depth img

/-- Go conversion of an `int32` to `uint8`. -/
def byteOf (v : Int) : UInt8 := UInt8.ofNat (v % 256).toNat

/-- core/jxl_image.go:289-316 `createGrayScaleImage` for integer buffers (`ToImage` has converted them): the bytes `Pix` of
the `image.Gray`, in rows from the top. -/
def grayPix (img : JXLImage) : Res (List UInt8) := do
  let b0 ← idx img.buffers 0
  forFrom (fun y acc => forFrom (fun x acc => do
    let v ← at2 b0.ints y x
    .ok (acc ++ [byteOf v])) b0.width.toNat 0 acc) b0.height.toNat 0 []

/-- core/jxl_image.go:330-366: the alpha byte of a pixel. -/
def alphaByte (img : JXLImage) (y x : Nat) : Res UInt8 :=
  if img.header.hasAlpha then do
    let b3 ← idx img.buffers 3
    let a ← at2 b3.ints y x
    .ok (byteOf a)
  else .ok 255

/-- core/jxl_image.go:318-368 `create24BitImage` for integer buffers: the bytes `Pix` of the `image.NRGBA`. -/
def nrgbaPix (img : JXLImage) : Res (List UInt8) := do
  let b0 ← idx img.buffers 0
  forFrom (fun y acc => forFrom (fun x acc => do
    let r ← at2 b0.ints y x
    let b1 ← idx img.buffers 1
    let g ← at2 b1.ints y x
    let b2 ← idx img.buffers 2
    let b ← at2 b2.ints y x
    let a ← alphaByte img y x
    .ok (acc ++ [byteOf r, byteOf g, byteOf b, a])) b0.width.toNat 0 acc) b0.height.toNat 0 []

/-- An `image.Image` made by `ToImage`. -/
structure Pixels where
  gray : Bool
  width : Nat
  height : Nat
  pix : List UInt8
  deriving DecidableEq

/-- core/jxl_image.go:216-287 `ToImage`: the picture and the image as it is afterwards (its buffers are changed in place). -/
def toImage (I : FloatImpl) (curve : Nat → F32 → F32) (img : JXLImage) : Res (Pixels × JXLImage) := do
  let depth := if 8 < img.header.bitDepth.bits then 16 else 8
  let img ← toOutputColours curve img
  let img ← toOutputSamples I img depth
  let b0 ← idx img.buffers 0
  if img.header.colourCount = 1 then do
    let p ← grayPix img
    .ok (⟨true, b0.width.toNat, b0.height.toNat, p⟩, img)
  else do
    let p ← nrgbaPix img
    .ok (⟨false, b0.width.toNat, b0.height.toNat, p⟩, img)

end Jxl
