import Verif.Model.Boxes
import Verif.Model.Compose
import Verif.Model.ModularFrame

/-!
# Decoding a file (core/jxl_codestream_decoder.go:53-311, core/jxl_decoder.go, reader.go, options/jxl_options.go, bundle/image_header.go:332-361)

The reader that the decoder uses (testcommon/bitreaderRecorder.go) passes every call on to the bit reader; that it keeps what was read is not modelled.
-/
namespace Jxl

/-! ## The end of the image header -/

/-- bundle/image_header.go:345-351: `n` more bytes of the encoded profile, after those in `acc`. -/
def iccBytes : Nat → List Nat → ES → Rd (List Nat × ES)
  | 0, acc, es => Pure.pure (acc, es)
  | n + 1, acc, es => do
    let c ← Rd.lift (iccContext acc acc.length)
    let r ← es.readSymbol c
    iccBytes n (acc ++ [(r.1 % 256).toNat]) r.2

/-- bundle/image_header.go:333-355: the encoded profile. -/
def readEncodedICC : Rd (List UInt8) := do
  let n ← readU64
  if 4294967295 < n then Rd.fail
  else do
    let es ← ES.load 41 false
    let r ← iccBytes n [] es
    if r.2.validateFinalState then Pure.pure (r.1.map UInt8.ofNat) else Rd.fail

/-- bundle/image_header.go:136-361 `ParseImageHeader`: the header and its `EncodedICC` (`nil` is `none`). -/
def parseImageHeader (level : Int) : Rd (ImageHeader × Option (List UInt8)) := do
  let h ← readImageHeaderFields level
  let enc ← readIf h.colour.useIcc (do let e ← readEncodedICC; Pure.pure (some e)) none
  zeroPadToByte
  Pure.pure (h, enc)

/-- core/jxl_codestream_decoder.go:66-79 and 92-108: the image header in the box at `offset`; `none` at the end of the file. -/
def headerAt (offset : Nat) (level : Nat) : Rd (Option (ImageHeader × Option (List UInt8))) := do
  seekStart offset
  fun s => match atEnd s with
    | (true, s') => (.ok none, s')
    | (false, s') => (do
      let h ← parseImageHeader level
      Pure.pure (some h)) s'

/-- core/jxl_codestream_decoder.go:53-82 `GetImageHeader`; `none` is a `nil` header without an error. -/
def getHeader : Rd (Option (ImageHeader × Option (List UInt8))) := do
  let b ← readBoxHeader
  if b.1.length > 1 then Rd.fail
  else do
    let box ← Rd.lift (idx b.1 0)
    headerAt box.offset b.2

/-! ## What the image header determines -/

/-- colour/OpsinInverseMatrix.go:12-16 `DEFAULT_MATRIX`. -/
def opsinMatrixDefault : List (List F32) :=
  [[F32.round (11031566901960783 / 10 ^ 15), F32.round (-9866943921568629 / 10 ^ 15), F32.round (-16462299647058826 / 10 ^ 17)],
   [F32.round (-3254147380392157 / 10 ^ 15), F32.round (4418770392156863 / 10 ^ 15), F32.round (-16462299647058826 / 10 ^ 17)],
   [F32.round (-36588512862745097 / 10 ^ 16), F32.round (27129230470588235 / 10 ^ 16), F32.round (19459282392156863 / 10 ^ 16)]]

/-- colour/OpsinInverseMatrix.go:17 `DEFAULT_OPSIN_BIAS`. -/
def opsinBiasDefault : List F32 := List.replicate 3 (F32.round (-37930732552754493 / 10 ^ 19))

/-- Chromaticities in the form of `Model/Colour.lean`. -/
def CIEXY.xy (c : CIEXY) : XY F32 := ⟨c.x, c.y⟩
/-- See `CIEXY.xy`. -/
def CIEPrimaries.primaries (p : CIEPrimaries) : Primaries F32 := ⟨p.red.xy, p.green.xy, p.blue.xy⟩

/-- colour/OpsinInverseMatrix.go:31-33 and 54-103: the matrix of the image header, default or read. -/
def headerOpsin (cbrt : F32 → F32) (h : ImageHeader) : Res (Opsin F32) :=
  match h.opsin with
  | none => Opsin.bake cbrt priSRGB.primaries wpD65.xy opsinMatrixDefault opsinBiasDefault
  | some l =>
    let w := l.map F32.fin
    Opsin.bake cbrt priSRGB.primaries wpD65.xy [w.take 3, (w.drop 3).take 3, (w.drop 6).take 3] ((w.drop 9).take 3)

/-- core/jxl_codestream_decoder.go:125-132: the matrix of an XYB image. -/
def imageMatrix (cbrt : F32 → F32) (h : ImageHeader) : Res (Option (Opsin F32)) :=
  if h.xyb then do
    let o ← headerOpsin cbrt h
    let m ← o.forColours cbrt h.colour.primXY.primaries h.colour.whiteXY.xy
    .ok (some m)
  else .ok none

/-- bundle/image_header.go:283-331: the weights of one factor. -/
def headerWeights (custom : Option (List ℚ)) (dflt : List Int) : List F32 :=
  match custom with
  | some l => l.map F32.fin
  | none => dflt.map fun i => F32.round ((i : ℚ) / 10 ^ 8)

/-- bundle/image_header.go:865-918: the weights for upsampling. -/
def imageWeights (h : ImageHeader) : Res (List (List (List (List (List F32))))) :=
  upWeights (headerWeights h.up2 defaultUp2) (headerWeights h.up4 defaultUp4) (headerWeights h.up8 defaultUp8)

/-! ## Frames -/

/-- Parts of the decoder that may be any functions: VarDCT frames (which are given the LF frame) and filters, how the processor evaluates arithmetic, the
cube root, and the order in which goroutines upsample the channels of the frame. -/
structure DecodeParts where
  frames : Option (List ImageBuffer) → FrameParts
  impl : BlendImpl
  cbrt : F32 → F32
  orders : FrameHeader → Nat → List UpStep

/-- core/jxl_codestream_decoder.go:690-732: the colour transform of a frame; its bounds have been multiplied by the upsampling factor (frame/Frame.go:1451-1452). -/
def frameColours (matrix : Option (Opsin F32)) (h : ImageHeader) (f : FrameHeader) (l : List ImageBuffer) : Res (List ImageBuffer) :=
  performColourTransforms matrix (F32.round h.tone.intensityTarget) h.bitDepth.bits f.doYCbCr
    (paddedFrameSize { f with size := ⟨u32 (f.size.width * f.upsampling), u32 (f.size.height * f.upsampling)⟩ }) l

/-- `JXLCodestreamDecoder` while frames are decoded: the memory of `Model/Compose.lean`, and `lfBuffer`. -/
structure DecodeState where
  store : Store
  lf : List (Option (List ImageBuffer))

/-- frame/Frame.go:103-125 `ReadFrameHeader`: the header and the numbers of groups. -/
def readFrameStart (h : ImageHeader) : Rd (FrameHeader × Layout) := do
  zeroPadToByte
  let f ← readFrameHeader h.xyb h.extra.length h.size
  let l ← Rd.lift (frameLayout f)
  Pure.pure (f, l)

/-- core/jxl_codestream_decoder.go:160-176: the header and the table of contents of a frame. -/
def readFrameFront (h : ImageHeader) (lf : List (Option (List ImageBuffer))) : Rd (FrameHeader × Layout × Option (List ImageBuffer) × TOC) := do
  let fl ← readFrameStart h
  let b ← Rd.lift (idx lf fl.1.lfLevel)
  if b.isNone && fl.1.flags.testBit 5 then Rd.fail
  else do
    let toc ← readTOC fl.2.numGroups fl.2.numLFGroups fl.1.passes.numPasses
    Pure.pure (fl.1, fl.2, b, toc)

/-- core/jxl_codestream_decoder.go:188-190: the buffers of a frame are kept as an LF frame. -/
def keepLF (f : FrameHeader) (bufs : List ImageBuffer) (lf : List (Option (List ImageBuffer))) : Res (List (Option (List ImageBuffer))) :=
  if 0 < f.lfLevel then setAt lf ((f.lfLevel : Int) - 1) (some bufs) else .ok lf

/-- core/jxl_codestream_decoder.go:160-279: one frame; the second component tells whether it is the last. -/
def decodeRound (D : DecodeParts) (h : ImageHeader) (matrix : Option (Opsin F32)) (st : DecodeState) : Rd (DecodeState × Bool) := do
  let x ← readFrameFront h st.lf
  let bufs ← decodeFrame (D.frames x.2.2.1) D.impl.toFloatImpl h x.1 x.2.1 x.2.2.2
  let lf ← Rd.lift (keepLF x.1 bufs st.lf)
  if x.1.frameType = 1 then Pure.pure (⟨st.store, lf⟩, false)
  else do
    let up ← Rd.lift (upsampleFrame h x.1 (imageWeights h) (D.orders x.1) bufs)
    let s ← Rd.lift (composeFrame D.impl h (frameColours matrix h) ⟨x.1, up⟩ st.store)
    Pure.pure (⟨s, lf⟩, x.1.isLast)

/-- core/jxl_codestream_decoder.go:159-280: the frames up to the last one, of which there are fewer than `fuel`. -/
def decodeRounds (D : DecodeParts) (h : ImageHeader) (matrix : Option (Opsin F32)) : Nat → DecodeState → Rd Store
  | 0, _ => Rd.crash
  | fuel + 1, st => do
    let r ← decodeRound D h matrix st
    if r.2 then Pure.pure r.1.store else decodeRounds D h matrix fuel r.1

/-- core/jxl_codestream_decoder.go:159-181 with `ParseOnly`: every frame is skipped, and `continue` skips the test for the last frame. -/
def parseRounds (h : ImageHeader) : Nat → Rd Unit
  | 0 => Rd.crash
  | fuel + 1 => do
    let x ← readFrameFront h (List.replicate 5 none)
    skipFrameData x.2.2.2.lengths
    parseRounds h fuel

/-! ## Files -/

/-- core/jxl_codestream_decoder.go:34-39, 114: a new decoder; the canvas is a slice of empty buffers. -/
def newState (h : ImageHeader) : DecodeState :=
  ⟨⟨[List.replicate (h.colourCount + h.extra.length) ⟨0, 0, 0, [], []⟩], 0, 0, List.replicate 4 none⟩, List.replicate 5 none⟩

/-- core/jxl_codestream_decoder.go:139-157: the position from which frames are read: the second box, if there is one. -/
def seekFrames (boxes : List BoxHeader) : Rd Unit :=
  match boxes with
  | _ :: b :: _ => seekStart b.offset
  | _ => Pure.pure ()

/-- core/jxl_codestream_decoder.go:282-307: from the canvas to the image. -/
def finishImage (h : ImageHeader) (enc : Option (List UInt8)) (s : Store) : Rd JXLImage := do
  zeroPadToByte
  let canvas ← Rd.lift (idx s.slices s.canvas)
  let canvas ← Rd.lift (orientCanvas canvas h.orientation)
  Rd.lift (newJXLImage canvas h enc)

/-- core/jxl_codestream_decoder.go:111-307: what follows the image header. The loop over the boxes ends in its first round. -/
def decodeFrames (D : DecodeParts) (parseOnly : Bool) (fuel : Nat) (boxes : List BoxHeader) (h : ImageHeader) (enc : Option (List UInt8)) : Rd (Option JXLImage) :=
  if h.preview.isSome then Rd.fail
  else do
    let matrix ← Rd.lift (imageMatrix D.cbrt h)
    seekFrames boxes
    fun s => match atEnd s with
      | (true, s') => (.ok none, s')
      | (false, s') => (if parseOnly then do
          parseRounds h fuel
          zeroPadToByte
          Pure.pure none
        else do
          let st ← decodeRounds D h matrix fuel (newState h)
          let img ← finishImage h enc st
          Pure.pure (some img)) s'

/-- core/jxl_codestream_decoder.go:84-311 `decode`; `none` is a `nil` image without an error. An image header never carries an animation. -/
def decodeFile (D : DecodeParts) (parseOnly : Bool) (fuel : Nat) : Rd (Option JXLImage) := do
  let b ← readBoxHeader
  let box ← Rd.lift (idx b.1 0)
  let h ← headerAt box.offset b.2
  match h with
  | none => Pure.pure none
  | some h => decodeFrames D parseOnly fuel b.1 h.1 h.2

/-! ## The package `jxl_go` and the options -/

/-- options/jxl_options.go:5-10. -/
structure Options where
  debug : Bool
  parseOnly : Bool
  renderVarblocks : Bool
  maxGoroutines : Int
  deriving DecidableEq

/-- options/jxl_options.go:12-29 `NewJXLOptions`; `procs` is the number of processors. -/
def newOptions (procs : Int) (o : Option Options) : Options :=
  match o with
  | none => ⟨false, false, false, procs⟩
  | some o => ⟨o.debug, o.parseOnly, false, if 1 < o.maxGoroutines then o.maxGoroutines else procs⟩

/-- core/jxl_decoder.go:22-45 and core/jxl_codestream_decoder.go:32-42: `NewJXLDecoder(in, opts).Decode()`. The options are copied twice. -/
def coreDecode (D : DecodeParts) (fuel : Nat) (procs : Int) (opts : Option Options) : Rd (Option JXLImage) :=
  let o := match opts with
    | none => newOptions procs none
    | some o => o
  decodeFile D (newOptions procs (some o)).parseOnly fuel

/-- reader.go:20-43 `Decode`, for a reader that can seek. `ToImage` of a `nil` image is a panic. -/
def pkgDecode (D : DecodeParts) (curve : Nat → F32 → F32) (fuel : Nat) (procs : Int) : Rd Pixels := do
  let img ← coreDecode D fuel procs none
  match img with
  | none => Rd.crash
  | some img => do
    let p ← Rd.lift (toImage D.impl.toFloatImpl curve img)
    Pure.pure p.1

/-- The colour models of `image/color` that `DecodeConfig` names. -/
inductive ColourModel
  | rgba | gray | nrgba
  deriving DecidableEq

/-- `image.Config`. -/
structure Config where
  model : ColourModel
  width : Nat
  height : Nat
  deriving DecidableEq

/-- reader.go:58-67: the colour model. -/
def configModel (space : Nat) : ColourModel := if space = 0 then .rgba else if space = 2 then .gray else if space = 1 then .gray else .rgba

/-- reader.go:45-77 `DecodeConfig`, for a reader that can seek. A `nil` header is a panic. -/
def pkgDecodeConfig : Rd Config := do
  let h ← getHeader
  match h with
  | none => Rd.crash
  | some h => Pure.pure ⟨configModel h.1.colour.space, h.1.size.width, h.1.size.height⟩

/-- core/jxl_image.go:289-316 and 318-368: the colour model of the images that `ToImage` makes, `image.Gray` or `image.NRGBA`. -/
def Pixels.model (p : Pixels) : ColourModel := if p.gray then .gray else .nrgba

/-! ## Readers, and the registry of the package `image` -/

/-- An `io.Reader`: its bytes, and whether it has the methods `Seek` and `Peek`. -/
structure Source where
  data : List UInt8
  seeks : Bool
  peeks : Bool

/-- reader.go:20-27: `Decode` of any reader. -/
def readerDecode (D : DecodeParts) (curve : Nat → F32 → F32) (fuel : Nat) (procs : Int) (r : Source) : Res Pixels :=
  if r.seeks then (pkgDecode D curve fuel procs (BR.new r.data)).1 else .err

/-- reader.go:45-51: `DecodeConfig` of any reader. -/
def readerConfig (r : Source) : Res Config := if r.seeks then (pkgDecodeConfig (BR.new r.data)).1 else .err

/-- A format of the registry of Go's package `image` (`RegisterFormat`): its magic bytes and functions. -/
structure Format where
  magic : List UInt8
  decode : Source → Res Pixels
  config : Source → Res Config

/-- reader.go:13-17: what `init` registers. -/
def jxlFormat (D : DecodeParts) (curve : Nat → F32 → F32) (fuel : Nat) (procs : Int) : Format :=
  ⟨[0x00, 0x00, 0x00, 0x0C, 0x4A, 0x58, 0x4C, 0x20, 0x0D, 0x0A, 0x87, 0x0A], readerDecode D curve fuel procs, readerConfig⟩

/-- Go's image/format.go `asReader`: a reader without `Peek` is wrapped in a `bufio.Reader`, which has `Peek` but no `Seek`. Not part of the repository; the
behaviour of the standard library is assumed. -/
def asReader (r : Source) : Source := if r.peeks then r else ⟨r.data, false, true⟩

/-- Go's image/format.go `match`: `?` stands for any byte. See `asReader`. -/
def magicMatches (magic data : List UInt8) : Bool :=
  decide (magic.length ≤ data.length) && (magic.zip data).all fun x => x.1 == 0x3F || x.1 == x.2

/-- Go's image/format.go `Decode` and `DecodeConfig`: the first format whose magic bytes match. See `asReader`. -/
def registryDecode (formats : List Format) (r : Source) : Res Pixels :=
  match formats.find? fun f => magicMatches f.magic (asReader r).data with
  | none => .err
  | some f => f.decode (asReader r)
/-- See `registryDecode`. -/
def registryConfig (formats : List Format) (r : Source) : Res Config :=
  match formats.find? fun f => magicMatches f.magic (asReader r).data with
  | none => .err
  | some f => f.config (asReader r)

end Jxl
