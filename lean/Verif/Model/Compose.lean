import Verif.Model.Blend

/-!
# The loop over the frames (core/jxl_codestream_decoder.go:159-280)

Decoding a frame is not part of this model: a frame is its header and the buffers it has after upsampling. Patches, splines and noise do nothing. The
colour transform of the frame is a function on its buffers, which works in place. Frames have no duration (animations are rejected).
-/
namespace Jxl

/-- A frame as `Upsample` leaves it. -/
structure DecodedFrame where
  header : FrameHeader
  buffers : List ImageBuffer

/-- image/imagebuffer.go:261-273 `ImageBufferSliceEquals`. -/
def sliceEquals : List ImageBuffer → List ImageBuffer → Bool
  | [], [] => true
  | a :: l, b :: m => a.equals b && sliceEquals l m
  | _, _ => false

/-- core/jxl_codestream_decoder.go:195: is the frame saved? -/
def FrameHeader.saves (f : FrameHeader) : Bool := !f.isLast && f.frameType != 1

/-- core/jxl_codestream_decoder.go:213-215: the buffers of the frame are saved before the colour transform. -/
def saveEarly (f : FrameHeader) (s : Store) : Res Store :=
  if f.saves && f.saveBeforeCT then do
    let r ← setAt s.refs f.saveAsReference (some s.frame)
    .ok { s with refs := r }
  else .ok s

/-- core/jxl_codestream_decoder.go:232-235: the colour transform. -/
def colourStep (ct : FrameHeader → List ImageBuffer → Res (List ImageBuffer)) (f : FrameHeader) (s : Store) : Res Store := do
  let l ← idx s.slices s.frame
  let l ← ct f l
  let m ← setAt s.slices s.frame l
  .ok { s with slices := m }

/-- core/jxl_codestream_decoder.go:241-249: the first frame gives the canvas its buffers. -/
def initCanvas (h : ImageHeader) (s : Store) : Res Store := do
  let l ← idx s.slices s.canvas
  let b ← idx l 0
  if b.height = 0 ∧ b.width = 0 then do
    let fb ← s.get s.frame 0
    let n ← newImageBuffer fb.bufferType (i32 h.size.height) (i32 h.size.width)
    let m ← setAt s.slices s.canvas (List.replicate l.length n)
    .ok { s with slices := m }
  else .ok s

/-- core/jxl_codestream_decoder.go:251-257: does a reference that this frame will not replace hold what the canvas holds? `nil` has no buffers. -/
def canvasSaved (f : FrameHeader) (s : Store) (canvas : List ImageBuffer) : Bool :=
  (List.range 4).any (fun i => i != f.saveAsReference && sliceEquals (((s.refs[i]?).join.bind (fun a => s.slices[a]?)).getD []) canvas)

/-- core/jxl_codestream_decoder.go:251-266: then the canvas is replaced by a copy. -/
def detachCanvas (f : FrameHeader) (s : Store) : Res Store := do
  let l ← idx s.slices s.canvas
  if canvasSaved f s l then .ok { s with slices := s.slices ++ [l], canvas := s.slices.length } else .ok s

/-- core/jxl_codestream_decoder.go:250-271: regular frames are painted. -/
def paintFrame (I : BlendImpl) (h : ImageHeader) (f : FrameHeader) (s : Store) : Res Store :=
  if f.frameType == 0 || f.frameType == 3 then do
    let s ← detachCanvas f s
    blendFrame I h f s
  else .ok s

/-- core/jxl_codestream_decoder.go:273-275: the canvas is saved. -/
def saveLate (f : FrameHeader) (s : Store) : Res Store :=
  if f.saves && !f.saveBeforeCT then do
    let r ← setAt s.refs f.saveAsReference (some s.canvas)
    .ok { s with refs := r }
  else .ok s

/-- core/jxl_codestream_decoder.go:188-275: one frame. LF frames are not composed. -/
def composeFrame (I : BlendImpl) (h : ImageHeader) (ct : FrameHeader → List ImageBuffer → Res (List ImageBuffer)) (d : DecodedFrame) (s : Store) : Res Store :=
  if d.header.frameType = 1 then .ok s
  else do
    let s ← saveEarly d.header { s with slices := s.slices ++ [d.buffers], frame := s.slices.length }
    let s ← colourStep ct d.header s
    let s ← initCanvas h s
    let s ← paintFrame I h d.header s
    saveLate d.header s

/-- core/jxl_codestream_decoder.go:159-280: the frames, until the last one. -/
def composeAll (I : BlendImpl) (h : ImageHeader) (ct : FrameHeader → List ImageBuffer → Res (List ImageBuffer)) : List DecodedFrame → Store → Res Store
  | [], s => .ok s
  | d :: ds, s => do
    let s ← composeFrame I h ct d s
    if d.header.isLast then .ok s else composeAll I h ct ds s

end Jxl
