import Verif.Model.FrameHeader
import Verif.Model.JXLImage

/-!
# Blending frames into the canvas (core/jxl_codestream_decoder.go)

Slices of buffers live in a memory, because the canvas, the frame and the references may be the same slice. Distinct slices never share
rows of samples: rows are allocated by `make` or copied. Rows have as much capacity as length.
-/
namespace Jxl

/-- util/misc.go:96-110 `Rectangle`. -/
structure Rectangle where
  x : Int
  y : Int
  width : Nat
  height : Nat
  deriving Repr, DecidableEq

/-- frame/Frame.go:1451-1455: the rectangle of a frame after upsampling. -/
def FrameHeader.rect (f : FrameHeader) : Rectangle :=
  ⟨i32 (f.x0 * f.upsampling), i32 (f.y0 * f.upsampling), u32 (f.size.width * f.upsampling), u32 (f.size.height * f.upsampling)⟩

/-- util/misc.go:112-117 `ComputeLowerCorner`, as (X, Y). -/
def Rectangle.lowerCorner (r : Rectangle) : Int × Int := (i32 (r.x + i32 r.width), i32 (r.y + i32 r.height))

/-- Where the frame is put: first row and column of the canvas, first row and column of the frame, number of rows and columns. -/
structure Place where
  startY : Int
  startX : Int
  offY : Int
  offX : Int
  height : Int
  width : Int
  deriving Repr, DecidableEq

/-- core/jxl_codestream_decoder.go:736-750: the first row depends on the sign of X, as in the code. -/
def blendPlace (r : Rectangle) (image : Dim) : Place :=
  let startY := if 0 ≤ r.x then r.y else 0
  let startX := if 0 ≤ r.x then r.x else 0
  ⟨startY, startX, i32 (startY - r.y), i32 (startX - r.x),
    i32 (min r.lowerCorner.2 (i32 image.height) - startY), i32 (min r.lowerCorner.1 (i32 image.width) - startX)⟩

/-- The memory: slices of buffers; the addresses of the canvas, of the buffers of the frame and of the four references (`nil` is `none`). -/
structure Store where
  slices : List (List ImageBuffer)
  canvas : Nat
  frame : Nat
  refs : List (Option Nat)

/-- The buffer at index `i` of the slice at address `a`. -/
def Store.get (s : Store) (a : Nat) (i : Int) : Res ImageBuffer := do
  let l ← idx s.slices a
  idx l i

/-- The assignment of a buffer. -/
def Store.set (s : Store) (a : Nat) (i : Int) (b : ImageBuffer) : Res Store := do
  let l ← idx s.slices a
  let l ← setAt l i b
  let m ← setAt s.slices a l
  .ok { s with slices := m }

/-- How the compiler evaluates `a*b + c*d`: the product that it may combine with the sum. -/
structure BlendImpl extends FloatImpl where
  left : Bool

/-- `a*b + c*d` -/
def BlendImpl.sumProd (I : BlendImpl) (a b c d : F32) : F32 :=
  if I.left then I.mulAdd a b (F32.mul c d) else I.mulAdd c d (F32.mul a b)

/-- core/jxl_codestream_decoder.go:993-1004 and 1051-1062: the depth of a channel, given the number of colour channels that precede the
extra channels. -/
def channelDepth (h : ImageHeader) (colours c : Nat) : Res Nat :=
  if colours ≤ c then do
    let e ← idx h.extra ((c : Int) - colours)
    .ok e.bitDepth.bits
  else .ok h.bitDepth.bits

/-- core/jxl_codestream_decoder.go:1043-1071 `convertCanvasWithDifferentBufferType`: the new frame buffer and the new memory. -/
def convertCanvas (h : ImageHeader) (s : Store) (c frameC frameColours : Nat) (fb : ImageBuffer) : Res (ImageBuffer × Store) := do
  let cb ← s.get s.canvas c
  if cb.bufferType = fb.bufferType then .ok (fb, s)
  else do
    let dc ← channelDepth h h.colourCount c
    let df ← channelDepth h frameColours frameC
    let fb ← castToFloatIfMax fb (mask32 df)
    let cb ← castToFloatIfMax cb (mask32 dc)
    let s ← s.set s.canvas c cb
    .ok (fb, s)

/-- `copy(d, s)` -/
def overlay {α : Type} (d s : List α) : List α := s.take d.length ++ d.drop s.length

/-- core/jxl_codestream_decoder.go:1084 and 1088: `copy(d[start:], s[lo:hi])`. -/
def copyRow {α : Type} (d s : List α) (start lo hi : Int) : Res (List α) :=
  if start < 0 ∨ (d.length : Int) < start then .panic
  else if lo < 0 ∨ hi < lo ∨ (s.length : Int) < hi then .panic
  else .ok (d.take start.toNat ++ overlay (d.drop start.toNat) ((s.take hi.toNat).drop lo.toNat))

/-- core/jxl_codestream_decoder.go:1082-1090: the rows, numbered by `uint32`. -/
def copyPlane {α : Type} (p : Place) (src dest : List (List α)) : Res (List (List α)) :=
  forFrom (fun y d => do
    let r ← idx d (u32 (y + toU32 p.startY) : Nat)
    let s ← idx src (u32 (y + toU32 p.offY) : Nat)
    let r ← copyRow r s p.startX p.offX (u32 (toU32 p.offX + toU32 p.width) : Nat)
    setAt d (u32 (y + toU32 p.startY) : Nat) r) (toU32 p.height) 0 dest

/-- core/jxl_codestream_decoder.go:1074-1092 `copyToCanvas`. -/
def copyToCanvas (cb : ImageBuffer) (p : Place) (fb : ImageBuffer) : Res ImageBuffer :=
  if cb.bufferType ≠ fb.bufferType then .err
  else if cb.isInt then do
    let m ← copyPlane p fb.ints cb.ints
    .ok { cb with ints := m }
  else do
    let m ← copyPlane p fb.floats cb.floats
    .ok { cb with floats := m }

/-- A plane that is read: the one that is being written, or another one. -/
inductive Src (α : Type) where
  | dest
  | own (m : List (List α))

/-- The sample of a plane. -/
def Src.at {α : Type} (s : Src α) (d : List (List α)) (y x : Int) : Res α :=
  match s with
  | .dest => at2 d y x
  | .own m => at2 m y x

/-- The loops of `performBlending`: `d[cy][cx] = f`, where `f` may read `d`. -/
def blendLoop {α : Type} (p : Place) (f : List (List α) → Int → Int → Int → Int → Res α) (d : List (List α)) : Res (List (List α)) :=
  forFrom (fun y d => forFrom (fun x d => do
    let v ← f d (i32 (y + p.startY)) (i32 (x + p.startX)) (i32 (y + p.offY)) (i32 (x + p.offX))
    set2 d (i32 (y + p.startY)) (i32 (x + p.startX)) v) p.width.toNat 0 d) p.height.toNat 0 d

/-- core/jxl_codestream_decoder.go:879-885, 913-919 and 959-965. -/
def clampUnit (clamp : Bool) (v : F32) : F32 :=
  if clamp then (if F32.lt v (.fin 0) then .fin 0 else if F32.lt (.fin 1) v then .fin 1 else v) else v

/-- core/jxl_codestream_decoder.go:904-912 and 950-958: the alphas of the reference and of the frame. -/
def alphaPair (hasAlpha : Bool) (oaf : Src F32) (naf d : List (List F32)) (cy cx fy fx : Int) : Res (F32 × F32) :=
  if hasAlpha then do
    let o ← oaf.at d cy cx
    let n ← at2 naf fy fx
    .ok (o, n)
  else .ok (.fin 1, .fin 1)

/-- core/jxl_codestream_decoder.go:920-932: the sample written by `BLEND_BLEND`. -/
def blendValue (I : BlendImpl) (hasAlpha isAlpha premult : Bool) (oldAlpha newAlpha oldSample newSample : F32) : F32 :=
  let alpha := if isAlpha || hasAlpha && !premult then I.mulAdd newAlpha (F32.sub (.fin 1) oldAlpha) oldAlpha else .fin 1
  if isAlpha then alpha
  else if !hasAlpha || premult then I.mulAdd oldSample (F32.sub (.fin 1) newAlpha) newSample
  else F32.div (I.sumProd newSample newAlpha (F32.mul oldSample oldAlpha) (F32.sub (.fin 1) newAlpha)) alpha

/-- core/jxl_codestream_decoder.go:966-974: the sample written by `BLEND_MULADD`. -/
def mulAddValue (I : BlendImpl) (isAlpha : Bool) (oldAlpha newAlpha oldSample newSample : F32) : F32 :=
  if isAlpha then oldAlpha else I.mulAdd newAlpha newSample oldSample

/-- The planes of alpha in `BLEND_BLEND` and `BLEND_MULADD` (core/jxl_codestream_decoder.go:890-896 and 936-942): that of the reference
and that of the frame; `a` is the address of the reference. -/
def alphaPlanes (h : ImageHeader) (s : Store) (a c frameColours : Nat) (info : Blending) : Res (Src F32 × List (List F32)) :=
  if h.hasAlpha then do
    let o ← s.get a ((h.colourCount + info.alpha : Nat) : Int)
    let n ← s.get s.frame ((frameColours + info.alpha : Nat) : Int)
    .ok (if a = s.canvas ∧ h.colourCount + info.alpha = c then .dest else .own o.floats, n.floats)
  else .ok (.own [], [])

/-- core/jxl_codestream_decoder.go:822-981 `performBlending`: the new canvas buffer. `shared`: the reference plane is the canvas plane. -/
def performBlending (I : BlendImpl) (h : ImageHeader) (s : Store) (p : Place) (a c frameColours : Nat) (info : Blending) (isAlpha premult shared : Bool)
    (cb ref fb : ImageBuffer) : Res ImageBuffer :=
  let rf : Src F32 := if shared then .dest else .own ref.floats
  if info.mode = 1 then
    if fb.isInt then do
      let ri : Src Int := if shared then .dest else .own ref.ints
      let m ← blendLoop p (fun d cy cx fy fx => do
        let r ← ri.at d cy cx
        let f ← at2 fb.ints fy fx
        .ok (i32 (r + f))) cb.ints
      .ok { cb with ints := m }
    else do
      let m ← blendLoop p (fun d cy cx fy fx => do
        let r ← rf.at d cy cx
        let f ← at2 fb.floats fy fx
        .ok (F32.add r f)) cb.floats
      .ok { cb with floats := m }
  else if info.mode = 4 then do
    let m ← blendLoop p (fun d cy cx fy fx => do
      let f ← at2 fb.floats fy fx
      let r ← rf.at d cy cx
      .ok (F32.mul (clampUnit info.clamp f) r)) cb.floats
    .ok { cb with floats := m }
  else if info.mode = 2 then do
    let al ← alphaPlanes h s a c frameColours info
    let m ← blendLoop p (fun d cy cx fy fx => do
      let on ← alphaPair h.hasAlpha al.1 al.2 d cy cx fy fx
      let r ← rf.at d cy cx
      let f ← at2 fb.floats fy fx
      .ok (blendValue I h.hasAlpha isAlpha premult on.1 (clampUnit info.clamp on.2) r f)) cb.floats
    .ok { cb with floats := m }
  else if info.mode = 3 then do
    let al ← alphaPlanes h s a c frameColours info
    let m ← blendLoop p (fun d cy cx fy fx => do
      let on ← alphaPair h.hasAlpha al.1 al.2 d cy cx fy fx
      let r ← rf.at d cy cx
      let f ← at2 fb.floats fy fx
      .ok (mulAddValue I isAlpha on.1 (clampUnit info.clamp on.2) r f)) cb.floats
    .ok { cb with floats := m }
  else .err

/-- core/jxl_codestream_decoder.go:983-1016 `convertReferenceWithDifferentBufferType`: the new frame buffer, reference and memory. -/
def convertReference (h : ImageHeader) (s : Store) (c frameC frameColours : Nat) (info : Blending) (ref fb : ImageBuffer) :
    Res (ImageBuffer × ImageBuffer × Store) :=
  if ref.bufferType ≠ fb.bufferType ∨ info.mode ≠ 1 then do
    let dc ← channelDepth h h.colourCount c
    let df ← channelDepth h frameColours frameC
    let fb ← castToFloatIfMax fb (mask32 df)
    let cb ← s.get s.canvas c
    let cb ← castToFloatIfMax cb (mask32 dc)
    let s ← s.set s.canvas c cb
    let ref ← castToFloatIfMax ref (mask32 dc)
    .ok (fb, ref, s)
  else .ok (fb, ref, s)

/-- core/jxl_codestream_decoder.go:1022-1028: a new alpha buffer if the reference has none. -/
def freshAlpha (s : Store) (a : Nat) (i : Nat) (cb : ImageBuffer) : Res Store := do
  let b ← s.get a i
  if b.width = 0 ∧ b.height = 0 then do
    let n ← newImageBuffer 1 cb.height cb.width
    s.set a i n
  else .ok s

/-- core/jxl_codestream_decoder.go:1029-1038: a buffer in memory is converted to floats. -/
def castInPlace (s : Store) (a : Nat) (i : Nat) (m : Int) : Res Store := do
  let b ← s.get a i
  let b ← castToFloatIfMax b m
  s.set a i b

/-- core/jxl_codestream_decoder.go:1018-1041 `blendAlpha`: `a` is the address of the reference. -/
def blendAlpha (h : ImageHeader) (s : Store) (a : Nat) (info : Blending) (cb : ImageBuffer) : Res Store :=
  if h.hasAlpha && (info.mode == 2 || info.mode == 3) then do
    let e ← idx h.extra info.alpha
    let s ← freshAlpha s a (h.colourCount + info.alpha) cb
    let s ← castInPlace s a (h.colourCount + info.alpha) (mask32 e.bitDepth.bits)
    castInPlace s s.frame (h.colourCount + info.alpha) (mask32 e.bitDepth.bits)
  else .ok s

/-- core/jxl_codestream_decoder.go:792-799: a new buffer if the reference has none for this channel. -/
def freshReference (s : Store) (a c : Nat) (bufferType : Int) : Res Store := do
  let r ← s.get a c
  if r.width = 0 ∧ r.height = 0 then do
    let cb ← s.get s.canvas c
    let n ← newImageBuffer bufferType cb.height cb.width
    s.set a c n
  else .ok s

/-- core/jxl_codestream_decoder.go:757-766: the frame channel that goes to canvas channel `c`. -/
def frameChannel (frameColours imageColours c : Nat) : Nat :=
  if frameColours ≠ imageColours then (if c = 0 then 1 else c + 2) else c

/-- frame/Frame.go:500-505 `GetColourChannelCount`. -/
def frameColourCount (h : ImageHeader) (encoding : Nat) : Nat := if h.xyb || encoding == 0 then 3 else h.colourCount

/-- core/jxl_codestream_decoder.go:768-773: the blending information of a channel. -/
def channelBlending (f : FrameHeader) (frameColours frameC : Nat) : Res Blending :=
  if frameC < frameColours then .ok f.blending else idx f.ecBlending ((frameC : Int) - frameColours)

/-- core/jxl_codestream_decoder.go:774: is the channel an alpha channel? -/
def channelIsAlpha (h : ImageHeader) (c : Nat) : Res Bool :=
  if h.colourCount ≤ c then do
    let e ← idx h.extra ((c : Int) - h.colourCount)
    .ok (e.ecType == 0)
  else .ok false

/-- core/jxl_codestream_decoder.go:775: is the alpha channel premultiplied? -/
def channelPremult (h : ImageHeader) (info : Blending) : Res Bool :=
  if h.hasAlpha then do
    let e ← idx h.extra info.alpha
    .ok e.alphaAssociated
  else .ok false

/-- core/jxl_codestream_decoder.go:782-790: the frame replaces what is on the canvas. -/
def replaceChannel (s : Store) (p : Place) (c : Nat) (fb : ImageBuffer) : Res Store := do
  let cb ← s.get s.canvas c
  let cb ← copyToCanvas cb p fb
  s.set s.canvas c cb

/-- core/jxl_codestream_decoder.go:792-815: the frame is combined with the reference at address `a`. -/
def combineChannel (I : BlendImpl) (h : ImageHeader) (s : Store) (p : Place) (a c frameC frameColours : Nat) (info : Blending) (isAlpha premult : Bool)
    (fb : ImageBuffer) : Res Store := do
  let s ← freshReference s a c fb.bufferType
  let ref ← s.get a c
  let cb ← s.get s.canvas c
  let s ← blendAlpha h s a info cb
  let r ← convertReference h s c frameC frameColours info ref fb
  let cb ← r.2.2.get r.2.2.canvas c
  let cb ← performBlending I h r.2.2 p a c frameColours info isAlpha premult (decide (a = s.canvas) && decide (r.2.1.bufferType = ref.bufferType)) cb r.2.1 r.1
  r.2.2.set r.2.2.canvas c cb

/-- core/jxl_codestream_decoder.go:756-816: one channel. -/
def blendChannel (I : BlendImpl) (h : ImageHeader) (f : FrameHeader) (p : Place) (c : Nat) (s : Store) : Res Store := do
  let frameColours := frameColourCount h f.encoding
  let frameC := frameChannel frameColours h.colourCount c
  let fb ← s.get s.frame frameC
  let info ← channelBlending f frameColours frameC
  let isAlpha ← channelIsAlpha h c
  let premult ← channelPremult h info
  let ref ← idx s.refs info.source
  let r ← convertCanvas h s c frameC frameColours fb
  if info.mode = 0 ∨ (ref = none ∧ info.mode = 1) then replaceChannel r.2 p c r.1
  else match ref with
    | none => .panic
    | some a => combineChannel I h r.2 p a c frameC frameColours info isAlpha premult r.1

/-- core/jxl_codestream_decoder.go:734-818 `blendFrame`. -/
def blendFrame (I : BlendImpl) (h : ImageHeader) (f : FrameHeader) (s : Store) : Res Store := do
  let canvas ← idx s.slices s.canvas
  forFrom (fun c s => blendChannel I h f (blendPlace f.rect h.size) c s) canvas.length 0 s

end Jxl
