import Verif.Model.Filters
import Verif.Model.Blend
import Verif.Model.Colour
import Verif.Model.LFCoefficients

/-!
# From decoded data to the planes of a frame (frame/Frame.go:350-466, 890-970, 1443-1562, bundle/image_header.go:20-75, 865-918)

The planes of a frame are allocated, the samples of the global modular stream are stored in them, subsampled planes are brought to full size, and after the
filters all planes are upsampled. Decoding the groups and the filters are the subject of other models.
-/
namespace Jxl

/-! ## Planes -/

/-- frame/Frame.go:366-371: the planes of floats. -/
def planeIsFloat (h : ImageHeader) (f : FrameHeader) (c : Nat) : Res Bool :=
  if c < frameColourCount h f.encoding then .ok (h.xyb || f.encoding == 0 || h.bitDepth.expBits != 0)
  else do
    let e ← idx h.extra ((c : Int) - frameColourCount h f.encoding)
    .ok (e.bitDepth.expBits != 0)

/-- frame/Frame.go:354-361: the size of a plane: colours are smaller by their subsampling. -/
def planeDim (h : ImageHeader) (f : FrameHeader) (padded : Dim) (c : Nat) : Res Dim :=
  if c < 3 ∧ c < frameColourCount h f.encoding then do
    let y ← idx f.jpegY (c : Int)
    let x ← idx f.jpegX (c : Int)
    .ok ⟨padded.width >>> x, padded.height >>> y⟩
  else .ok padded

/-- frame/Frame.go:353-381: one plane. -/
def newPlane (h : ImageHeader) (f : FrameHeader) (padded : Dim) (c : Nat) : Res ImageBuffer := do
  let d ← planeDim h f padded c
  let t ← planeIsFloat h f c
  newImageBuffer (if t then 1 else 0) (i32 d.height) (i32 d.width)

/-- frame/Frame.go:353-382: the planes from `c` on, `n` of them. -/
def newPlanes (h : ImageHeader) (f : FrameHeader) (padded : Dim) : Nat → Nat → Res (List ImageBuffer)
  | 0, _ => .ok []
  | n + 1, c => do
    let b ← newPlane h f padded c
    let rest ← newPlanes h f padded n (c + 1)
    .ok (b :: rest)

/-- frame/Frame.go:345-382: the planes of a frame: the colours, then the extra channels. -/
def framePlanes (h : ImageHeader) (f : FrameHeader) : Res (List ImageBuffer) := do
  let padded ← paddedFrameSize f
  newPlanes h f padded (frameColourCount h f.encoding + h.extra.length) 0

/-! ## Modular samples -/

/-- frame/LFGlobal.go:143-152: the number of colours in the global modular stream. -/
def modularColours (h : ImageHeader) (f : FrameHeader) : Nat :=
  if f.encoding == 1 then (if !f.doYCbCr && !h.xyb && h.colour.space == 1 then 1 else 3) else 0

/-- frame/ModularStream.go:218-228: the channels of the global modular stream. All have the size of the frame; extra channels have shifts. -/
def globalChannels (h : ImageHeader) (f : FrameHeader) : List (Dim × Nat) :=
  (List.replicate (modularColours h f) (f.size, 0)) ++ h.extra.map fun e => (f.size, e.dimShift)

/-- frame/Frame.go:441-448: a plane of floats. -/
def storeFloats (d : Dim) (scale : F32) (src : List (List Int)) (dst : List (List F32)) : Res (List (List F32)) :=
  fillLoop d.height d.width (fun y x => do
    let v ← at2 src (y : Int) (x : Int)
    .ok (F32.mul scale (F32.ofInt v))) dst

/-- frame/Frame.go:434-440: the B plane of XYB, coded as a difference from Y. The sum is of type `int32`. -/
def storeB (d : Dim) (scale : F32) (src0 src2 : List (List Int)) (dst : List (List F32)) : Res (List (List F32)) :=
  fillLoop d.height d.width (fun y x => do
    let a ← at2 src0 (y : Int) (x : Int)
    let b ← at2 src2 (y : Int) (x : Int)
    .ok (F32.mul scale (F32.ofInt (i32 (a + b))))) dst

/-- frame/Frame.go:449-457: a plane of integers; the sample takes a detour through `float32`. -/
def storeInts (I : FloatImpl) (d : Dim) (scale : F32) (src : List (List Int)) (dst : List (List Int)) : Res (List (List Int)) :=
  fillLoop d.height d.width (fun y x => do
    let v ← at2 src (y : Int) (x : Int)
    .ok (F32.toI32 I.big (F32.mul scale (F32.ofInt v)))) dst

/-- frame/Frame.go:434-457: the samples of a channel. -/
def storeInto (I : FloatImpl) (d : Dim) (scale : F32) (isB : Bool) (mods : List (List (List Int))) (c : Nat) (b : ImageBuffer) : Res ImageBuffer :=
  if isB then do
    let s0 ← idx mods 0
    let s2 ← idx mods 2
    let m ← storeB d scale s0 s2 b.floats
    .ok { b with floats := m }
  else if b.isFloat then do
    let s ← idx mods (c : Int)
    let m ← storeFloats d scale s b.floats
    .ok { b with floats := m }
  else do
    let s ← idx mods (c : Int)
    let m ← storeInts I d scale s b.ints
    .ok { b with ints := m }

/-- frame/Frame.go:418-426: where a channel goes. -/
def outputIndex (xyb : Bool) (bufs mods c : Nat) : Res Int := do
  let o ← if xyb then idx cMap (c : Int) else .ok (c : Int)
  .ok (o + ((bufs : Int) - (mods : Int)))

/-- frame/Frame.go:427-432: the factor of a channel. -/
def outputScale (xyb : Bool) (lfDequant : List F32) (o : Int) : Res F32 := if xyb then idx lfDequant o else .ok (.fin 1)

/-- frame/Frame.go:415-458: one channel of the modular stream. -/
def storeChannel (I : FloatImpl) (h : ImageHeader) (f : FrameHeader) (lfDequant : List F32) (mods : List (List (List Int))) (c : Nat) (bufs : List ImageBuffer) :
    Res (List ImageBuffer) := do
  let xyb := h.xyb && (f.encoding == 1 && decide (c < frameColourCount h f.encoding))
  let o ← outputIndex xyb bufs.length mods.length c
  let scale ← outputScale xyb lfDequant o
  let b ← idx bufs o
  let b ← storeInto I f.size scale (xyb && c == 2) mods c b
  setAt bufs o b

/-- frame/Frame.go:413-459: the samples of the global modular stream are stored in the planes. -/
def storeModular (I : FloatImpl) (h : ImageHeader) (f : FrameHeader) (lfDequant : List F32) (mods : List (List (List Int))) (bufs : List ImageBuffer) :
    Res (List ImageBuffer) :=
  forFrom (fun c bufs => storeChannel I h f lfDequant mods c bufs) mods.length 0 bufs

/-! ## Subsampling -/

section
variable {α : Type} [Arith α]

/-- frame/Frame.go:915-926: two samples of the row for one. -/
def widenStep (row : List α) (y x : Nat) (m : List (List α)) : Res (List (List α)) := do
  let v ← idx row (x : Int)
  let a ← idx row (if x ≠ 0 then (x : Int) - 1 else 0)
  let m ← set2 m (y : Int) (2 * (x : Int)) (Arith.lit (3 / 4) * v + Arith.lit (1 / 4) * a)
  let b ← idx row (if x + 1 = row.length then (row.length : Int) - 1 else (x : Int) + 1)
  set2 m (y : Int) (2 * (x : Int) + 1) (Arith.lit (3 / 4) * v + Arith.lit (1 / 4) * b)

/-- frame/Frame.go:910-929: the rows become twice as long. -/
def widenPlane (old m : List (List α)) : Res (List (List α)) :=
  forFrom (fun y m => do
    let row ← idx old (y : Int)
    forFrom (fun x m => widenStep row y x m) row.length 0 m) old.length 0 m

/-- frame/Frame.go:960-964: two samples of the column for one. -/
def heightenStep (row prev next : List α) (y x : Nat) (m : List (List α)) : Res (List (List α)) := do
  let v ← idx row (x : Int)
  let a ← idx prev (x : Int)
  let m ← set2 m (2 * (y : Int)) (x : Int) (Arith.lit (3 / 4) * v + Arith.lit (1 / 4) * a)
  let b ← idx next (x : Int)
  set2 m (2 * (y : Int) + 1) (x : Int) (Arith.lit (3 / 4) * v + Arith.lit (1 / 4) * b)

/-- frame/Frame.go:945-965: twice as many rows. -/
def heightenPlane (old m : List (List α)) : Res (List (List α)) :=
  forFrom (fun y m => do
    let row ← idx old (y : Int)
    let prev ← idx old (if y = 0 then 0 else (y : Int) - 1)
    let next ← idx old (if y + 1 = old.length then (old.length : Int) - 1 else (y : Int) + 1)
    forFrom (fun x m => heightenStep row prev next y x m) row.length 0 m) old.length 0 m

end

/-- frame/Frame.go:897-931: a plane becomes twice as wide. -/
def widenBuffer (depth : Nat) (b : ImageBuffer) : Res ImageBuffer := do
  let b ← castToFloatIfMax b (mask32 depth)
  let n ← newImageBuffer 1 b.height (i32 (b.width * 2))
  let m ← widenPlane b.floats n.floats
  .ok { n with floats := m }

/-- frame/Frame.go:933-967: a plane becomes twice as high. -/
def heightenBuffer (depth : Nat) (b : ImageBuffer) : Res ImageBuffer := do
  let b ← castToFloatIfMax b (mask32 depth)
  let n ← newImageBuffer 1 (i32 (b.height * 2)) b.width
  let m ← heightenPlane b.floats n.floats
  .ok { n with floats := m }

/-- A step on one of the buffers. -/
def onBuffer (g : ImageBuffer → Res ImageBuffer) (c : Nat) (l : List ImageBuffer) : Res (List ImageBuffer) := do
  let b ← idx l (c : Int)
  let b ← g b
  setAt l (c : Int) b

/-- frame/Frame.go:890-970 `invertSubsampling`. `DecodeFrame` does not return its error: the frame then counts as decoded (462-464). -/
def invertSubsampling (depth : Nat) (jpegX jpegY : List Nat) (l : List ImageBuffer) : Res (List ImageBuffer) :=
  forFrom (fun c l => do
    let x ← idx jpegX (c : Int)
    let y ← idx jpegY (c : Int)
    let l ← forFrom (fun _ l => onBuffer (widenBuffer depth) c l) x 0 l
    forFrom (fun _ l => onBuffer (heightenBuffer depth) c l) y 0 l) 3 0 l

/-! ## Upsampling -/

/-- bundle/image_header.go:22-25, in units of 10⁻⁸. -/
def defaultUp2 : List Int :=
  [-1716200, -3452303, -4022174, -2921014, -624645, 14111091, 28896755, 278718, -1610267, 56661550,
   3777607, -1986694, -3144731, -1185068, -213539]
/-- bundle/image_header.go:27-38, in units of 10⁻⁸. -/
def defaultUp4 : List Int :=
  [-2419067, -3491987, -3693351, -3094285, -529785, -1663432, -3556863, -3888905, -3516850, -989469,
   23651958, 33392945, -1073543, -1313181, -3556694, 13048175, 40103025, 3951150, -2077584, 46914198,
   -209270, -1484589, -4064806, 18942530, 56279892, 6674400, -2335494, -3551682, -754830, -2267919,
   -2363578, 315804, -3399098, -1359519, -91653, -335467, -1163294, -1610294, -974088, -191622,
   -1095446, -3198464, -4455121, -2799790, -645912, 6390599, 22963888, 630981, -1897349, 67537268,
   8483369, -2534994, -2205197, -1667999, -384443]
/-- bundle/image_header.go:39-82, in units of 10⁻⁸. -/
def defaultUp8 : List Int :=
  [-2928613, -3706353, -3783812, -3324558, -447632, -2519406, -3752601, -3901508, -3663285, -646649,
   -2066407, -3838633, -4002101, -3900035, -901973, -1626393, -3954148, -4046620, -3979621, -1224485,
   29895328, 35757708, -2447552, -1081748, -4314594, 23903219, 41119301, -573046, -1450239, -4246845,
   17567618, 45220643, 2287757, -1936783, -3583255, 11572472, 47416733, 6284440, -2685066, 42720050,
   -2248939, -1155273, -4562755, 28689496, 49093869, -7891, -1545926, -4562659, 21238920, 53980934,
   3369474, -2070211, -3866988, 14229550, 56593398, 8045181, -2888298, -3680918, -542229, -2920477,
   -2788574, -2118180, -3942402, -775547, -2433614, -3193943, -2030828, -4044014, -1074016, -1930822,
   -3620399, -1974125, -3919545, -1456093, -45072, -360110, -1020207, -1231907, -638988, -71592,
   -279122, -957115, -1288327, -730937, -107783, -210156, -890705, -1317668, -813895, -153491,
   -2128481, -4173044, -4831487, -3293190, -525260, -1720322, -4052736, -5045706, -3607317, -738030,
   -1341764, -3965629, -5151616, -3814886, -1005819, 18968273, 33063684, -1300105, -1372950, -4017465,
   13727832, 36402234, 1027890, -1832107, -3365072, 8734506, 38194295, 4338228, -2525993, 56408126,
   458352, -1648227, -4887868, 24585519, 62026135, 4314807, -2213737, -4158014, 16637289, 65027023,
   9621636, -3101388, -4082742, -904519, -2790922, -2117818, 798662, -3995711, -1243427, -2231705,
   -2946266, 992055, -3600283, -1684920, -111684, -411204, -1297130, -1723725, -1022545, -165306,
   -313110, -1218016, -1763266, -1125620, -231663, -1374149, -3797620, -5142937, -3117307, -581914,
   -1064003, -3608089, -5272168, -3375670, -795586, 9628104, 27129991, -353779, -1734151, -3153981,
   5686230, 28500998, 2230594, -2374955, 68214326, 5018048, -2320852, -4383616, 18459474, 71517975,
   10805613, -3263677, -3637639, -1394373, -2511203, -1728636, 5407331, -2867568, -1893131, -240854,
   -446511, -1636187, -2377053, -1522848, -333334, -819975, -2964169, -4499287, -2745350, -612408,
   2727416, 19446600, 159832, -2232473, 74982506, 11452620, -3348048, -1605681, -2070339, -458223]

/-- bundle/image_header.go:890-901: the row (or column) of the table of weights for the place `i` of the square, in the part `k'` of `k`. -/
def foldPlace (k k' i : Nat) : Nat := if k' < k / 2 then i + 5 * k' else (4 - i) + 5 * (k - 1 - k')

/-- bundle/image_header.go:902-909: the place in the list of weights. `x ^ j ^ i` is the smaller of `i` and `j` when `x` is the larger. -/
def weightIndex (k ky kx iy ix : Nat) : Nat :=
  let j := foldPlace k ky iy
  let i := foldPlace k kx ix
  let x := if i < j then j else i
  let y := x ^^^ j ^^^ i
  5 * k * y / 2 - y * (y - 1) / 2 + x - y

section
variable {α : Type}

/-- bundle/image_header.go:888-913: the weights of a factor. -/
def weightTable (k : Nat) (w : List α) : Res (List (List (List (List α)))) :=
  List.mapM (fun (ky : Nat) => List.mapM (fun (kx : Nat) => List.mapM (fun (iy : Nat) => List.mapM (fun (ix : Nat) =>
    idx w (weightIndex k ky kx iy ix : Int)) (List.range 5)) (List.range 5)) (List.range k)) (List.range k)

/-- bundle/image_header.go:865-918 `GetUpWeights`; that the result is kept is not modelled. -/
def upWeights (w2 w4 w8 : List α) : Res (List (List (List (List (List α))))) := do
  let a ← weightTable 2 w2
  let b ← weightTable 4 w4
  let c ← weightTable 8 w8
  .ok [a, b, c]

end
/-- frame/Frame.go:1465-1471: the factor of a channel. -/
def upFactor (h : ImageHeader) (f : FrameHeader) (c : Nat) : Res Nat :=
  if c < frameColourCount h f.encoding then .ok f.upsampling else idx f.ecUpsampling ((c : Int) - frameColourCount h f.encoding)

/-- frame/Frame.go:1476-1481: the depth of a channel. -/
def upDepth (h : ImageHeader) (f : FrameHeader) (c : Nat) : Res Nat :=
  if c < frameColourCount h f.encoding then .ok h.bitDepth.bits
  else do
    let e ← idx h.extra ((c : Int) - frameColourCount h f.encoding)
    .ok e.bitDepth.bits

/-- frame/Frame.go:1463-1562 `performUpsampling`, where the steps of the goroutines happen in the given order. -/
def performUpsampling (h : ImageHeader) (f : FrameHeader) (up : Res (List (List (List (List (List F32)))))) (order : List UpStep) (c : Nat) (b : ImageBuffer) :
    Res ImageBuffer := do
  let k ← upFactor h f c
  if k = 1 then .ok b
  else do
    let d ← upDepth h f c
    let b ← castToFloatIfMax b (mask32 d)
    let up ← up
    let w ← idx up ((ceilLog1p (k - 1) : Int) - 1)
    let m ← runSteps (upStep b.floats w k) order (List.replicate (b.floats.length * k) [])
    bufferFromFloats m

/-- frame/Frame.go:1443-1450 (in `Upsample`): all planes, with an order of the steps for each. The new bounds are the subject of `FrameHeader.rect`. -/
def upsampleFrame (h : ImageHeader) (f : FrameHeader) (up : Res (List (List (List (List (List F32)))))) (orders : Nat → List UpStep) (l : List ImageBuffer) :
    Res (List ImageBuffer) :=
  forFrom (fun c l => onBuffer (performUpsampling h f up (orders c) c) c l) l.length 0 l

end Jxl
