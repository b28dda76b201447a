import Verif.Model.JXLImage

/-!
# Single channels of a decoded image (core/jxl_image.go:112-213)
-/
namespace Jxl

/-- core/jxl_image.go:112-119 `GetFloatChannelData`. -/
def getFloatChannelData (img : JXLImage) (c : Int) : Res (List (List F32)) :=
  if c < 0 ∨ (img.buffers.length : Int) ≤ c then .err
  else do
    let b ← idx img.buffers c
    .ok b.floats

/-- core/jxl_image.go:121-128 `SetFloatChannelData`. -/
def setFloatChannelData (img : JXLImage) (c : Int) (data : List (List F32)) : Res JXLImage :=
  if c < 0 ∨ (img.buffers.length : Int) ≤ c then .err
  else do
    let b ← idx img.buffers c
    let bs ← setAt img.buffers c { b with floats := data }
    .ok { img with buffers := bs }

/-- core/jxl_image.go:130-137 `GetIntChannelData`. -/
def getIntChannelData (img : JXLImage) (c : Int) : Res (List (List Int)) :=
  if c < 0 ∨ (img.buffers.length : Int) ≤ c then .err
  else do
    let b ← idx img.buffers c
    .ok b.ints

/-- core/jxl_image.go:139-146 `SetIntChannelData`. -/
def setIntChannelData (img : JXLImage) (c : Int) (data : List (List Int)) : Res JXLImage :=
  if c < 0 ∨ (img.buffers.length : Int) ≤ c then .err
  else do
    let b ← idx img.buffers c
    let bs ← setAt img.buffers c { b with ints := data }
    .ok { img with buffers := bs }

/-- core/jxl_image.go:405-433: the copy of one buffer in `getBuffer(true)`. -/
def copyOfBuffer (b : ImageBuffer) : Res ImageBuffer := do
  let n ← newImageBuffer b.bufferType b.height b.width
  if n.isInt then do
    let m ← fillLoop b.height.toNat b.width.toNat (fun y x => at2 b.ints y x) n.ints
    .ok { n with ints := m }
  else do
    let m ← fillLoop b.height.toNat b.width.toNat (fun y x => at2 b.floats y x) n.floats
    .ok { n with floats := m }

/-- core/jxl_image.go:405-433 `getBuffer` with `makeCopy`. -/
def copiesOfBuffers : List ImageBuffer → Res (List ImageBuffer)
  | [] => .ok []
  | b :: bs => do
    let c ← copyOfBuffer b
    let cs ← copiesOfBuffers bs
    .ok (c :: cs)

/-- Go conversion of a `float32` to `uint8`: truncation; for values that do not fit the Go specification leaves the
result to the implementation. -/
def F32.toByte (I : FloatImpl) (x : F32) : UInt8 :=
  match x with
  | .fin q =>
    let t := if 0 ≤ q then ⌊q⌋ else ⌈q⌉
    if 0 ≤ t ∧ t ≤ 255 then byteOf t else byteOf (I.big x)
  | _ => byteOf (I.big x)

/-- core/jxl_image.go:180-213 `ChannelToImage`. -/
def channelToImage (I : FloatImpl) (img : JXLImage) (c : Int) : Res Pixels := do
  let buffer ← copiesOfBuffers img.buffers
  if c < 0 ∨ (buffer.length : Int) ≤ c then .err
  else do
    let b0 ← idx buffer 0
    let w := b0.width.toNat
    let h := b0.height.toNat
    let pix ←
      if b0.isFloat then
        forFrom (fun y acc => forFrom (fun x acc => do
          let b ← idx buffer c
          let v ← at2 b.floats y x
          .ok (acc ++ [F32.toByte I (F32.mul v (F32.ofInt 255))])) w 0 acc) h 0 []
      else
        forFrom (fun y acc => forFrom (fun x acc => do
          let b ← idx buffer c
          let v ← at2 b.ints y x
          .ok (acc ++ [byteOf v])) w 0 acc) h 0 []
    .ok ⟨true, w, h, pix⟩

end Jxl
