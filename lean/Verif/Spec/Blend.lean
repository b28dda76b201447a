import Verif.Spec.Image
import Verif.Model.Blend

/-!
# Specification: putting a frame on the canvas (C37)

Written from ISO/IEC 18181-1 (blending) and the text of the property. Arithmetic is that of `float32`, where `x*y + z` may be computed with
one rounding or with two.
-/
namespace Jxl
namespace Spec

/-- The canvas pixel in row `y` and column `x` is covered by a frame of the given size whose top left pixel is at the signed position of the
rectangle. -/
def Covered (r : Rectangle) (y x : Nat) : Prop := r.y ≤ y ∧ (y : Int) < r.y + r.height ∧ r.x ≤ x ∧ (x : Int) < r.x + r.width

instance (r : Rectangle) (y x : Nat) : Decidable (Covered r y x) := by unfold Covered; infer_instance

/-- Row and column of the frame that lie on a covered pixel. -/
def frameRow (r : Rectangle) (y : Nat) : Nat := ((y : Int) - r.y).toNat
/-- See `frameRow`. -/
def frameCol (r : Rectangle) (x : Nat) : Nat := ((x : Int) - r.x).toNat

/-- The float that stands for the integer sample `v` of `d` bits: `v / (2^d - 1)`. -/
def unit (d : Nat) (v : Int) : F32 := F32.mul (F32.ofInt v) (F32.div (.fin 1) (F32.ofInt (2 ^ d - 1)))

/-- A sample of a channel of depth `d`, as a float. -/
def value (d : Nat) (b : ImageBuffer) (y x : Nat) : Option F32 :=
  if b.bufferType = 0 then (sample b.ints y x).map (unit d) else sample b.floats y x

/-- A pixel value or 0 outside. -/
def px (d : Nat) (b : ImageBuffer) (y x : Nat) : F32 := (value d b y x).getD (.fin 0)

/-- A value limited to `[0, 1]` if asked for. -/
def limited (clamp : Bool) (v : F32) : F32 :=
  match clamp with
  | false => v
  | true => if F32.lt v (.fin 0) then .fin 0 else if F32.lt (.fin 1) v then .fin 1 else v

/-- The alpha of `new` over `old`. -/
def overAlpha (I : BlendImpl) (old new : F32) : F32 := I.mulAdd new (F32.sub (.fin 1) old) old

/-- The sample that the five blending modes define: 0 replace, 1 add, 2 blend, 3 alpha-weighted add, 4 multiply. `old` and `new` are the samples
of the reference and of the frame; `alpha` gives the alphas of the two, and whether colours are premultiplied by them, for images with alpha. -/
def composite (I : BlendImpl) (mode : Nat) (clamp isAlpha : Bool) (alpha : Option (F32 × F32 × Bool)) (old new : F32) : F32 :=
  match mode with
  | 0 => new
  | 1 => F32.add old new
  | 2 =>
    match alpha with
    | none => if isAlpha then overAlpha I (.fin 1) (limited clamp (.fin 1)) else I.mulAdd old (F32.sub (.fin 1) (limited clamp (.fin 1))) new
    | some (oa, na, premultiplied) =>
      let na := limited clamp na
      if isAlpha then overAlpha I oa na
      else if premultiplied then I.mulAdd old (F32.sub (.fin 1) na) new
      else F32.div (I.sumProd new na (F32.mul old oa) (F32.sub (.fin 1) na)) (overAlpha I oa na)
  | 3 =>
    match alpha with
    | none => if isAlpha then .fin 1 else I.mulAdd (limited clamp (.fin 1)) new old
    | some (oa, na, _) => if isAlpha then oa else I.mulAdd (limited clamp na) new old
  | _ => F32.mul (limited clamp new) old

/-- The depth of canvas channel `c`. -/
def depth (h : ImageHeader) (c : Nat) : Nat :=
  if c < h.colourCount then h.bitDepth.bits else ((h.extra[c - h.colourCount]?).map (·.bitDepth.bits)).getD 0

/-- A buffer of depth `d` that holds at least `h` rows of `w` samples: floats, or integers of at most 31 bits. -/
def Holds (h w d : Nat) (b : ImageBuffer) : Prop :=
  ∃ h' w', (b.FloatPicture h' w' ∨ (b.IntPicture h' w' ∧ 1 ≤ d ∧ d ≤ 31)) ∧ h ≤ h' ∧ w ≤ w' ∧ h' < 2 ^ 31 ∧ w' < 2 ^ 31

/-- The buffer at index `i` of the slice at address `a`, if there is one. -/
def buffer (s : Store) (a i : Nat) : Option ImageBuffer := (s.slices[a]?).bind (fun l => l[i]?)

/-- The integer that replaces a covered pixel when nothing is converted to floats: only replacing and adding work on integers. -/
def intResult (r : Rectangle) (mode : Nat) (ref : Option ImageBuffer) (fb : ImageBuffer) (y x : Nat) : Option Int :=
  let new := if fb.bufferType = 0 then sample fb.ints (frameRow r y) (frameCol r x) else none
  match mode, ref with
  | 0, _ => new
  | 1, none => new
  | 1, some rb => if rb.bufferType = 0 then new.bind (fun n => (sample rb.ints y x).map (fun o => i32 (o + n))) else none
  | _, _ => none

/-- The float that replaces a covered pixel of a channel of depth `d`. `alpha`: the depth of alpha, the alpha channels of the reference and of the
frame, and whether colours are premultiplied. -/
def floatResult (I : BlendImpl) (d : Nat) (r : Rectangle) (mode : Nat) (clamp isAlpha : Bool) (ref : Option ImageBuffer)
    (alpha : Option (Nat × ImageBuffer × ImageBuffer × Bool)) (fb : ImageBuffer) (y x : Nat) : F32 :=
  let new := px d fb (frameRow r y) (frameCol r x)
  match ref with
  | none => new
  | some rb =>
    composite I mode clamp isAlpha (alpha.map (fun a => (px a.1 a.2.1 y x, px a.1 a.2.2.1 (frameRow r y) (frameCol r x), a.2.2.2))) (px d rb y x) new

/-- Canvas channel `b` becomes `b'`: the covered pixels get the results, in integers if all channels involved hold integers, or in floats; the others
keep their value (integers may be converted to floats). -/
def Painted (d H W : Nat) (r : Rectangle) (gi : Nat → Nat → Option Int) (gf : Nat → Nat → F32) (b b' : ImageBuffer) : Prop :=
  (b.IntPicture H W ∧ b'.IntPicture H W ∧ ∀ y x, y < H → x < W → sample b'.ints y x = if Covered r y x then gi y x else sample b.ints y x) ∨
  (b'.FloatPicture H W ∧ ∀ y x, y < H → x < W → sample b'.floats y x = if Covered r y x then some (gf y x) else value d b y x)

/-- The frame channel that is painted on canvas channel `c`: a gray image in a frame with three colour channels is in its second channel; extra
channels follow the colour channels. -/
def frameIndex (h : ImageHeader) (frameColours c : Nat) : Nat :=
  if c < h.colourCount then (if frameColours = h.colourCount then c else 1) else frameColours + (c - h.colourCount)

/-- What takes part in painting one canvas channel. -/
structure Channel where
  info : Blending
  isAlpha : Bool
  canvas : ImageBuffer
  frame : ImageBuffer
  addr : Option Nat
  ref : Option ImageBuffer
  alpha : Option (Nat × ImageBuffer × ImageBuffer × Bool)

/-- `k` is what takes part in painting channel `c`: the blending information of the channel, the channel of the frame and of the reference (if
there is one), and for the modes that use alpha, the alpha channel that the blending information names. -/
structure Takes (h : ImageHeader) (f : FrameHeader) (s : Store) (c : Nat) (k : Channel) : Prop where
  canvas : buffer s s.canvas c = some k.canvas
  frame : buffer s s.frame (frameIndex h (frameColourCount h f.encoding) c) = some k.frame
  info : if c < h.colourCount then k.info = f.blending else f.ecBlending[c - h.colourCount]? = some k.info
  isAlpha : if c < h.colourCount then k.isAlpha = false else ∃ e, h.extra[c - h.colourCount]? = some e ∧ k.isAlpha = decide (e.ecType = 0)
  addr : s.refs[k.info.source]? = some k.addr
  ref : k.info.mode ≠ 0 → match k.addr with
    | none => k.ref = none
    | some a => ∃ rb, buffer s a c = some rb ∧ k.ref = some rb
  alpha : k.info.mode = 2 ∨ k.info.mode = 3 →
    if h.hasAlpha then ∃ e ra fa a, h.extra[k.info.alpha]? = some e ∧ k.addr = some a ∧ buffer s a (h.colourCount + k.info.alpha) = some ra ∧
      buffer s s.frame (frameColourCount h f.encoding + k.info.alpha) = some fa ∧ k.alpha = some (e.bitDepth.bits, ra, fa, e.alphaAssociated)
    else k.alpha = none

/-- The channel can be painted: a mode of the format, a reference where one is needed, big enough buffers. `order`: if the reference is the canvas itself
then its alpha channel has not been painted yet. -/
structure Paintable (h : ImageHeader) (s : Store) (H W : Nat) (r : Rectangle) (c : Nat) (k : Channel) : Prop where
  mode : k.info.mode ≤ 4
  alphaIn : h.hasAlpha = true → k.info.alpha < h.extra.length
  canvas : k.canvas.FloatPicture H W ∨ (k.canvas.IntPicture H W ∧ 1 ≤ depth h c ∧ depth h c ≤ 31)
  frame : Holds r.height r.width (depth h c) k.frame
  haveRef : 2 ≤ k.info.mode → k.addr ≠ none
  ref : k.info.mode ≠ 0 → ∀ rb, k.ref = some rb → Holds H W (depth h c) rb
  alpha : k.info.mode = 2 ∨ k.info.mode = 3 → ∀ d ra fa p, k.alpha = some (d, ra, fa, p) → Holds H W d ra ∧ Holds r.height r.width d fa
  apart : k.info.mode ≠ 0 → k.addr ≠ some s.frame
  order : k.addr = some s.canvas → k.info.mode = 2 ∨ k.info.mode = 3 → h.hasAlpha = true → c ≤ h.colourCount + k.info.alpha

/-- A frame that can be painted: `n` channels can; the frame has all its channels, and the code's treatment of gray images in frames with three colour channels is right
(which it is if the frame holds floats). -/
structure Scene (h : ImageHeader) (f : FrameHeader) (s : Store) (H W : Nat) (r : Rectangle) (n : Nat) (k : Nat → Channel) : Prop where
  takes : ∀ c, c < n → Takes h f s c (k c)
  paint : ∀ c, c < n → Paintable h s H W r c (k c)
  apart : s.frame ≠ s.canvas
  full : ∀ i, i < frameColourCount h f.encoding + h.extra.length → ∃ b, buffer s s.frame i = some b
  gray : frameColourCount h f.encoding = h.colourCount ∨ ∀ i b, buffer s s.frame i = some b → b.bufferType = 1
  hH : 0 < H ∧ H < 2 ^ 31
  hW : W < 2 ^ 31

/-- Nothing needs floats: integers are replaced or added. -/
def Integral (k : Channel) : Prop :=
  k.info.mode ≤ 1 ∧ k.canvas.bufferType = 0 ∧ k.frame.bufferType = 0 ∧ (k.info.mode = 1 → ∀ rb, k.ref = some rb → rb.bufferType = 0)

end Spec
end Jxl
