import Verif.Model.Transforms
import Verif.Spec.Modular
import Verif.Spec.Reader
import Mathlib.Data.Fin.VecNotation

/-!
# Specification: the forward transforms

What an encoder does, as functions on tables of samples; written from the format, not from the decoder.
-/
namespace Jxl

/-- The buffer of an `h` by `w` channel with the samples of the table (no rows if there are no samples). -/
def tab (h w : Nat) (i : Img) : List (List Int) :=
  if h = 0 ∨ w = 0 then [] else (List.range h).map (fun y => (List.range w).map (fun x => i y x))

/-- All samples are 32-bit numbers. -/
def Is32 (b : List (List Int)) : Prop := ∀ r ∈ b, ∀ v ∈ r, -2 ^ 31 ≤ v ∧ v < 2 ^ 31

/-! ## Colour transforms -/

/-- The seven colour transforms of a pixel `(a, b, c)`, in 32-bit arithmetic. -/
def rctForward (ty : Nat) (a b c : Int) : Int × Int × Int :=
  match ty with
  | 0 => (a, b, c)
  | 1 => (a, b, i32 (c - a))
  | 2 => (a, i32 (b - a), c)
  | 3 => (a, i32 (b - a), i32 (c - a))
  | 4 => (a, i32 (b - i32 (a + c) / 2), c)
  | 5 => (a, i32 (b - i32 (a + c) / 2), i32 (c - a))
  | _ =>
    -- YCgCo
    let co := i32 (a - c)
    let tmp := i32 (c + co / 2)
    let cg := i32 (b - tmp)
    (i32 (tmp + cg / 2), co, cg)

/-- The six orders of the channels: RGB, GBR, BRG, RBG, GRB, BGR. -/
def rctOrder : Nat → Nat × Nat × Nat
  | 0 => (0, 1, 2)
  | 1 => (1, 2, 0)
  | 2 => (2, 0, 1)
  | 3 => (0, 2, 1)
  | 4 => (1, 0, 2)
  | _ => (2, 1, 0)

/-- One of three. -/
def pick3 {α : Type} (a b c : α) : Nat → α
  | 0 => a
  | 1 => b
  | _ => c

/-- The encoder: permute the channels, then transform every pixel. -/
def encodeRCT (rctType : Nat) (o0 o1 o2 : MChan) : MChan × MChan × MChan :=
  let p := rctOrder (rctType / 7)
  let a := pick3 o0 o1 o2 p.1
  let b := pick3 o0 o1 o2 p.2.1
  let c := pick3 o0 o1 o2 p.2.2
  let px : Nat → Nat → Int × Int × Int := fun y x =>
    rctForward (rctType % 7) (Img.ofRows a.buffer y x) (Img.ofRows b.buffer y x) (Img.ofRows c.buffer y x)
  ({ a with buffer := tab a.height a.width (fun y x => (px y x).1) },
   { b with buffer := tab a.height a.width (fun y x => (px y x).2.1) },
   { c with buffer := tab a.height a.width (fun y x => (px y x).2.2) })

/-! ## Squeeze -/

/-- The average of a pair, rounded towards the first. -/
def sqAvg (a b : Int) : Int := (a + b + if b < a then 1 else 0) / 2

/-- The difference expected between the two samples of a pair from the sample before (`a`), their average (`b`) and the
next average (`c`): non-zero only where the signal is monotonic, and limited so that it stays so. -/
def sqTend (a b c : Int) : Int :=
  if b ≤ a ∧ c ≤ b then
    let x := (4 * a - 3 * c - b + 6).tdiv 12
    let x := if 2 * (a - b) < x - x % 2 then 2 * (a - b) + 1 else x
    if 2 * (b - c) < x + x % 2 then 2 * (b - c) else x
  else if a ≤ b ∧ b ≤ c then
    let x := (4 * a - 3 * c - b - 6).tdiv 12
    let x := if x + x % 2 < 2 * (a - b) then 2 * (a - b) - 1 else x
    if x - x % 2 < 2 * (b - c) then 2 * (b - c) else x
  else 0

/-- Squeezing a line of `n` samples: the averages, and the last sample if `n` is odd ... -/
def avg1 (n : Nat) (f : Nat → Int) (k : Nat) : Int := if 2 * k + 1 < n then sqAvg (f (2 * k)) (f (2 * k + 1)) else f (2 * k)

/-- ... and what the differences deviate from the expected ones. -/
def res1 (n : Nat) (f : Nat → Int) (k : Nat) : Int :=
  let prev := if 0 < k then f (2 * k - 1) else avg1 n f k
  let next := if k + 1 < (n + 1) / 2 then avg1 n f (k + 1) else avg1 n f k
  f (2 * k) - f (2 * k + 1) - sqTend prev (avg1 n f k) next

/-- Squeezing the rows of a channel: the channel of averages and the channel of residuals. -/
def squeezeH (c : MChan) : MChan × MChan :=
  let i := Img.ofRows c.buffer
  ({ c with width := (c.width + 1) / 2, hshift := c.hshift + 1, buffer := tab c.height ((c.width + 1) / 2) (fun y x => avg1 c.width (i y) x) },
   { c with width := c.width / 2, hshift := c.hshift + 1, buffer := tab c.height (c.width / 2) (fun y x => res1 c.width (i y) x) })

/-- Squeezing the columns. -/
def squeezeV (c : MChan) : MChan × MChan :=
  let i := Img.ofRows c.buffer
  ({ c with height := (c.height + 1) / 2, vshift := c.vshift + 1, buffer := tab ((c.height + 1) / 2) c.width (fun y x => avg1 c.height (fun j => i j x) y) },
   { c with height := c.height / 2, vshift := c.vshift + 1, buffer := tab (c.height / 2) c.width (fun y x => res1 c.height (fun j => i j x) y) })

/-- Squeezing in the chosen direction. -/
def squeeze1 (horizontal : Bool) (c : MChan) : MChan × MChan := if horizontal then squeezeH c else squeezeV c

/-- A step squeezes `numC` channels from `beginC` on. The averages take their place; the residuals follow them
(in place) or go to the end of the list. -/
def squeezeStep (sp : SqueezeParam) (chs : List MChan) : List MChan :=
  let sel := (chs.drop sp.beginC).take sp.numC
  let avgs := sel.map (fun c => (squeeze1 sp.horizontal c).1)
  let ress := sel.map (fun c => (squeeze1 sp.horizontal c).2)
  let rest := chs.drop (sp.beginC + sp.numC)
  if sp.inPlace then chs.take sp.beginC ++ avgs ++ ress ++ rest else chs.take sp.beginC ++ avgs ++ rest ++ ress

/-- The steps, one after the other. -/
def squeezeAll : List SqueezeParam → List MChan → List MChan
  | [], chs => chs
  | sp :: sps, chs => squeezeAll sps (squeezeStep sp chs)

/-- All samples have magnitude at most `2^27`. -/
def Small27 (b : List (List Int)) : Prop := ∀ r ∈ b, ∀ v ∈ r, -2 ^ 27 ≤ v ∧ v ≤ 2 ^ 27

/-- An `h` by `w` channel: its buffer has these dimensions. -/
def MChan.Shaped (c : MChan) : Prop := Rect c.height c.width c.buffer

/-- A channel that can be squeezed: all its samples have magnitude at most `2^27`, and it holds no predictions. -/
def MChan.Squeezable (c : MChan) : Prop := c.Shaped ∧ Small27 c.buffer ∧ c.forceWP = false ∧ c.pred = []

/-- A column squeeze of a channel without columns has no last row to copy. -/
def SqueezeParam.fits (sp : SqueezeParam) (c : MChan) : Prop := sp.horizontal = true ∨ 0 < c.width ∨ c.height % 2 = 0

/-- Every step squeezes existing channels, all of them squeezable. -/
def StepsOK : List SqueezeParam → List MChan → Prop
  | [], _ => True
  | sp :: sps, chs => sp.beginC + sp.numC ≤ chs.length ∧ (∀ c ∈ (chs.drop sp.beginC).take sp.numC, c.Squeezable ∧ sp.fits c) ∧ StepsOK sps (squeezeStep sp chs)

/-! ## Palette -/

/-- The table of fixed colour differences of the format. -/
def deltaTable : List (List Int) :=
  [[0, 0, 0], [4, 4, 4], [11, 0, 0], [0, 0, -13], [0, -12, 0], [-10, -10, -10],
   [-18, -18, -18], [-27, -27, -27], [-18, -18, 0], [0, 0, -32], [-32, 0, 0], [-37, -37, -37],
   [0, -32, -32], [24, 24, 45], [50, 50, 50], [-45, -24, -24], [-24, -45, -45], [0, -24, -24],
   [-34, -34, 0], [-24, 0, -24], [-45, -45, -24], [64, 64, 64], [-32, 0, -32], [0, -32, 0],
   [-32, 0, 32], [-24, -45, -24], [45, 24, 45], [24, -24, -45], [-45, -24, 24], [80, 80, 80],
   [64, 0, 0], [0, 0, -64], [0, -64, -64], [-24, -24, 45], [96, 96, 96], [64, 64, 0],
   [45, -24, -24], [34, -34, 0], [112, 112, 112], [24, -45, -45], [45, 45, -24], [0, -32, 32],
   [24, -24, 45], [0, 96, 96], [45, -24, 24], [24, -45, -24], [-24, -45, 24], [0, -64, 0],
   [96, 0, 0], [128, 128, 128], [64, 0, 64], [144, 144, 144], [96, 96, 0], [-36, -36, 36],
   [45, -24, -45], [45, -45, -24], [0, 0, -96], [0, 128, 128], [0, 96, 0], [45, 24, -45],
   [-128, 0, 0], [24, -45, 24], [-45, 24, -45], [64, 0, -64], [64, -64, -64], [96, 0, 96],
   [45, -45, 24], [24, 45, -45], [64, 64, -64], [128, 128, 0], [0, 0, -128], [-24, 45, -45]]

/-- The fixed colour differences, for negative indices: entry `(k+1)/2` of the table, with alternating sign, scaled to the
bit depth. -/
def deltaColour (bitDepth c : Nat) (index : Int) : Int :=
  let k := (-index - 1) % 143
  let e := Img.ofRows deltaTable ((k + 1) / 2).toNat c
  (if k % 2 = 0 then -e else e) * (if 8 < bitDepth then 2 ^ (min bitDepth 24 - 8) else 1)

/-- Component `c` of the colour with an index: a fixed difference, an entry of the palette, or a point of one of the two
implicit cubes (4 by 4 by 4 and 5 by 5 by 5). -/
def paletteColour (pal : Img) (nbColours bitDepth c : Nat) (index : Int) : Int :=
  if index < 0 then if c < 3 then deltaColour bitDepth c index else 0
  else if index < nbColours then pal c index.toNat
  else if index - nbColours < 64 then (index - nbColours) / 4 ^ c % 4 * (2 ^ bitDepth - 1) / 4 + 2 ^ (bitDepth - 3)
  else (index - nbColours - 64) / 5 ^ c % 5 * (2 ^ bitDepth - 1) / 4

/-- `out` is component `c` of the image that an encoder wrote as the indices `ix`: every sample is the colour of its index,
or, for the first `nbDeltas` indices and the negative ones, differs by it from its prediction. -/
def IsExpansion (t : TransformInfo) (pal : Img) (bitDepth h w c : Nat) (ix out : Img) : Prop :=
  ∀ y x, y < h → x < w →
    out y x = paletteColour pal t.nbColours bitDepth c (ix y x) + if ix y x < t.nbDeltas then out.predict w 0 x y t.dPred else 0

/-- The channels that replace the index channel: `outs c` are the samples of component `c`. -/
def expanded (first : MChan) (outs : Nat → List (List Int)) (c : Nat) : MChan := { first with buffer := outs c, pred := if c = 0 then first.pred else [] }

end Jxl

/-! ## Headers (ISO/IEC 18181-1, modular transforms) -/
namespace Jxl.Spec

/-- Begin channel of a transform. -/
def distBeginC : Fin 4 → Nat × Nat := ![(0, 3), (8, 6), (72, 10), (1096, 13)]

/-- Number of channels of a squeeze step. -/
def distSqueezeNumC : Fin 4 → Nat × Nat := ![(1, 0), (2, 0), (3, 0), (4, 4)]

/-- An explicit squeeze step. -/
def decSqueezeParam : Dec SqueezeParam := do
  let horizontal ← decBool
  let inPlace ← decBool
  let beginC ← decU32 distBeginC
  let numC ← decU32 distSqueezeNumC
  return ⟨horizontal, inPlace, beginC, numC⟩

/-- The type of a colour transform, the size of a palette. -/
def distRctType : Fin 4 → Nat × Nat := ![(6, 0), (0, 2), (2, 4), (10, 6)]
def distPaletteNumC : Fin 4 → Nat × Nat := ![(1, 0), (3, 0), (4, 0), (1, 13)]
def distNbColours : Fin 4 → Nat × Nat := ![(0, 8), (256, 10), (1280, 12), (5376, 16)]
def distNbDeltas : Fin 4 → Nat × Nat := ![(0, 0), (1, 8), (257, 10), (1281, 16)]

/-- A colour transform, after its two-bit identifier. -/
def decRCT : Dec TransformInfo := do
  let beginC ← decU32 distBeginC
  let rctType ← decU32 distRctType
  return ⟨0, beginC, rctType, 0, 0, 0, 0, []⟩

/-- A palette, after its two-bit identifier. -/
def decPalette : Dec TransformInfo := do
  let beginC ← decU32 distBeginC
  let numC ← decU32 distPaletteNumC
  let nbColours ← decU32 distNbColours
  let nbDeltas ← decU32 distNbDeltas
  let dPred ← decBits 4
  return ⟨1, beginC, 0, numC, nbColours, nbDeltas, dPred, []⟩

def distNumSqueezes : Fin 4 → Nat × Nat := ![(0, 0), (1, 4), (9, 6), (41, 8)]

/-- `n` times. -/
def decMany {α : Type} (d : Dec α) : Nat → Dec (List α)
  | 0 => Dec.pure []
  | n + 1 => do
    let a ← d
    let as ← decMany d n
    return a :: as

/-- A transform; `sq` decodes an explicit squeeze step. Identifier 3 is not a transform: it is rejected after its begin
channel has been read. -/
def decTransform (sq : Dec SqueezeParam) : Dec TransformInfo := do
  let tr ← decBits 2
  if tr = 2 then do
    let n ← decU32 distNumSqueezes
    let sp ← decMany sq n
    return ⟨2, 0, 0, 0, 0, 0, 0, sp⟩
  else if tr = 0 then decRCT
  else if tr = 1 then decPalette
  else do
    let beginC ← decU32 distBeginC
    return ⟨tr, beginC, 0, 0, 0, 0, 0, []⟩

end Jxl.Spec
