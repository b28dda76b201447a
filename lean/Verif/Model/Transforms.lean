import Verif.Model.Modular
import Verif.Model.Util

/-!
# Modular transforms (frame/ModularStream.go)

A channel is a value here, a pointer in the code. The three channels of a colour transform are assumed to be three
different objects.
-/
namespace Jxl

/-- `for i := start; i < start + n; i++` -/
def forFrom {σ : Type} (f : Nat → σ → Res σ) : Nat → Nat → σ → Res σ
  | 0, _, s => .ok s
  | n + 1, i, s => do
    let s ← f i s
    forFrom f n (i + 1) s

/-- frame/ModularChannel.go:30-43: a channel with the predictions left by `decode` (`nil` if there are none). -/
structure MChan extends Chan where
  pred : List (List Int)
  deriving Repr, DecidableEq

/-- frame/ModularStream.go:39-44 `SqueezeParam`. -/
structure SqueezeParam where
  horizontal : Bool
  inPlace : Bool
  beginC : Nat
  numC : Nat
  deriving Repr, DecidableEq

/-- frame/ModularStream.go:46-67 `NewSqueezeParam`. -/
def readSqueezeParam : Rd SqueezeParam := do
  let h ← readBool
  let p ← readBool
  let b ← readU32 3 6 10 13 0 8 72 1096
  let n ← readU32 0 0 0 4 1 2 3 4
  Pure.pure ⟨h, p, b, n⟩

/-- frame/ModularStream.go:69-78 `TransformInfo`. -/
structure TransformInfo where
  tr : Nat
  beginC : Nat
  rctType : Nat
  numC : Nat
  nbColours : Nat
  nbDeltas : Nat
  dPred : Nat
  sp : List SqueezeParam
  deriving Repr, DecidableEq

/-- frame/ModularStream.go:141-145: `n` squeeze parameters. -/
def readSqueezeParams : Nat → Rd (List SqueezeParam)
  | 0 => Pure.pure []
  | n + 1 => do
    let p ← readSqueezeParam
    let ps ← readSqueezeParams n
    Pure.pure (p :: ps)

/-- frame/ModularStream.go:80-156 `NewTransformInfo`. -/
def readTransformInfo : Rd TransformInfo := do
  let tr ← readBits 2
  if tr = 2 then do
    let n ← readU32 0 0 1 4 9 6 41 8
    let sp ← readSqueezeParams n
    Pure.pure ⟨2, 0, 0, 0, 0, 0, 0, sp⟩
  else do
    let beginC ← readU32 0 3 8 6 72 10 1096 13
    if tr = 0 then do
      let rctType ← readU32 6 0 0 2 2 4 10 6
      Pure.pure ⟨0, beginC, rctType, 0, 0, 0, 0, []⟩
    else if tr = 1 then do
      let numC ← readU32 1 0 3 0 4 0 1 13
      let nbColours ← readU32 0 8 256 10 1280 12 5376 16
      let nbDeltas ← readU32 0 0 1 8 257 10 1281 16
      let dPred ← readBits 4
      Pure.pure ⟨1, beginC, 0, numC, nbColours, nbDeltas, dPred, []⟩
    else Pure.pure ⟨tr, beginC, 0, 0, 0, 0, 0, []⟩

/-! ## Reversible colour transforms -/

/-- frame/ModularStream.go:19-21 `permutationLUT`. -/
def permutationLUT : List (Nat × Nat × Nat) := [(0, 1, 2), (1, 2, 0), (2, 0, 1), (0, 2, 1), (1, 0, 2), (2, 1, 0)]

/-- The buffers of the three channels `v[0]`, `v[1]`, `v[2]`. -/
structure Buf3 where
  a : List (List Int)
  b : List (List Int)
  c : List (List Int)

/-- `v[2].buffer[y][x] += d` -/
def Buf3.addC (v : Buf3) (y x : Nat) (d : Int) : Res Buf3 := do
  let o ← at2 v.c y x
  let c ← set2 v.c y x (i32 (o + d))
  .ok { v with c := c }

/-- `v[1].buffer[y][x] += d` -/
def Buf3.addB (v : Buf3) (y x : Nat) (d : Int) : Res Buf3 := do
  let o ← at2 v.b y x
  let b ← set2 v.b y x (i32 (o + d))
  .ok { v with b := b }

/-- frame/ModularStream.go:455-503: the function `rct` at a sample, for each `transType`. -/
def rctAt (ty : Nat) (y x : Nat) (v : Buf3) : Res Buf3 :=
  if ty = 0 then .ok v
  else if ty = 1 then do
    let a ← at2 v.a y x
    v.addC y x a
  else if ty = 2 then do
    let a ← at2 v.a y x
    v.addB y x a
  else if ty = 3 then do
    let a ← at2 v.a y x
    let v ← v.addC y x a
    v.addB y x a
  else if ty = 4 then do
    let a ← at2 v.a y x
    let c ← at2 v.c y x
    v.addB y x (sar (i32 (a + c)) 1)
  else if ty = 5 then do
    let a ← at2 v.a y x
    let c ← at2 v.c y x
    let v ← v.addB y x (sar (i32 (a + i32 (a + c))) 1)
    let c' ← set2 v.c y x (i32 (a + c))
    .ok { v with c := c' }
  else if ty = 6 then do
    let b ← at2 v.b y x
    let c ← at2 v.c y x
    let a ← at2 v.a y x
    let tmp := i32 (a - sar c 1)
    let f := i32 (tmp - sar b 1)
    let a' ← set2 v.a y x (i32 (f + b))
    let b' ← set2 v.b y x (i32 (c + tmp))
    let c' ← set2 v.c y x f
    .ok ⟨a', b', c'⟩
  else .err

/-- frame/ModularStream.go:443-518: undoing a colour transform. -/
def undoRCT (start rctType : Nat) (channels : List MChan) : Res (List MChan) := do
  let v0 ← idx channels (start : Int)
  let v1 ← idx channels ((start : Int) + 1)
  let v2 ← idx channels ((start : Int) + 2)
  let v ← forFrom (fun y v => forFrom (fun x v => rctAt (rctType % 7) y x v) v0.width 0 v) v0.height 0 ⟨v0.buffer, v1.buffer, v2.buffer⟩
  let p ← idx permutationLUT ((rctType / 7 : Nat) : Int)
  let channels ← setAt channels ((start + p.1 : Nat) : Int) { v0 with buffer := v.a }
  let channels ← setAt channels ((start + p.2.1 : Nat) : Int) { v1 with buffer := v.b }
  setAt channels ((start + p.2.2 : Nat) : Int) { v2 with buffer := v.c }

/-! ## Squeeze -/

/-- frame/ModularStream.go:673-701 `tendancy`. `x & 1` is the remainder modulo 2. -/
def tendancy (a b c : Int) : Int :=
  if b ≤ a ∧ c ≤ b then
    let x := (i32 (4 * a - 3 * c - b + 6)).tdiv 12
    let d := i32 (2 * (a - b))
    let e := i32 (2 * (b - c))
    let x := if d < i32 (x - x % 2) then i32 (d + 1) else x
    if e < i32 (x + x % 2) then e else x
  else if a ≤ b ∧ b ≤ c then
    let x := (i32 (4 * a - 3 * c - b - 6)).tdiv 12
    let d := i32 (2 * (a - b))
    let e := i32 (2 * (b - c))
    let x := if i32 (x + x % 2) < d then i32 (d - 1) else x
    if i32 (x - x % 2) < e then e else x
  else 0

/-- frame/ModularChannel.go:77-87 `allocate`. -/
def MChan.allocate (c : MChan) : MChan :=
  if c.buffer.length ≠ 0 then c else { c with buffer := zeroPlane c.height c.width }

/-- frame/ModularStream.go:603-607: the average after the current one. -/
def hNext (orig : MChan) (y x : Nat) (avg : Int) : Res Int :=
  if x + 1 < orig.width then at2 orig.buffer y ((x : Int) + 1) else .ok avg

/-- frame/ModularStream.go:608-613: the sample before the current pair. -/
def hLeft (b : List (List Int)) (y x : Nat) (avg : Int) : Res Int :=
  if 0 < x then at2 b y (2 * (x : Int) - 1) else .ok avg

/-- frame/ModularStream.go:600-618: one pair of samples. -/
def hPair (orig res : MChan) (y x : Nat) (b : List (List Int)) : Res (List (List Int)) := do
  let avg ← at2 orig.buffer y x
  let residu ← at2 res.buffer y x
  let nextAvg ← hNext orig y x avg
  let left ← hLeft b y x avg
  let diff := i32 (residu + tendancy left avg nextAvg)
  let first := i32 (avg + diff.tdiv 2)
  let b ← set2 b y (2 * (x : Int)) first
  set2 b y (2 * (x : Int) + 1) (i32 (first - diff))

/-- frame/ModularStream.go:621-626: the last column if the width is odd. -/
def hLast (orig res : MChan) (h : Nat) (b : List (List Int)) : Res (List (List Int)) :=
  if res.width < orig.width then
    forFrom (fun y b => do
      let v ← at2 orig.buffer y res.width
      set2 b y (2 * (res.width : Int)) v) h 0 b
  else .ok b

/-- frame/ModularStream.go:583-628 `inverseHorizontalSqueeze`. -/
def inverseHorizontalSqueeze (channel orig res : MChan) : Res MChan :=
  if channel.width ≠ orig.width + res.width ∨ (orig.width ≠ res.width ∧ orig.width ≠ 1 + res.width) ∨
      channel.height ≠ orig.height ∨ res.height ≠ orig.height then .err
  else do
    let ch := channel.allocate
    let b ← forFrom (fun y b => forFrom (fun x b => hPair orig res y x b) res.width 0 b) ch.height 0 ch.buffer
    let b ← hLast orig res ch.height b
    .ok { ch with buffer := b }

/-- frame/ModularStream.go:645-650: the average below the current one. -/
def vNext (orig : MChan) (y x : Nat) (avg : Int) : Res Int :=
  if y + 1 < orig.height then at2 orig.buffer ((y : Int) + 1) x else .ok avg

/-- frame/ModularStream.go:651-656: the sample above the current pair. -/
def vTop (b : List (List Int)) (y x : Nat) (avg : Int) : Res Int :=
  if 0 < y then at2 b (2 * (y : Int) - 1) x else .ok avg

/-- frame/ModularStream.go:642-660: one pair of samples. -/
def vPair (orig res : MChan) (y x : Nat) (b : List (List Int)) : Res (List (List Int)) := do
  let avg ← at2 orig.buffer y x
  let residu ← at2 res.buffer y x
  let nextAvg ← vNext orig y x avg
  let top ← vTop b y x avg
  let diff := i32 (residu + tendancy top avg nextAvg)
  let first := i32 (avg + diff.tdiv 2)
  let b ← set2 b (2 * (y : Int)) x first
  set2 b (2 * (y : Int) + 1) x (i32 (first - diff))

/-- frame/ModularStream.go:662-669: the last row if the height is odd. -/
def vLast (orig res : MChan) (b : List (List Int)) : Res (List (List Int)) :=
  if res.height < orig.height then do
    let row ← idx orig.buffer (res.height : Int)
    forFrom (fun x b => do
      let v ← at2 orig.buffer res.height x
      set2 b (2 * (res.height : Int)) x v) row.length 0 b
  else .ok b

/-- frame/ModularStream.go:630-671 `inverseVerticalSqueeze`. -/
def inverseVerticalSqueeze (channel orig res : MChan) : Res MChan :=
  if channel.height ≠ orig.height + res.height ∨ (orig.height ≠ res.height ∧ orig.height ≠ 1 + res.height) ∨
      channel.width ≠ orig.width ∨ res.width ≠ orig.width then .err
  else do
    let ch := channel.allocate
    let b ← forFrom (fun y b => forFrom (fun x b => vPair orig res y x b) ch.width 0 b) res.height 0 ch.buffer
    let b ← vLast orig res b
    .ok { ch with buffer := b }

/-- frame/ModularChannel.go:63-75 `NewModularChannelWithAllParams`. -/
def MChan.new (height width : Nat) (vshift hshift : Int) (forceWP : Bool) : MChan := ⟨⟨width, height, hshift, vshift, forceWP, []⟩, []⟩

/-- frame/ModularStream.go:418-437: undoing a squeeze of one channel. -/
def unsqueeze (horizontal : Bool) (ch residu : MChan) : Res MChan :=
  if horizontal then inverseHorizontalSqueeze (MChan.new ch.height (ch.width + residu.width) ch.vshift (ch.hshift - 1) false) ch residu
  else inverseVerticalSqueeze (MChan.new (ch.height + residu.height) ch.width (ch.vshift - 1) ch.hshift false) ch residu

/-- frame/ModularStream.go:415-438: channels `begin` to `end`, the residuals start at `offset`. -/
def undoSqueezeChannels (sp : SqueezeParam) (offset : Int) : Nat → Nat → List MChan → Res (List MChan) :=
  forFrom (fun c chs => do
    let ch ← idx chs (c : Int)
    let residu ← idx chs (offset + c - sp.beginC)
    let o ← unsqueeze sp.horizontal ch residu
    setAt chs (c : Int) o)

/-- frame/ModularStream.go:439-441: `channels = append(channels[:offset], channels[offset+1:]...)`. -/
def removeAt {α : Type} (l : List α) (i : Int) : Res (List α) :=
  if i < 0 ∨ (l.length : Int) < i + 1 then .panic
  else .ok (l.take i.toNat ++ l.drop (i.toNat + 1))

/-- frame/ModularStream.go:411-414. -/
def squeezeOffset (sp : SqueezeParam) (n : Nat) : Int :=
  if sp.inPlace then (sp.beginC : Int) + sp.numC else (n : Int) - sp.numC

/-- frame/ModularStream.go:408-442: undoing one squeeze step. -/
def undoSqueezeStep (sp : SqueezeParam) (chs : List MChan) : Res (List MChan) := do
  let chs' ← undoSqueezeChannels sp (squeezeOffset sp chs.length) sp.numC sp.beginC chs
  forFrom (fun _ chs' => removeAt chs' (squeezeOffset sp chs.length)) sp.numC 0 chs'

/-- frame/ModularStream.go:406-442: the steps are undone last first. -/
def undoSqueeze : List SqueezeParam → List MChan → Res (List MChan)
  | [], chs => .ok chs
  | sp :: sps, chs => do
    let chs ← undoSqueeze sps chs
    undoSqueezeStep sp chs

/-! ## Palette -/

/-- frame/ModularStream.go:23-36 `kDeltaPalette`. -/
def kDeltaPalette : List (List Int) :=
  [[0, 0, 0], [4, 4, 4], [11, 0, 0], [0, 0, -13], [0, -12, 0], [-10, -10, -10],
   [-18, -18, -18], [-27, -27, -27], [-18, -18, 0], [0, 0, -32], [-32, 0, 0], [-37, -37, -37],
   [0, -32, -32], [24, 24, 45], [50, 50, 50], [-45, -24, -24], [-24, -45, -45], [0, -24, -24],
   [-34, -34, 0], [-24, 0, -24], [-45, -45, -24], [64, 64, 64], [-32, 0, -32], [0, -32, 0],
   [-32, 0, 32], [-24, -45, -24], [45, 24, 45], [24, -24, -45], [-45, -24, 24], [80, 80, 80],
   [64, 0, 0], [0, 0, -64], [0, -64, -64], [-24, -24, 45], [96, 96, 96], [64, 64, 0],
   [45, -24, -24], [34, -34, 0], [112, 112, 112], [24, -45, -45], [45, 45, -24], [0, -32, 32],
   [24, -24, 45], [0, 96, 96], [45, -24, 24], [24, -45, -24], [-24, -45, 24], [0, -64, 0],
   [96, 0, 0], [128, 128, 128], [64, 0, 64], [144, 144, 144], [96, 96, 0], [-36, -36, 36],
   [45, -24, -45], [45, -45, -24], [0, 0, -96], [0, 128, 128], [0, 96, 0], [45, 24, -45],
   [-128, 0, 0], [24, -45, 24], [-45, 24, -45], [64, 0, -64], [64, -64, -64], [96, 0, 96],
   [45, -45, 24], [24, 45, -45], [64, 64, -64], [128, 128, 0], [0, 0, -128], [-24, 45, -45]]

/-- frame/ModularStream.go:539: `1 << util.Max(0, bitDepth-3)`; `bitDepth` is unsigned, and a shift by 32 or more leaves 0. -/
def cubeOffset (bitDepth : Nat) : Int := if (bitDepth + 4294967296 - 3) % 4294967296 < 32 then i32 (2 ^ ((bitDepth + 4294967296 - 3) % 4294967296)) else 0

/-- frame/ModularStream.go:542-544: `c` divisions by 5. -/
def divide5 : Nat → Int → Int
  | 0, i => i
  | n + 1, i => divide5 n (i.tdiv 5)

/-- frame/ModularStream.go:548-557: the colour difference for a negative index. -/
def deltaEntry (bitDepth c : Nat) (index : Int) : Res Int := do
  let i := (i32 (i32 (-index) - 1)).tmod 143
  let e ← at2 kDeltaPalette (sar (i32 (i + 1)) 1) c
  let v := if i % 2 = 0 then i32 (-e) else e
  .ok (if 8 < bitDepth then i32 (v * 2 ^ (min bitDepth 24 - 8)) else v)

/-- frame/ModularStream.go:531-560: the value of component `c` for an index. -/
def paletteValue (c0 : List (List Int)) (nbColours bitDepth c : Nat) (index : Int) : Res Int :=
  if 0 ≤ index ∧ index < nbColours then at2 c0 c index
  else if (nbColours : Int) ≤ index then
    if index - nbColours < 64 then
      .ok (i32 ((i32 ((sar (index - nbColours) (2 * c)).tmod 4 * (i32 (2 ^ bitDepth) - 1))).tdiv 4 + cubeOffset bitDepth))
    else .ok ((i32 ((divide5 c (index - nbColours - 64)).tmod 5 * (i32 (2 ^ bitDepth) - 1))).tdiv 4)
  else if c < 3 then deltaEntry bitDepth c index
  else .ok 0

/-- frame/ModularStream.go:561-568: a difference is added to the prediction. -/
def addDelta (isDelta : Bool) (ch : MChan) (dPred y x : Nat) (b : List (List Int)) : Res (List (List Int)) :=
  if isDelta then do
    let p ← prediction ch.width b ch.pred y x dPred
    let v ← at2 b y x
    set2 b y x (i32 (v + p))
  else .ok b

/-- frame/ModularStream.go:529-569: one sample of component `c`. -/
def paletteSample (t : TransformInfo) (c0 : List (List Int)) (bitDepth c : Nat) (ch : MChan) (y x : Nat) (b : List (List Int)) : Res (List (List Int)) := do
  let index ← at2 b y x
  let value ← paletteValue c0 t.nbColours bitDepth c index
  let b ← set2 b y x value
  addDelta (decide (index < t.nbDeltas)) ch t.dPred y x b

/-- frame/ModularStream.go:526-571: component `c`. -/
def paletteChannel (t : TransformInfo) (c0 : List (List Int)) (bitDepth h w c : Nat) (ch : MChan) : Res MChan := do
  let b ← forFrom (fun y b => forFrom (fun x b => paletteSample t c0 bitDepth c ch y x b) w 0 b) h 0 ch.buffer
  .ok { ch with buffer := b }

/-- frame/ModularChannel.go:51-61 `NewModularChannelFromChannel`: a copy without predictions. -/
def MChan.copy (c : MChan) : MChan := { c with pred := [] }

/-- util/misc.go:96-100 `Add`, as in `goAdd`; the elements of the result do not depend on the capacity of the slice
(`C25_add_partial`, `C25_add_wrong`). -/
def addElem {α : Type} (l : List α) (i : Nat) (x : α) : Res (List α) := do
  let r ← goAdd ⟨l, l.length⟩ i x
  .ok r.1

/-- A pointer to a channel: the objects made while undoing a palette are numbered (from 2 on), the others have 0. -/
abbrev ChanRef := Nat × MChan

/-- frame/ModularStream.go:525-527: a copy of the index channel is inserted at `j`. -/
def addCopy (first : MChan) (j : Nat) (chs : List ChanRef) : Res (List ChanRef) := addElem chs j (j, first.copy)

/-- Writing to the object at position `i`: it changes wherever the same pointer is. -/
def writeRef (chs : List ChanRef) (i : Int) (tag : Nat) (o : MChan) : Res (List ChanRef) :=
  if tag = 0 then setAt chs i (0, o) else .ok (chs.map (fun e => if e.1 = tag then (tag, o) else e))

/-- frame/ModularStream.go:528-570: component `c` of the colours. -/
def paletteComponent (t : TransformInfo) (bitDepth : Nat) (c0 : List (List Int)) (first : MChan) (c : Nat) (chs : List ChanRef) : Res (List ChanRef) := do
  let ch ← idx chs ((t.beginC : Int) + 1 + c)
  let o ← paletteChannel t c0 bitDepth first.height first.width c ch.2
  writeRef chs ((t.beginC : Int) + 1 + c) ch.1 o

/-- frame/ModularStream.go:518-572: undoing a palette (the count of meta channels is not used afterwards). -/
def undoPalette (t : TransformInfo) (bitDepth : Nat) (chs : List MChan) : Res (List MChan) := do
  let first ← idx chs ((t.beginC : Int) + 1)
  let c0 ← idx chs 0
  let l ← forFrom (addCopy first) (t.numC - 1) (t.beginC + 2) (chs.map (fun c => (0, c)))
  let l ← forFrom (paletteComponent t bitDepth c0.buffer first) t.numC 0 l
  .ok ((l.map Prod.snd).drop 1)

end Jxl
