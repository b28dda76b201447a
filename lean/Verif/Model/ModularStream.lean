import Verif.Model.Transforms

/-!
# Modular streams (frame/ModularStream.go): which channels are coded, and decoding them

The channels have no samples while they are planned (all callers pass channels without buffers).
-/
namespace Jxl

/-- frame/ModularStream.go:166-178: the channels of a stream and how many of them are meta channels. -/
structure Plan where
  channels : List MChan
  nbMeta : Int
  deriving Repr, DecidableEq

/-- frame/ModularStream.go:254-258: a palette whose differences use the weighted predictor needs it in the index channel. -/
def planForceWP (t : TransformInfo) (chs : List MChan) : Res (List MChan) :=
  if 0 < t.nbDeltas ∧ t.dPred = 6 then do
    let mc ← idx chs (t.beginC : Int)
    setAt chs (t.beginC : Int) { mc with forceWP := true }
  else .ok chs

/-- frame/ModularStream.go:242-262: a palette takes the place of `numC` channels. -/
def planPalette (t : TransformInfo) (p : Plan) : Res Plan := do
  let m := if (t.beginC : Int) < p.nbMeta then p.nbMeta + (2 - t.numC) else p.nbMeta + 1
  let chs ← forFrom (fun _ l => removeAt l ((t.beginC : Int) + 1)) (t.numC - 1) 0 p.channels
  let chs ← planForceWP t chs
  .ok ⟨MChan.new t.numC t.nbColours (-1) (-1) false :: chs, m⟩

/-- frame/ModularStream.go:279-288: the rest of the default squeeze for a size `w` by `h`. Every round makes a side above 8
smaller, so that `w + h` rounds are never used up (`codeLoop_eq`). -/
def codeLoop (first count : Nat) : Nat → Nat → Nat → List SqueezeParam
  | 0, _, _ => []
  | n + 1, w, h =>
    if w > 8 ∨ h > 8 then
      (if w > 8 then [⟨true, true, first, count⟩] else []) ++ (if h > 8 then [⟨false, true, first, count⟩] else []) ++
        codeLoop first count n (if w > 8 then u32 (w + 1) / 2 else w) (if h > 8 then u32 (h + 1) / 2 else h)
    else []

/-- frame/ModularStream.go:271-274: the test for chroma channels. -/
def chromaTest (chs : List MChan) (first : Nat) (size : MChan) : Res Bool :=
  if chs.length - first > 2 then do
    let c1 ← idx chs ((first : Int) + 1)
    .ok (size.width == c1.width && size.height == c1.height)
  else .ok false

/-- frame/ModularStream.go:267-289: the default squeeze. Simplified: a negative number of meta channels (a palette of more than
two meta channels) counts as a crash. -/
def codeDefault (p : Plan) : Res (List SqueezeParam) :=
  if p.nbMeta < 0 then .panic
  else do
    let first := p.nbMeta.toNat
    let size ← idx p.channels 0
    let chroma ← chromaTest p.channels first size
    let count := p.channels.length - first
    let l0 : List SqueezeParam := if chroma then [⟨true, false, first + 1, 2⟩, ⟨false, false, first + 1, 2⟩] else []
    let tall := size.height ≥ size.width ∧ size.height > 8
    let l1 : List SqueezeParam := if tall then [⟨false, true, first, count⟩] else []
    let h := if tall then u32 (size.height + 1) / 2 else size.height
    .ok (l0 ++ l1 ++ codeLoop first count (size.width + h) size.width h)

/-- frame/ModularStream.go:318-332: the sizes after a squeeze: of the channel and of its residual. -/
def halve (horizontal : Bool) (c : MChan) : MChan × MChan :=
  if horizontal then
    ({ c with width := u32 (c.width + 1) / 2, hshift := c.hshift + 1 },
     MChan.copy { c with width := c.width / 2, hshift := c.hshift + 1 })
  else
    ({ c with height := u32 (c.height + 1) / 2, vshift := c.vshift + 1 },
     MChan.copy { c with height := c.height / 2, vshift := c.vshift + 1 })

/-- frame/ModularStream.go:314-335: the channels of a step. -/
def planChannels (sp : SqueezeParam) (offset : Int) : Nat → Nat → List MChan → Res (List MChan) :=
  forFrom (fun c chs => do
    let ch ← idx chs (c : Int)
    let chs ← setAt chs (c : Int) (halve sp.horizontal ch).1
    addToSlice ⟨chs, chs.length⟩ (offset + c - sp.beginC) (halve sp.horizontal ch).2)

/-- frame/ModularStream.go:304-312: meta channels are squeezed in place, and not together with others. -/
def planMeta (sp : SqueezeParam) (m : Int) : Res Int :=
  if (sp.beginC : Int) < m then
    if sp.inPlace = false then .err
    else if m ≤ (sp.beginC : Int) + sp.numC - 1 then .err
    else .ok (m + sp.numC)
  else .ok m

/-- frame/ModularStream.go:297-336: one squeeze step. -/
def planStep (sp : SqueezeParam) (p : Plan) : Res Plan := do
  let m ← planMeta sp p.nbMeta
  let chs ← planChannels sp (if sp.inPlace then (sp.beginC : Int) + sp.numC else p.channels.length) sp.numC sp.beginC p.channels
  .ok ⟨chs, m⟩

/-- frame/ModularStream.go:297-336: the squeeze steps. -/
def planSteps : List SqueezeParam → Plan → Res Plan
  | [], p => .ok p
  | sp :: sps, p => do
    let p ← planStep sp p
    planSteps sps p

/-- frame/ModularStream.go:238-341: one transform; also what `squeezeMap` holds for it. -/
def planTransform (t : TransformInfo) (p : Plan) : Res (Plan × List SqueezeParam) :=
  if t.tr = 1 then do
    let p ← planPalette t p
    .ok (p, [])
  else if t.tr = 2 then do
    let sps ← if t.sp.length = 0 then codeDefault p else .ok t.sp
    let p ← planSteps sps p
    .ok (p, sps)
  else if t.tr = 0 then .ok (p, [])
  else .err

/-- frame/ModularStream.go:238-341: the transforms in order. -/
def planAll : List TransformInfo → Plan → Res (Plan × List (TransformInfo × List SqueezeParam))
  | [], p => .ok (p, [])
  | t :: ts, p => do
    let r ← planTransform t p
    let q ← planAll ts r.1
    .ok (q.1, (t, r.2) :: q.2)

/-- frame/ModularStream.go:358-365: the width of the widest channel. -/
def maxWidth : List MChan → Nat
  | [] => 0
  | c :: cs => max c.width (maxWidth cs)

/-- frame/ModularStream.go:404-580: undoing one transform. -/
def undoTransform (bitDepth : Nat) (t : TransformInfo) (sps : List SqueezeParam) (chs : List MChan) : Res (List MChan) :=
  if t.tr = 2 then undoSqueeze sps chs
  else if t.tr = 0 then undoRCT t.beginC t.rctType chs
  else if t.tr = 1 then undoPalette t bitDepth chs
  else .ok chs

/-- frame/ModularStream.go:396-581 `applyTransforms`, called once: the last transform is undone first. -/
def applyTransforms (bitDepth : Nat) : List (TransformInfo × List SqueezeParam) → List MChan → Res (List MChan)
  | [], chs => .ok chs
  | (t, sps) :: l, chs => do
    let chs ← applyTransforms bitDepth l chs
    undoTransform bitDepth t sps chs

/-- frame/ModularStream.go:372-384, without `partial`: all channels in order; the channels decoded before serve as references. -/
def decodeAll (wp : WPParams) (tree : MATree) (streamIndex mult : Int) : List MChan → List MChan → ES → Rd (List MChan × ES)
  | [], done, es => Pure.pure (done, es)
  | c :: cs, done, es => do
    let r ← decodeChannel c.toChan (done.map MChan.toChan) wp tree done.length streamIndex mult es
    decodeAll wp tree streamIndex mult cs (done ++ [{ c with buffer := r.1, pred := r.2.1.pred }]) r.2.2

/-- frame/ModularStream.go:238-341, 358-365, 371-394: planning the channels, decoding them, and undoing the transforms.
The headers have been read (`readTransformInfo`), the tree and the entropy decoder are given. -/
def decodeModular (bitDepth : Nat) (ts : List TransformInfo) (chs : List MChan) (wp : WPParams) (tree : MATree) (streamIndex : Int) (es : ES) : Rd (List MChan × ES) := do
  let p ← Rd.lift (planAll ts ⟨chs, 0⟩)
  let r ← decodeAll wp tree streamIndex (maxWidth p.1.channels) p.1.channels [] es
  if r.2.validateFinalState then do
    let out ← Rd.lift (applyTransforms bitDepth p.2 r.1)
    Pure.pure (out, r.2)
  else Rd.fail

end Jxl
