import Verif.Model.ModularStream
import Verif.Model.FrameDecode
import Verif.Model.TOC

/-!
# Decoding a modular frame (frame/Frame.go:324-479, 540-784, frame/LFGlobal.go:43-168, frame/LFGroup.go:19-64, frame/Pass.go:21-67, frame/PassGroup.go:73-106,
frame/ModularStream.go:189-394)

The sections of a frame are read one after the other: what a section decodes to does not depend on the other sections, and each is read from a reader of
its own (or there is only one section). The goroutines are the subject of `Model/Workers.lean`.
-/
namespace Jxl

/-! ## The header of a modular stream -/

/-- frame/ModularStream.go:203-220: what a modular stream starts with. -/
structure ModHeader where
  useGlobalTree : Bool
  wp : WPParams
  transforms : List TransformInfo
  deriving DecidableEq

/-- frame/ModularStream.go:203-220. -/
def readModHeader : Rd ModHeader := do
  let g ← readBool
  let wp ← readWPParams
  let n ← readU32 0 0 1 0 2 4 18 8
  let ts ← readList readTransformInfo n
  Pure.pure ⟨g, wp, ts⟩

/-- A tree and the entropy decoder for its leaves; `none` when the frame has no global tree. -/
abbrev GlobalTree := Option (MATree × ES)

/-- frame/ModularStream.go:343-356: the tree of a stream, with an entropy decoder of its own. Without a global tree `ms.tree` is `nil`, and `ms.tree.stream`
is a panic. -/
def streamTree (global : GlobalTree) (useGlobal : Bool) : Rd (MATree × ES) :=
  if useGlobal then
    match global with
    | some t => Pure.pure (t.1, t.2.fresh)
    | none => Rd.crash
  else do
    let t ← readMATree
    Pure.pure (t.1, t.2.fresh)

/-- frame/ModularStream.go:375-378: the global stream is decoded up to the first channel that is larger than a group. -/
def stopsAt (groupDim : Nat) (nbMeta : Int) (i : Nat) (c : MChan) : Bool :=
  decide (nbMeta ≤ (i : Int)) && (decide (groupDim < c.width) || decide (groupDim < c.height))

/-- frame/ModularStream.go:371-384 with `partial`: the channels that are decoded, and those that are not. -/
def decodeSome (groupDim : Nat) (nbMeta : Int) (wp : WPParams) (tree : MATree) (streamIndex mult : Int) :
    List MChan → List MChan → ES → Rd (List MChan × List MChan × ES)
  | [], done, es => Pure.pure (done, [], es)
  | c :: cs, done, es =>
    if stopsAt groupDim nbMeta done.length c then Pure.pure (done, c :: cs, es)
    else do
      let r ← decodeChannel c.toChan (done.map MChan.toChan) wp tree done.length streamIndex mult es
      decodeSome groupDim nbMeta wp tree streamIndex mult cs (done ++ [{ c with buffer := r.1, pred := r.2.1.pred }]) r.2.2

/-- The global modular stream of a frame: its transforms, the channels decoded so far, and the others. -/
structure GlobalStream where
  steps : List (TransformInfo × List SqueezeParam)
  done : List MChan
  rest : List MChan

/-- frame/LFGlobal.go:158-165, frame/ModularStream.go:189-394: the global stream. A stream without channels reads nothing. -/
def readGlobalStream (groupDim : Nat) (global : GlobalTree) (chs : List MChan) : Rd GlobalStream :=
  match chs with
  | [] => Pure.pure ⟨[], [], []⟩
  | c :: cs => do
    let hd ← readModHeader
    let p ← Rd.lift (planAll hd.transforms ⟨c :: cs, 0⟩)
    let t ← streamTree global hd.useGlobalTree
    let r ← decodeSome groupDim p.1.nbMeta hd.wp t.1 0 (maxWidth p.1.channels) p.1.channels [] t.2
    if r.2.2.validateFinalState then Pure.pure ⟨p.2, r.1, r.2.1⟩ else Rd.fail

/-! ## The global section -/

/-- frame/LFGlobal.go:50-84: patches, splines and noise are refused. -/
def refusedFlags (flags : Nat) : Bool := flags.testBit 0 || flags.testBit 1 || flags.testBit 4

/-- frame/LFGlobal.go:136-144: the global tree. -/
def readGlobalTree (has : Bool) : Rd GlobalTree :=
  if has then do
    let t ← readMATree
    Pure.pure (some t)
  else Pure.pure none

/-- frame/ModularStream.go:222-234: the channels of the global stream, before the transforms. -/
def globalBlanks (h : ImageHeader) (f : FrameHeader) : List MChan :=
  (globalChannels h f).map fun c => MChan.new c.1.height c.1.width c.2 c.2 false

/-- What the global section of a modular frame contains. -/
structure ModGlobal where
  lfDequant : List F32
  tree : GlobalTree
  stream : GlobalStream

/-- frame/LFGlobal.go:43-168 `NewLFGlobalWithReader` for a modular frame. The factors are exact as `float32` (`readLFDequant`). -/
def readModGlobal (h : ImageHeader) (f : FrameHeader) : Rd ModGlobal :=
  if refusedFlags f.flags then Rd.fail
  else do
    let d ← readLFDequant
    let has ← readBool
    let tree ← readGlobalTree has
    let st ← readGlobalStream f.groupDim tree (globalBlanks h f)
    Pure.pure ⟨d.map F32.fin, tree, st⟩

/-! ## The streams of groups -/

/-- The place of a channel of a group in the frame: row and column. -/
abbrev Origin := Int × Int

/-- frame/ModularStream.go:297-336: residuals are new channels at the place (0, 0). -/
def planOriginStep (sp : SqueezeParam) (os : List Origin) : Res (List Origin) :=
  forFrom (fun c l => addToSlice ⟨l, l.length⟩ ((if sp.inPlace then (sp.beginC : Int) + sp.numC else os.length) + c - sp.beginC) (0, 0)) sp.numC sp.beginC os

/-- frame/ModularStream.go:297-336: the steps of a squeeze. -/
def planOriginSteps : List SqueezeParam → List Origin → Res (List Origin)
  | [], os => .ok os
  | sp :: sps, os => do
    let os ← planOriginStep sp os
    planOriginSteps sps os

/-- frame/ModularStream.go:238-341: what a transform does to the places of the channels while they are planned. -/
def planOrigin (t : TransformInfo) (sps : List SqueezeParam) (os : List Origin) : Res (List Origin) :=
  if t.tr = 1 then do
    let os ← forFrom (fun _ l => removeAt l ((t.beginC : Int) + 1)) (t.numC - 1) 0 os
    .ok ((0, 0) :: os)
  else if t.tr = 2 then planOriginSteps sps os
  else .ok os

/-- frame/ModularStream.go:418-441: the output of an inverse squeeze is a new channel at the place (0, 0). -/
def undoOriginStep (sp : SqueezeParam) (os : List Origin) : Res (List Origin) := do
  let l ← forFrom (fun c l => setAt l (c : Int) ((0, 0) : Origin)) sp.numC sp.beginC os
  forFrom (fun _ l => removeAt l (squeezeOffset sp os.length)) sp.numC 0 l

/-- frame/ModularStream.go:406-442. -/
def undoOriginSteps : List SqueezeParam → List Origin → Res (List Origin)
  | [], os => .ok os
  | sp :: sps, os => do
    let os ← undoOriginSteps sps os
    undoOriginStep sp os

/-- frame/ModularStream.go:448-453, 515-517: a colour transform permutes the channels. -/
def undoOriginRCT (start rctType : Nat) (os : List Origin) : Res (List Origin) := do
  let v0 ← idx os (start : Int)
  let v1 ← idx os ((start : Int) + 1)
  let v2 ← idx os ((start : Int) + 2)
  let p ← idx permutationLUT ((rctType / 7 : Nat) : Int)
  let os ← setAt os ((start + p.1 : Nat) : Int) v0
  let os ← setAt os ((start + p.2.1 : Nat) : Int) v1
  setAt os ((start + p.2.2 : Nat) : Int) v2

/-- frame/ModularStream.go:404-580: what undoing a transform does to the places of the channels. The channels added for a palette are new ones at the place
(0, 0) (525-527, `NewModularChannelFromChannel`). -/
def undoOrigin (t : TransformInfo) (sps : List SqueezeParam) (os : List Origin) : Res (List Origin) :=
  if t.tr = 2 then undoOriginSteps sps os
  else if t.tr = 0 then undoOriginRCT t.beginC t.rctType os
  else if t.tr = 1 then do
    let l ← forFrom (fun j l => addElem l j ((0, 0) : Origin)) (t.numC - 1) (t.beginC + 2) os
    .ok (l.drop 1)
  else .ok os

/-- The places of the channels after all transforms have been planned and undone. -/
def originsAfter : List (TransformInfo × List SqueezeParam) → List Origin → Res (List Origin)
  | [], os => .ok os
  | (t, sps) :: l, os => do
    let os ← planOrigin t sps os
    let os ← originsAfter l os
    undoOrigin t sps os

/-- frame/ModularStream.go:189-394 without `partial`: the stream of a group. The channels keep or lose their places. -/
def readGroupStream (bitDepth : Nat) (global : GlobalTree) (streamIndex : Nat) (chs : List (MChan × Origin)) : Rd (List (MChan × Origin)) :=
  match chs with
  | [] => Pure.pure []
  | c :: cs => do
    let hd ← readModHeader
    let p ← Rd.lift (planAll hd.transforms ⟨(c :: cs).map Prod.fst, 0⟩)
    let t ← streamTree global hd.useGlobalTree
    let r ← decodeModular bitDepth hd.transforms ((c :: cs).map Prod.fst) hd.wp t.1 streamIndex t.2
    let os ← Rd.lift (originsAfter p.2 ((c :: cs).map Prod.snd))
    Pure.pure (r.1.zip os)

/-- frame/Frame.go:305-314, 480-494: reading from section `i`. With one section it is read from the frame's reader, otherwise from a reader of its own. -/
def onSection {α : Type} (toc : TOC) (readers : List SectionReader) (i : Nat) (m : Rd α) : Rd α := do
  let r ← Rd.lift (getBitreader toc readers i)
  match r with
  | .shared => m
  | .own bytes => Rd.lift (m (BR.new bytes)).1

/-! ## LF groups -/

/-- frame/Frame.go:545-555: the channels that are decoded with the LF groups. -/
def inLFGroups (c : MChan) : Bool := decide (3 ≤ c.hshift) && decide (3 ≤ c.vshift)

/-- frame/Frame.go:550-552, 572-575, 604-624: the part of a channel in an LF group. -/
def lfGroupChannel (f : FrameHeader) (padded : Dim) (pos : Int × Int) (c : MChan) : MChan × Origin :=
  let th := f.lfGroupDim >>> c.vshift.toNat
  let tw := f.lfGroupDim >>> c.hshift.toNat
  let y := i32 (pos.1 * i32 th)
  let x := i32 (pos.2 * i32 tw)
  (MChan.new (min th (subU32 (padded.height >>> c.vshift.toNat) (toU32 y))) (min tw (subU32 (padded.width >>> c.hshift.toNat) (toU32 x))) c.vshift c.hshift false, (y, x))

/-- frame/Frame.go:594-632 and frame/LFGroup.go:19-64 for a modular frame: one LF group. -/
def readLFGroup (h : ImageHeader) (f : FrameHeader) (l : Layout) (toc : TOC) (readers : List SectionReader) (padded : Dim) (g : ModGlobal) (id : Nat) :
    Rd (List (MChan × Origin)) := do
  let pos ← Rd.lift (gridLocation l.lfGroupRowStride id)
  let _ ← Rd.lift (lfGroupArea f l id)
  onSection toc readers (1 + id) (readGroupStream h.bitDepth.bits g.tree (1 + u32 (l.numLFGroups + id)) ((g.stream.rest.filter inLFGroups).map (lfGroupChannel f padded pos)))

/-- An error is kept for later: nothing instead of the result. A panic in a goroutine ends the program. -/
def orEmpty {α : Type} (m : Rd α) : Rd (Option α) := fun s =>
  match m s with
  | (.ok a, s') => (.ok (some a), s')
  | (.err, s') => (.ok none, s')
  | (.panic, s') => (.panic, s')

/-- frame/Frame.go:590-633: the LF groups from `id` on. -/
def readLFGroups (h : ImageHeader) (f : FrameHeader) (l : Layout) (toc : TOC) (readers : List SectionReader) (padded : Dim) (g : ModGlobal) :
    Nat → Nat → Rd (List (Option (List (MChan × Origin))))
  | 0, _ => Pure.pure []
  | n + 1, id => do
    let a ← orEmpty (readLFGroup h f l toc readers padded g id)
    let rest ← readLFGroups h f l toc readers padded g n (id + 1)
    Pure.pure (a :: rest)

/-- frame/Frame.go:635-639: if a group has failed, the frame fails. -/
def allRead {α : Type} : List (Option α) → Res (List α)
  | [] => .ok []
  | none :: _ => .err
  | some a :: l => do
    let l ← allRead l
    .ok (a :: l)

/-- frame/ModularChannel.go:77-87 `allocate`. -/
def MChan.allocated (c : MChan) : MChan :=
  if c.buffer.length ≠ 0 then c
  else if c.height = 0 ∨ c.width = 0 then { c with buffer := [] }
  else { c with buffer := zeroPlane c.height c.width }

/-- frame/Frame.go:649-659: the LF groups of channel `index` (its number in the global stream, which is also used for the stream of the group). -/
def pasteLFChannel (index : Nat) : List (List (MChan × Origin)) → MChan → Res MChan
  | [], c => .ok c
  | g :: gs, c => do
    let e ← idx g (index : Int)
    let b ← pasteRows 0 e.1.buffer e.2.1 c.buffer
    pasteLFChannel index gs { c with buffer := b }

/-- frame/Frame.go:641-659: the channels of the LF groups are put together; `i` is the number of the first channel in the list. -/
def pasteLF (groups : List (List (MChan × Origin))) : List MChan → Nat → Res (List MChan)
  | [], _ => .ok []
  | c :: cs, i => do
    let c ← if inLFGroups c then pasteLFChannel i groups c.allocated else .ok c
    let cs ← pasteLF groups cs (i + 1)
    .ok (c :: cs)

/-! ## Pass groups -/

/-- frame/Pass.go:46-56: does a pass decode this channel? -/
def inPass (sh : Nat × Nat) (c : MChan) : Bool := passTakes sh (toU32 (min c.hshift c.vshift))

/-- frame/Frame.go:701-716: the part of a channel in a group. -/
def groupChannel (groupDim : Nat) (id : Nat) (c : MChan) : Res (MChan × Origin) := do
  let a ← channelTile groupDim c.height c.width c.vshift.toNat c.hshift.toNat id
  .ok (MChan.new a.height a.width c.vshift c.hshift c.forceWP, (a.y, a.x))

/-- frame/Frame.go:690-725 `doProcessing` and frame/PassGroup.go:73-106 for a modular frame. -/
def readPassGroup (h : ImageHeader) (f : FrameHeader) (l : Layout) (toc : TOC) (readers : List SectionReader) (g : ModGlobal) (sh : Nat × Nat) (pass group : Nat) :
    Rd (List (MChan × Origin)) := do
  let chs ← Rd.lift ((g.stream.rest.filter (inPass sh)).mapM (groupChannel f.groupDim group))
  let r ← onSection toc readers (2 + l.numLFGroups + pass * l.numGroups + group)
    (readGroupStream h.bitDepth.bits g.tree (u32 (18 + 3 * l.numLFGroups + l.numGroups * pass + group)) chs)
  let _ ← Rd.lift (lfGroupFor l group)
  Pure.pure r

/-- frame/Frame.go:681-688, 732-762: the groups of a pass, from `group` on. An error is only logged (683-685), and the entry of the group stays empty. -/
def readPassGroups (h : ImageHeader) (f : FrameHeader) (l : Layout) (toc : TOC) (readers : List SectionReader) (g : ModGlobal) (sh : Nat × Nat) (pass : Nat) :
    Nat → Nat → Rd (List (Option (List (MChan × Origin))))
  | 0, _ => Pure.pure []
  | n + 1, group => do
    let a ← orEmpty (readPassGroup h f l toc readers g sh pass group)
    let rest ← readPassGroups h f l toc readers g sh pass n (group + 1)
    Pure.pure (a :: rest)

/-- frame/Frame.go:732-762: the passes from `pass` on. -/
def readPassesGroups (h : ImageHeader) (f : FrameHeader) (l : Layout) (toc : TOC) (readers : List SectionReader) (g : ModGlobal) :
    List (Nat × Nat) → Nat → Rd (List (List (Option (List (MChan × Origin)))))
  | [], _ => Pure.pure []
  | sh :: shs, pass => do
    let a ← readPassGroups h f l toc readers g sh pass l.numGroups 0
    let rest ← readPassesGroups h f l toc readers g shs (pass + 1)
    Pure.pure (a :: rest)

/-- frame/Frame.go:774-781: the groups of a channel, number `j` of those that the pass decodes. An empty entry has no stream. -/
def pasteChannel (j : Nat) : List (Option (List (MChan × Origin))) → MChan → Res MChan
  | [], c => .ok c
  | none :: _, _ => .panic
  | some g :: gs, c => do
    let e ← idx g (j : Int)
    let b ← pasteRows e.2.2 e.1.buffer e.2.1 c.buffer
    pasteChannel j gs { c with buffer := b }

/-- frame/Frame.go:765-783: the channels of a pass. -/
def pastePass (sh : Nat × Nat) (groups : List (Option (List (MChan × Origin)))) : List MChan → Nat → Res (List MChan)
  | [], _ => .ok []
  | c :: cs, j =>
    if inPass sh c then do
      let c ← pasteChannel j groups c.allocated
      let cs ← pastePass sh groups cs (j + 1)
      .ok (c :: cs)
    else do
      let cs ← pastePass sh groups cs j
      .ok (c :: cs)

/-- frame/Frame.go:764-784: all passes. -/
def pastePasses : List (Nat × Nat) → List (List (Option (List (MChan × Origin)))) → List MChan → Res (List MChan)
  | sh :: shs, g :: gs, cs => do
    let cs ← pastePass sh g cs 0
    pastePasses shs gs cs
  | _, _, cs => .ok cs

/-! ## The frame -/

/-- Parts of the decoder that are not modelled together with frames: the frames of the other encoding, and the filters after decoding. They may be any
functions. -/
structure FrameParts where
  vardct : ImageHeader → FrameHeader → TOC → Rd (List ImageBuffer)
  filters : ImageHeader → FrameHeader → List ImageBuffer → Res (List ImageBuffer)

/-- frame/Frame.go:466-476: the filters that the header asks for. -/
def applyFilters (P : FrameParts) (h : ImageHeader) (f : FrameHeader) (bufs : List ImageBuffer) : Res (List ImageBuffer) :=
  if f.restoration.gab || decide (0 < f.restoration.iterations) then P.filters h f bufs else .ok bufs

/-- frame/Frame.go:462-476: subsampling and filters. An error of the first is not returned, and the rest is left out (simplified: it changes nothing then). -/
def finishPlanes (P : FrameParts) (h : ImageHeader) (f : FrameHeader) (bufs : List ImageBuffer) : Res (List ImageBuffer) :=
  match invertSubsampling h.bitDepth.bits f.jpegX f.jpegY bufs with
  | .ok bufs => applyFilters P h f bufs
  | .err => .ok bufs
  | .panic => .panic

/-- frame/Frame.go:380-415 for a modular frame: what follows the global section. The channels of the global stream, with all transforms undone. -/
def decodeModularGroups (h : ImageHeader) (f : FrameHeader) (l : Layout) (toc : TOC) (readers : List SectionReader) (padded : Dim) (g : ModGlobal) : Rd (List MChan) := do
  let lfs ← readLFGroups h f l toc readers padded g l.numLFGroups 0
  let lfs ← Rd.lift (allRead lfs)
  let rest ← Rd.lift (pasteLF lfs g.stream.rest g.stream.done.length)
  let _ ← Rd.lift (getBitreader toc readers (1 + l.numLFGroups))
  let shs ← Rd.lift (passShifts f.passes f.passes.numPasses 0 3)
  let groups ← readPassesGroups h f l toc readers g shs 0
  let rest ← Rd.lift (pastePasses shs groups rest)
  Rd.lift (applyTransforms h.bitDepth.bits g.stream.steps (g.stream.done ++ rest))

/-- frame/Frame.go:324-479 `DecodeFrame` for a modular frame. -/
def decodeModularFrame (P : FrameParts) (I : FloatImpl) (h : ImageHeader) (f : FrameHeader) (l : Layout) (toc : TOC) : Rd (List ImageBuffer) := do
  let readers ← setupBitReaders toc
  let g ← onSection toc readers 0 (readModGlobal h f)
  let padded ← Rd.lift (paddedFrameSize f)
  let bufs ← Rd.lift (framePlanes h f)
  let chs ← decodeModularGroups h f l toc readers padded g
  let bufs ← Rd.lift (storeModular I h f g.lfDequant (chs.map fun c => c.buffer) bufs)
  Rd.lift (finishPlanes P h f bufs)

/-- frame/Frame.go:324-479 `DecodeFrame`. -/
def decodeFrame (P : FrameParts) (I : FloatImpl) (h : ImageHeader) (f : FrameHeader) (l : Layout) (toc : TOC) : Rd (List ImageBuffer) :=
  if f.encoding = 0 then P.vardct h f toc else decodeModularFrame P I h f l toc

end Jxl
