import Verif.Model.ModularFrame
import Verif.Model.Filters

/-!
# The filters of a frame (frame/Frame.go:466-476, 972-1398)

`Model/Filters.lean` has the samples of one plane; here are the planes of a frame. Written for any arithmetic of `float32`.
-/
namespace Jxl

/-- What the filters take from outside: the number of goroutines, the factor `stepMultiplier` (frame/Frame.go:23 and 1079, with `math.Sqrt`), and the orders in which the steps of the goroutines happen: for each
channel in Gaborish, for each pass of the edge-preserving filter. -/
structure FilterParts (α : Type) where
  goroutines : Int
  stepMultiplier : α
  gabOrder : FrameHeader → Nat → List (Int × Int)
  epfOrder : FrameHeader → Nat → List ((Int × Int) × Nat)

/-- frame/Frame.go:989-1073: Gaborish for one channel. -/
def gabBuffer (A : Arith F32) (goroutines : Int) (depth : Nat) (w1 w2 : F32) (order : List (Int × Int)) (b : ImageBuffer) : Res ImageBuffer := do
  let b ← castToFloatIfMax b (mask32 depth)
  let nb ← newImageBuffer 1 b.height b.width
  let _ ← gabWorkers b.height b.width goroutines
  let m ← runSteps (gabStep (gabWeights w1 w2) b.height b.width b.floats) order nb.floats
  .ok { b with floats := m }

/-- frame/Frame.go:972-1075 `performGabConvolution`. The weights are looked up channel by channel. -/
def performGab (A : Arith F32) (Q : FilterParts F32) (h : ImageHeader) (f : FrameHeader) (bufs : List ImageBuffer) : Res (List ImageBuffer) :=
  forFrom (fun c bufs => do
    let w1 ← idx f.restoration.gab1 (c : Int)
    let w2 ← idx f.restoration.gab2 (c : Int)
    onBuffer (gabBuffer A Q.goroutines h.bitDepth.bits (A.lit w1) (A.lit w2) (Q.gabOrder f c)) c bufs) (frameColourCount h f.encoding) 0 bufs

/-- frame/Frame.go:1129-1397: the passes of the edge-preserving filter, one after the other. `outs` are the planes that the next pass writes: what it takes becomes what the one after it writes.
The copies of both (frame/Frame.go:1407-1415) are left out: planes have the size of the padded frame. -/
def epfLoop {α : Type} [Arith α] (p : EPF α) (sg : Nat → α) (colours : Nat) (goroutines : Int) (order : Nat → List ((Int × Int) × Nat)) :
    List Nat → List (List (List α)) → List (List (List α)) → Res (List (List (List α)))
  | [], bufs, _ => .ok bufs
  | pass :: passes, bufs, outs => do
    let _ ← epfWorkers p.height p.width colours goroutines
    let res ← runSteps (epfStep p pass (sg pass) bufs) (order pass) outs
    epfLoop p sg colours goroutines order passes res bufs

/-- frame/Frame.go:1144-1152: the scale of the sigmas of a pass. -/
def epfSigmaScale {α : Type} [Arith α] (step pass0 pass2 : α) (pass : Nat) : α := if pass = 0 then step * pass0 else if pass = 2 then step * pass2 else step

/-- frame/Frame.go:384-387, 786-796, 1391-1395: new samples for the first planes, which are floats. -/
def putFloats : List (List (List F32)) → List ImageBuffer → List ImageBuffer
  | m :: ms, b :: bs => { b with floats := m } :: putFloats ms bs
  | _, bs => bs

/-- frame/Frame.go:1077-1398 `performEdgePreservingFilter`. `sigma` is the table of inverse sigmas, or why there is none. -/
def performEPF (A : Arith F32) (Q : FilterParts F32) (h : ImageHeader) (f : FrameHeader) (sigma : Res (List (List F32))) (bufs : List ImageBuffer) : Res (List ImageBuffer) := do
  let padded ← paddedFrameSize f
  let s ← sigma
  let n := frameColourCount h f.encoding
  let bufs ← forFrom (fun c bufs => onBuffer (fun b => castToFloatIfMax b (mask32 h.bitDepth.bits)) c bufs) n 0 bufs
  let out ← newImageBuffer 1 (i32 padded.height) (i32 padded.width)
  let p : EPF F32 := ⟨i32 padded.height, i32 padded.width, f.restoration.channelScale.map A.lit, A.lit f.restoration.borderSad, s⟩
  let planes ← epfLoop p (epfSigmaScale Q.stepMultiplier (A.lit f.restoration.pass0) (A.lit f.restoration.pass2)) n Q.goroutines (Q.epfOrder f) (epfPasses f.restoration.iterations)
    ((bufs.take n).map ImageBuffer.floats) (List.replicate n out.floats)
  .ok (putFloats planes bufs)

/-- frame/Frame.go:466-476: Gaborish, then the edge-preserving filter. -/
def runFilters (A : Arith F32) (Q : FilterParts F32) (sigma : Res (List (List F32))) (h : ImageHeader) (f : FrameHeader) (bufs : List ImageBuffer) : Res (List ImageBuffer) := do
  let bufs ← (if f.restoration.gab then performGab A Q h f bufs else .ok bufs)
  if 0 < f.restoration.iterations then performEPF A Q h f sigma bufs else .ok bufs

end Jxl
