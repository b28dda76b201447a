import Verif.Model.Transforms
import Verif.Model.F16
import Verif.Model.F32

/-!
# The noise of a group (frame/XorShiro.go, frame/NoiseGroup.go)

The decoder itself does not draw noise (frames that ask for it are an error, C95); this is the generator that the package `frame` exports.
-/
namespace Jxl

/-- frame/XorShiro.go:3-8 -/
structure XorShiro where
  state0 : List UInt64
  state1 : List UInt64
  batch : List UInt64
  pos : Nat

/-- frame/XorShiro.go:63-67 -/
def splitMix64 (z : UInt64) : UInt64 :=
  let z := (z ^^^ (z >>> 30)) * 0xbf58476d1ce4e5b9
  let z := (z ^^^ (z >>> 27)) * 0x94d049bb133111eb
  z ^^^ (z >>> 31)

/-- frame/XorShiro.go:49-50 and 54-59: one of the two states, from its seed. -/
def seedState (seed : UInt64) : Res (List UInt64) := do
  let s ← setAt (List.replicate 8 0) 0 (splitMix64 (seed + 0x9e3779b97f4a7c15))
  forFrom (fun i s => do
    let p ← idx s ((i : Int) - 1)
    setAt s i (splitMix64 p)) 7 1 s

/-- frame/XorShiro.go:47-61 `NewXorShiroWith2Seeds`. -/
def newXorShiro (seed0 seed1 : UInt64) : Res XorShiro := do
  let s0 ← seedState seed0
  let s1 ← seedState seed1
  .ok ⟨s0, s1, List.replicate 8 0, 8⟩

/-- frame/XorShiro.go:40-45 `NewXorShiroWith4Seeds`: the seeds are `int32`. -/
def newXorShiro4 (seed0 seed1 seed2 seed3 : Int) : Res XorShiro :=
  newXorShiro (UInt64.ofInt seed0 <<< 32 ||| UInt64.ofInt seed1 &&& 0xFFFFFFFF) (UInt64.ofInt seed2 <<< 32 ||| UInt64.ofInt seed3 &&& 0xFFFFFFFF)

/-- frame/XorShiro.go:29-36: the body of the loop. -/
def XorShiro.lane (i : Nat) (s : XorShiro) : Res XorShiro := do
  let a ← idx s.state1 i
  let b ← idx s.state0 i
  let batch ← setAt s.batch i (a + b)
  let s0 ← setAt s.state0 i a
  let b := b ^^^ (b <<< 23)
  let s1 ← setAt s.state1 i (b ^^^ a ^^^ (b >>> 18) ^^^ (a >>> 5))
  .ok { s with state0 := s0, state1 := s1, batch := batch }

/-- frame/XorShiro.go:25-38 -/
def XorShiro.fillBatch (s : XorShiro) : Res XorShiro :=
  if s.pos < s.batch.length then .ok s
  else do
    let s ← forFrom XorShiro.lane s.batch.length 0 s
    .ok { s with pos := 0 }

/-- frame/XorShiro.go:18-23 -/
def XorShiro.nextLong (s : XorShiro) : Res (UInt64 × XorShiro) := do
  let s ← s.fillBatch
  let b ← idx s.batch s.pos
  .ok (b, { s with pos := s.pos + 1 })

/-- frame/XorShiro.go:10-16; the words are `int64` in the code, from 0 to 2^32-1. -/
def XorShiro.fill (s : XorShiro) (bits : List Nat) : Res (XorShiro × List Nat) :=
  forFrom (fun k p => do
    let l ← p.1.nextLong
    let b ← setAt p.2 ((2 * k : Nat) : Int) (l.1 &&& 0xFFFFFFFF).toNat
    let b ← setAt b ((2 * k + 1 : Nat) : Int) ((l.1 >>> 32) &&& 0xFFFFFFFF).toNat
    .ok (l.2, b)) ((bits.length + 1) / 2) 0 (s, bits)

/-- The assignment `b[c][y][x] = v`. -/
def setCell3 {α : Type} (b : List (List (List α))) (c y x : Int) (v : α) : Res (List (List (List α))) := do
  let m ← idx b c
  let m ← set2 m y x v
  setAt b c m

/-- frame/NoiseGroup.go:26-27: the float of a word. -/
def noiseFloat (word : Nat) : F32 := .fin (f32Value ((u32 word >>> 9) ||| 0x3f800000))

/-- frame/NoiseGroup.go:25-28: a word of the sixteen. -/
def noiseWord (c y x : Nat) (x0 y0 : Int) (bits : List Nat) (i : Nat) (b : List (List (List F32))) : Res (List (List (List F32))) := do
  let w ← idx bits i
  setCell3 b c (i32 (y0 + i32 y)) (i32 (i32 (x0 + i32 x) + i32 i)) (noiseFloat w)

/-- The generator, the words and the buffer. -/
structure NoiseState where
  rng : XorShiro
  bits : List Nat
  buffer : List (List (List F32))

/-- frame/NoiseGroup.go:24-28: one step along a row. -/
def noiseStep (xSize : Nat) (x0 y0 : Int) (c y x : Nat) (s : NoiseState) : Res NoiseState := do
  let r ← s.rng.fill s.bits
  let b ← forFrom (noiseWord c y x x0 y0 r.2) (min 16 (xSize - x)) 0 s.buffer
  .ok ⟨r.1, r.2, b⟩

/-- frame/NoiseGroup.go:16-17: the size of the group along one side. -/
def noiseSize (groupDim side : Nat) (start : Int) : Nat := min groupDim (u32 (side + 4294967296 - toU32 start))

/-- frame/NoiseGroup.go:13-33 `NewNoiseGroupWithHeader`: the new contents of the buffer. The header is given by its three fields that are used. -/
def noiseGroup (groupDim width height : Nat) (seed0 : Int) (buffer : List (List (List F32))) (x0 y0 : Int) : Res (List (List (List F32))) := do
  let rng ← newXorShiro (UInt64.ofInt seed0) (UInt64.ofInt x0 <<< 32 ||| UInt64.ofInt y0)
  let s ← forFrom (fun c s => forFrom (fun y s => forFrom (fun x s => noiseStep (noiseSize groupDim width x0) x0 y0 c y x s) (noiseSize groupDim width x0) 0 s)
    (noiseSize groupDim height y0) 0 s) 3 0 ⟨rng, List.replicate 16 0, buffer⟩
  .ok s.buffer

end Jxl
