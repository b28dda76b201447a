import Verif.Model.Noise
import Verif.Spec.Image

/-!
# C100: specification of noise

The generator of the format: eight generators xorshift128+ side by side, whose states are filled from two seeds by the mixing function of SplitMix64.
-/
namespace Jxl
namespace Spec

/-- One step of xorshift128+ (Vigna, with the shifts 23, 18 and 5). -/
def xorshift (s : UInt64 × UInt64) : UInt64 × UInt64 :=
  let t := s.1 ^^^ (s.1 <<< 23)
  (s.2, t ^^^ s.2 ^^^ (t >>> 18) ^^^ (s.2 >>> 5))

/-- The mixing function of SplitMix64 (Stafford's variant 13). -/
def splitMix (z : UInt64) : UInt64 :=
  let a := (z ^^^ (z >>> 30)) * 0xBF58476D1CE4E5B9
  let b := (a ^^^ (a >>> 27)) * 0x94D049BB133111EB
  b ^^^ (b >>> 31)

/-- The state number `i` that a seed is mixed to. -/
def mixed64 (seed : UInt64) : Nat → UInt64
  | 0 => splitMix (seed + 0x9e3779b97f4a7c15)
  | i + 1 => splitMix (mixed64 seed i)

/-- The state of generator `i` after `k` steps. -/
def laneState (seed0 seed1 : UInt64) (i : Nat) : Nat → UInt64 × UInt64
  | 0 => (mixed64 seed0 i, mixed64 seed1 i)
  | k + 1 => xorshift (laneState seed0 seed1 i k)

/-- The random number `j`: generator `j % 8` gives the sum of its state before step `j / 8`. -/
def random (seed0 seed1 : UInt64) (j : Nat) : UInt64 :=
  let s := laneState seed0 seed1 (j % 8) (j / 8)
  s.1 + s.2

/-- The 32-bit word `n`: the random numbers are cut into halves, the lower first. -/
def randomWord (seed0 seed1 : UInt64) (n : Nat) : Nat := (random seed0 seed1 (n / 2)).toNat / 2 ^ (32 * (n % 2)) % 2 ^ 32

/-- The number from 1 to 2 that has the upper 23 bits of a word as its fraction. -/
def noiseNumber (word : Nat) : ℚ := 1 + ((word / 2 ^ 9 : Nat) : ℚ) / 2 ^ 23

/-- The noise of the format, in a group of `w` columns and `h` rows: channel after channel, row after row, sixteen words at a time. -/
def formatNoise (seed0 seed1 : UInt64) (w h c y x : Nat) : ℚ :=
  noiseNumber (randomWord seed0 seed1 (16 * ((c * h + y) * ((w + 15) / 16) + x / 16) + x % 16))

end Spec
end Jxl
