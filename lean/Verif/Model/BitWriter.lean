import Verif.Model.Go
/-!
# `testcommon/bitwriter.go`
-/
namespace Jxl

/-- testcommon/bitwriter.go:7-11. -/
structure BW where
  data : List UInt8
  curr : Nat
  bits : Nat
  deriving Repr, DecidableEq

/-- testcommon/bitwriter.go:14-16 `NewBitWriter`. -/
def BW.new : BW := ⟨[], 0, 0⟩

/-- testcommon/bitwriter.go:21-31 `WriteBit` (`curr` is a byte). -/
def BW.writeBit (w : BW) (bit : Nat) : BW :=
  let curr := if bit ≠ 0 then w.curr ||| u8 (1 <<< w.bits) else w.curr
  let bits := w.bits + 1
  if bits = 8 then ⟨w.data ++ [UInt8.ofNat curr], 0, 0⟩ else ⟨w.data, curr, bits⟩

/-- testcommon/bitwriter.go:36-40 `WriteBits`, loop body for `i .. i+k-1`; `val` is a `uint64`. -/
def BW.writeBitsLoop (w : BW) (val : Nat) (i : Nat) : Nat → BW
  | 0 => w
  | k + 1 => (w.writeBit ((val >>> i) &&& 1)).writeBitsLoop val (i + 1) k

/-- testcommon/bitwriter.go:36-40 `WriteBits`. -/
def BW.writeBits (w : BW) (val numBits : Nat) : BW := w.writeBitsLoop val 0 numBits

/-- testcommon/bitwriter.go:53-55, the loop computing `n`: smallest `n` (from `n` on) with `val < 2^(n+1)`. -/
def u8Exp (val n : Nat) : Nat :=
  if h : 1 <<< (n + 1) ≤ val then u8Exp val (n + 1) else n
termination_by val - n
decreasing_by
  rw [Nat.one_shiftLeft] at h
  have := Nat.lt_two_pow_self (n := n + 1)
  omega

/-- testcommon/bitwriter.go:46-58 `WriteU8` (for `val ≥ 0`). -/
def BW.writeU8 (w : BW) (val : Nat) : BW :=
  if val = 0 then w.writeBit 0
  else
    let w := w.writeBit 1
    let n := u8Exp val 0
    let w := w.writeBits n 3
    w.writeBits (val - 1 <<< n) n

/-- testcommon/bitwriter.go:63-68 `Bytes`. -/
def BW.bytes (w : BW) : List UInt8 :=
  if 0 < w.bits then w.data ++ [UInt8.ofNat w.curr] else w.data

end Jxl
