/-!
# Specification: a byte string as a string of bits

JPEG XL reads bits of each byte from least significant to most significant.
-/
namespace Jxl.Spec

/-- The low `n` bits of `x`, least significant first. -/
def bitsOf : Nat → Nat → List Bool
  | 0, _ => []
  | n + 1, x => (x % 2 == 1) :: bitsOf n (x / 2)

/-- The number whose binary digits, least significant first, are the given bits. -/
def leVal : List Bool → Nat
  | [] => 0
  | b :: bs => b.toNat + 2 * leVal bs

/-- All bits of a byte string in reading order. -/
def streamBits (data : List UInt8) : List Bool := data.flatMap (fun b => bitsOf 8 b.toNat)

end Jxl.Spec
