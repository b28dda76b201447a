import Verif.Spec.Bits
/-!
# Specification: canonical prefix codes (RFC 1951 section 3.2.2, RFC 7932)

The entries are listed by increasing length. The first code word is all zeros; each next one is the previous one plus
one, extended with zeros to its length. A code word is written most significant bit first.
-/
namespace Jxl.Spec

/-- The `n`-bit number `c`, most significant bit first. -/
def codeWord (n c : Nat) : List Bool := (bitsOf n c).reverse

/-- The code numbers of a list of lengths: `prev` is the length of the previous entry and `next` the previous code
number plus one, at that length. -/
def canonicalFrom : Nat → Nat → List Nat → List Nat
  | _, _, [] => []
  | prev, next, l :: ls => next * 2 ^ (l - prev) :: canonicalFrom l (next * 2 ^ (l - prev) + 1) ls

/-- The canonical code words of a non-decreasing list of positive lengths. -/
def canonicalWords (lens : List Nat) : List (List Bool) :=
  List.zipWith codeWord lens (canonicalFrom 0 0 lens)

/-- The lengths fill the code space exactly (Kraft sum one), for lengths up to `b`. -/
def KraftFull (b : Nat) (lens : List Nat) : Prop := (lens.map fun l => 2 ^ (b - l)).sum = 2 ^ b

/-- The symbols `0, 1, ...` with lengths `L` (all below `m`), in order of length and then of symbol. -/
def byLength (m : Nat) (L : List Nat) : List Nat :=
  (List.range m).flatMap fun l => (List.range L.length).filter fun j => L[j]? = some l

/-- The used symbols (length not zero) in order of length and then of symbol. -/
def usedByLength (m : Nat) (L : List Nat) : List Nat := (byLength m L).filter fun j => L[j]? ≠ some 0

/-- `w` is the canonical code word of symbol `j` in the code with lengths `L` (all below `m`). -/
def IsCodeWord (m : Nat) (L : List Nat) (j : Nat) (w : List Bool) : Prop :=
  ∃ k : Nat, (usedByLength m L)[k]? = some j ∧
    (canonicalWords ((usedByLength m L).map fun j => L[j]?.getD 0))[k]? = some w

end Jxl.Spec
