/-!
# What a Lehmer code denotes

Independent of the decoder: the textbook reading of a Lehmer code. Entry `k` says "take the `k`-th
(from zero) of the elements that have not been taken yet".
-/
namespace Jxl

/-- The sequence denoted by a Lehmer code over the list of still available elements; `none` when an
entry points past the end of the available elements. -/
def lehmerDecode : List Nat → List Nat → Option (List Nat)
  | _, [] => some []
  | avail, k :: ks =>
    match avail[k]? with
    | none => none
    | some v => (lehmerDecode (avail.eraseIdx k) ks).map (v :: ·)

/-- The Lehmer code of a sequence of distinct elements of `avail`. -/
def lehmerEncode : List Nat → List Nat → List Nat
  | _, [] => []
  | avail, v :: vs => avail.idxOf v :: lehmerEncode (avail.eraseIdx (avail.idxOf v)) vs

/-- A code of a permutation of `n` things: `n` entries, entry `i` less than `n - i`. -/
def LehmerValid (n : Nat) (code : List Nat) : Prop :=
  code.length = n ∧ ∀ (i : Nat) (k : Nat), code[i]? = some k → k < n - i

end Jxl
