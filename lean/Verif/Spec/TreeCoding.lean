import Verif.Model.MATree
import Verif.Spec.Modular
import Verif.Spec.Stream
import Verif.Spec.CodeCoding

/-!
# Specification: how trees and coded numbers are written

Independent of the decoder but for the decoding tables of single codes.
-/
namespace Jxl
open Spec

/-- The nodes of the trees in a queue are written breadth first, as numbers with their contexts; the leaves are numbered in the order in which they are
written, from `c` on. An inner node is its property plus one and its value, and its children join the queue. A leaf is 0, its predictor, its offset and its
multiplier `(bits + 1) · 2^log`. (The decoder unpacks numbers below -2^30 wrongly.) -/
inductive Serial : List MATree → Nat → List (Int × Nat) → Prop
  | nil (c : Nat) : Serial [] c []
  | leaf {l : MALeaf} {q : List MATree} {c log bits : Nat} {out : List (Int × Nat)} (hc : l.context = c) (hp : 0 ≤ l.predictor ∧ l.predictor ≤ 13)
      (ho : -2 ^ 30 ≤ l.offset ∧ l.offset < 2 ^ 31) (hl : log ≤ 30) (hb : bits + 2 ≤ 2 ^ (31 - log)) (hm : l.multiplier = (bits + 1) * 2 ^ log) (h : Serial q (c + 1) out) :
      Serial (.leaf l :: q) c ((1, 0) :: (2, l.predictor.toNat) :: (3, packSigned l.offset) :: (4, log) :: (5, bits) :: out)
  | node {p v : Int} {a b : MATree} {q : List MATree} {c : Nat} {out : List (Int × Nat)} (hp : 0 ≤ p ∧ p + 1 < 2 ^ 31) (hv : -2 ^ 30 ≤ v ∧ v < 2 ^ 31)
      (h : Serial (q ++ [a, b]) c out) : Serial (.node p v a b :: q) c ((1, (p + 1).toNat) :: (0, packSigned v) :: out)

/-- The numbers, with their contexts, are written from bit `p` to bit `q` by an entropy encoder with the codes of `es`: ANS or prefix codes, with or without
LZ77. Prefix codes may be followed by `pad` more bits. -/
def NumbersAt (data : List UInt8) (p q : Nat) (es : ES) (mult : Int) (out : List (Int × Nat)) : Prop :=
  ∃ (co : Coder) (cd : Codes) (cmds : List LZCmd), (∀ o ∈ out, o.2 < 2 ^ 32) ∧ out.length < 2 ^ 31 ∧ expandLZ cmds [] = out.map (fun o => i32 o.2) ∧
    es.Uses cd (out.map Prod.fst) ∧ LZValid cd mult cmds (out.map Prod.fst) 0 ∧ (∀ i ∈ lzItems cd cmds (out.map Prod.fst), i.OK co) ∧
    streamBitsOf co (lzItems cd cmds (out.map Prod.fst)) <+: bitsFrom data p ∧ q = p + (streamBitsOf co (lzItems cd cmds (out.map Prod.fst))).length ∧
    q + co.pad ≤ 8 * data.length

/-- The entries of a map after moving to the front. -/
def movedToFront (map : List Nat) : List Nat := (mtfEncode ((List.range 256).map Int.ofNat) (map.map Int.ofNat)).map Int.toNat

/-- The bits from `p` to `q` are a map from contexts to codes. It is not written for one context. Otherwise it is either written with a fixed number of bits for each entry, or it is coded itself (with LZ77
only if there are more than two contexts), after moving to the front or not. `codes lz p q es`: the bits from `p` to `q` describe a code `es` for one context, with LZ77 only if `lz`. -/
def MapAt (data : List UInt8) (codes : Bool → Nat → Nat → ES → Prop) (p q : Nat) (map : List Nat) : Prop :=
  if map.length = 1 then map = [0] ∧ q = p
  else
    (∃ width, width < 4 ∧ (∀ c ∈ map, c < 2 ^ width) ∧ true :: (bitsOf 2 width ++ map.flatMap (bitsOf width)) <+: bitsFrom data p ∧ q = p + (3 + (map.flatMap (bitsOf width)).length)) ∨
    (∃ mtf es p1, (∀ c ∈ map, c < 256) ∧ [false, mtf] <+: bitsFrom data p ∧ codes (decide (2 < map.length)) (p + 2) p1 es ∧
      NumbersAt data p1 q es 0 ((if mtf then movedToFront map else map).map fun v => (0, v)))

/-- The bits from `p` to `q` describe the codes `es` for `n` contexts: whether and how LZ77 is used (if it may be, by `allowed`), the map from contexts to codes (with LZ77 there is one more context, for
distances), and the codes. 15 more bits must follow (C11). -/
def CodesIn (data : List UInt8) (mapAt : Nat → Nat → List Nat → Prop) (allowed : Bool) (n p q : Nat) (es : ES) : Prop :=
  1 ≤ n ∧ ∃ (lz : Option (LZParams × List Bool × List Bool)) (map : List Nat) (codes : CodeList) (ds : List Dist) (p1 : Nat),
    LZWritten lz ∧ (lz.isSome → allowed = true) ∧ lzBits lz <+: bitsFrom data p ∧ map.length = (if lz.isSome then n + 1 else n) ∧ mapAt (p + (lzBits lz).length) p1 map ∧
    codes.Valid ∧ codes.length = map.foldl max 0 + 1 ∧ codes.length ≤ map.length ∧ codes.bits <+: bitsFrom data p1 ∧ q = p1 + codes.bits.length ∧ q + 15 ≤ 8 * data.length ∧
    codes.Made ds ∧ es = ES.mk' (map.map Int.ofNat) ds (lz.map Prod.fst)

/-- Codes whose map is coded with a code whose map may be coded, and so on, up to a depth. -/
def CodesDeep (data : List UInt8) : Nat → Bool → Nat → Nat → Nat → ES → Prop
  | 0 => CodesIn data (MapAt data fun _ _ _ _ => False)
  | depth + 1 => CodesIn data (MapAt data fun lz p q es => CodesDeep data depth lz 1 p q es)

/-- The bits from `p` to `q` describe the codes `es` for `n` contexts. Depth 2 is enough: a coded map has a code for one context; with LZ77 that code has a map of two entries, and if this is coded again then
without LZ77, with a code that has no map. -/
def CodesAt (data : List UInt8) (p q n : Nat) (es : ES) : Prop := CodesDeep data 2 true n p q es

/-- The bits from `p` to `q` are a tree with the codes for its leaves: codes for six contexts, the nodes, codes for as many contexts as there are leaves. -/
def TreeAt (data : List UInt8) (p q : Nat) (t : MATree) (es : ES) : Prop :=
  ∃ (es0 : ES) (p1 p2 : Nat) (out : List (Int × Nat)), CodesAt data p p1 6 es0 ∧ Serial [t] 0 out ∧ NumbersAt data p1 p2 es0 0 out ∧
    CodesAt data p2 q t.leaves.length es

end Jxl
