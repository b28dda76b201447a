import Verif.Props.VLC
import Verif.Props.Entropy
import Mathlib.Data.List.Forall2

/-!
# Specification: how the codes of an entropy-coded stream are written

Prefix codes (RFC 7932), ANS distributions, the map from contexts to codes and the LZ77 parameters, as an encoder writes them. The spec is independent of
the decoder.
-/
namespace Jxl
open Spec

/-! ## Prefix codes -/

/-- A prefix code as it is described: of an alphabet of one symbol, of one symbol, of two to four symbols, or by the lengths of its words. -/
inductive PreCode where
  | only
  | one (alphabet sym : Nat)
  | simple (alphabet : Nat) (syms : List Nat) (tree : Bool)
  | full (d : PrefixDesc) (word : Nat → List Bool) (lengths : List Nat)

/-- The size of the alphabet. -/
def PreCode.alphabet : PreCode → Nat
  | .only => 1
  | .one a _ => a
  | .simple a _ _ => a
  | .full _ _ l => l.length

/-- The description of the code. -/
def PreCode.bits : PreCode → List Bool
  | .only => []
  | .one a s => bitsOf 2 1 ++ bitsOf 2 0 ++ bitsOf (ceilLog1p (a - 1)) s
  | .simple a syms tree => bitsOf 2 1 ++ bitsOf 2 (syms.length - 1) ++ syms.flatMap (bitsOf (ceilLog1p (a - 1))) ++ (if syms.length = 4 then [tree] else [])
  | .full d word _ => bitsOf 2 d.hskip ++ d.bits word

/-- A valid description; alphabets have at most 2^16 symbols. -/
def PreCode.Valid : PreCode → Prop
  | .only => True
  | .one a s => 2 ≤ a ∧ a ≤ 2 ^ 16 ∧ s < a
  | .simple a syms tree => 2 ≤ a ∧ a ≤ 2 ^ 16 ∧ 2 ≤ syms.length ∧ syms.length ≤ 4 ∧ (tree = true → syms.length = 4) ∧ ∀ x ∈ syms, x < a
  | .full d word l => 2 ≤ l.length ∧ l.length ≤ 2 ^ 16 ∧ d.Valid word l

/-- The words of the code. -/
def PreCode.Word : PreCode → Nat → List Bool → Prop
  | .only, s, w => s = 0 ∧ w = []
  | .one _ t, s, w => s = t ∧ w = []
  | .simple _ syms tree, s, w => SimpleWord syms tree s w
  | .full _ _ l, s, w => IsCodeWord 16 l s w

/-- The size of an alphabet: one bit for 1; otherwise the size less 1 as a power of two and the rest. -/
def alphabetBits (a : Nat) : List Bool :=
  if a = 1 then [false] else true :: (bitsOf 4 (Nat.log2 (a - 1)) ++ bitsOf (Nat.log2 (a - 1)) (a - 1 - 2 ^ Nat.log2 (a - 1)))

/-! ## Distributions -/

/-- The code words of log counts 0 to 12; 13 announces a run. -/
def logCountWord : Nat → List Bool
  | 0 => [true, false, false, false, true]
  | 1 => [true, true, false, true]
  | 2 => [true, true, true, true]
  | 3 => [true, true, false, false]
  | 4 => [true, false, false, true]
  | 5 => [true, true, true, false]
  | 6 => [false, false, true]
  | 7 => [false, true, false]
  | 8 => [true, false, true]
  | 9 => [false, true, true]
  | 10 => [false, false, false]
  | 11 => [true, false, false, false, false, true]
  | 12 => [true, false, false, false, false, false, false]
  | _ => [true, false, false, false, false, false, true]

/-- A frequency by its log count and further bits, or a run of `n + 4` copies of the frequency before. -/
inductive HistItem where
  | count (log extra : Nat)
  | run (n : Nat)
  deriving DecidableEq

/-- How many bits follow the leading bit of a frequency. -/
def precision (shift log : Nat) : Nat := min (log - 1) (shift - (13 - log) / 2)

/-- The frequency that a log count and further bits stand for. -/
def countValue (shift log extra : Nat) : Nat :=
  if log = 0 then 0 else if log = 1 then 1 else 2 ^ (log - 1) + extra * 2 ^ (log - 1 - precision shift log)

/-- The frequencies that items stand for, after the frequency `prev`. -/
def histValues (shift : Nat) : List HistItem → Nat → List Nat
  | [], _ => []
  | .count log extra :: l, _ => countValue shift log extra :: histValues shift l (countValue shift log extra)
  | .run n :: l, prev => List.replicate (n + 4) prev ++ histValues shift l prev

/-- A distribution as it is described: one symbol, two symbols, `n` equal frequencies, or items around the first frequency with the largest log count,
which is what the others leave of 4096. -/
inductive Hist where
  | one (x : Nat)
  | two (v1 v2 f : Nat)
  | flat (n : Nat)
  | counts (shift : Nat) (before : List HistItem) (log : Nat) (after : List HistItem)

/-- What the frequencies before and after the omitted one add up to. -/
def othersSum (shift : Nat) (before after : List HistItem) : Nat := (histValues shift before 0).sum + (histValues shift after 0).sum

/-- The frequencies of a distribution. -/
def Hist.freqs : Hist → List Nat
  | .one x => (List.replicate (1 + x) 0).set x 4096
  | .two v1 v2 f => ((List.replicate (1 + max v1 v2) 0).set v1 f).set v2 (4096 - f)
  | .flat n => (List.range n).map fun i => 4096 / n + if i < 4096 % n then 1 else 0
  | .counts shift before _ after => histValues shift before 0 ++ (4096 - othersSum shift before after) :: histValues shift after 0

/-- A valid item, with a log count below a bound. -/
def HistItem.Valid (shift : Nat) (bound : Nat) : HistItem → Prop
  | .count log extra => log < bound ∧ extra < 2 ^ precision shift log
  | .run n => n < 256

/-- A valid description for alphabets of 2^L symbols. -/
def Hist.Valid (L : Nat) : Hist → Prop
  | .one x => x < 256
  | .two v1 v2 f => v1 < 256 ∧ v2 < 256 ∧ v1 ≠ v2 ∧ max v1 v2 < 2 ^ L ∧ f < 4096
  | .flat n => 1 ≤ n ∧ n ≤ 256 ∧ n ≤ 2 ^ L
  | .counts shift before log after => shift ≤ 13 ∧ log ≤ 12 ∧ (∀ i ∈ before, i.Valid shift log) ∧ (∀ i ∈ after, i.Valid shift (log + 1)) ∧
      (∀ n l, after ≠ .run n :: l) ∧ othersSum shift before after ≤ 4096 ∧ 3 ≤ (histValues shift before 0).length + 1 + (histValues shift after 0).length ∧
      (histValues shift before 0).length + 1 + (histValues shift after 0).length ≤ min 258 (2 ^ L)

/-- The code of an item. -/
def HistItem.word : HistItem → List Bool
  | .count log _ => logCountWord log
  | .run n => logCountWord 13 ++ encU8 n

/-- The further bits of an item. -/
def HistItem.extra (shift : Nat) : HistItem → List Bool
  | .count log extra => if 2 ≤ log then bitsOf (precision shift log) extra else []
  | .run _ => []

/-- The shift: the length of the number after its leading bit, in unary up to 3, and its bits. -/
def shiftBits (shift : Nat) : List Bool :=
  List.replicate (Nat.log2 (shift + 1)) true ++ (if Nat.log2 (shift + 1) < 3 then [false] else []) ++ bitsOf (Nat.log2 (shift + 1)) (shift + 1 - 2 ^ Nat.log2 (shift + 1))

/-- The description of a distribution. -/
def Hist.bits : Hist → List Bool
  | .one x => true :: false :: encU8 x
  | .two v1 v2 f => true :: true :: (encU8 v1 ++ encU8 v2 ++ bitsOf 12 f)
  | .flat n => false :: true :: encU8 (n - 1)
  | .counts shift before log after => false :: false :: (shiftBits shift ++ encU8 ((histValues shift before 0).length + 1 + (histValues shift after 0).length - 3) ++
      before.flatMap HistItem.word ++ logCountWord log ++ after.flatMap HistItem.word ++ before.flatMap (HistItem.extra shift) ++ after.flatMap (HistItem.extra shift))

/-! ## All codes of a stream -/

/-- The codes of a stream: prefix codes or distributions for alphabets of 2^(5+l) symbols, each with its integer configuration. -/
inductive CodeList where
  | pre (l : List (PreCode × HybridConfig))
  | ans (log : Nat) (l : List (Hist × HybridConfig))

/-- The number of codes. -/
def CodeList.length : CodeList → Nat
  | .pre l => l.length
  | .ans _ l => l.length

/-- A valid configuration for alphabets of 2^L symbols. -/
def HybridConfig.Fits (L : Nat) (c : HybridConfig) : Prop :=
  c.splitExponent ≤ L ∧ c.msbInToken + c.lsbInToken ≤ c.splitExponent ∧ (c.splitExponent = L → c.msbInToken = 0 ∧ c.lsbInToken = 0)

/-- Valid codes. -/
def CodeList.Valid : CodeList → Prop
  | .pre l => ∀ c ∈ l, c.1.Valid ∧ c.2.Fits 15
  | .ans log l => log < 4 ∧ ∀ c ∈ l, c.1.Valid (5 + log) ∧ c.2.Fits (5 + log)

/-- The description of the codes: what they are, the configurations, the sizes of the alphabets, the codes. -/
def CodeList.bits : CodeList → List Bool
  | .pre l => true :: (l.flatMap (fun c => configBits 15 c.2) ++ l.flatMap (fun c => alphabetBits c.1.alphabet) ++ l.flatMap (fun c => c.1.bits))
  | .ans log l => false :: (bitsOf 2 log ++ l.flatMap (fun c => configBits (5 + log) c.2) ++ l.flatMap (fun c => c.1.bits))

/-- The codes of a stream with the map from contexts to codes (of entries of `width` bits; not written for one context) and LZ77 parameters (the numbers
may be written in several ways). -/
structure CodeDesc where
  lz : Option (LZParams × List Bool × List Bool)
  width : Nat
  map : List Nat
  codes : CodeList

/-- The numbers of LZ77 are written as the format has it. -/
def LZWritten (lz : Option (LZParams × List Bool × List Bool)) : Prop :=
  ∀ z ∈ lz, (∀ r, decU32 (fun k : Fin 4 => match k with | 0 => (224, 0) | 1 => (512, 0) | 2 => (4096, 0) | 3 => (8, 15)) (z.2.1 ++ r) = some (z.1.minSymbol, r)) ∧
    (∀ r, decU32 (fun k : Fin 4 => match k with | 0 => (3, 0) | 1 => (4, 0) | 2 => (5, 2) | 3 => (9, 8)) (z.2.2 ++ r) = some (z.1.minLength, r)) ∧ z.1.lengthConfig.Fits 8

/-- The LZ77 parameters. -/
def lzBits : Option (LZParams × List Bool × List Bool) → List Bool
  | none => [false]
  | some z => true :: (z.2.1 ++ z.2.2 ++ configBits 8 z.1.lengthConfig)

/-- The description of everything. -/
def CodeDesc.bits (d : CodeDesc) : List Bool :=
  lzBits d.lz ++ (if d.map.length = 1 then [] else true :: (bitsOf 2 d.width ++ d.map.flatMap (bitsOf d.width))) ++ d.codes.bits

/-- Valid codes for `n` contexts; with LZ77 there is one more, for distances. -/
structure CodeDesc.Valid (d : CodeDesc) (n : Nat) : Prop where
  pos : 1 ≤ n
  contexts : d.map.length = if d.lz.isSome then n + 1 else n
  width : d.width < 4
  entries : ∀ c ∈ d.map, c < 2 ^ d.width ∧ c < d.codes.length
  one : d.map.length = 1 → d.map = [0]
  all : d.codes.length = d.map.foldl max 0 + 1
  count : d.codes.length ≤ d.map.length
  codes : d.codes.Valid
  lz : LZWritten d.lz

/-- The distributions in the decoder are the codes: the decoder of a prefix code reads its words, the table of an ANS code has its frequencies (so that C13
applies). The words of prefix codes must be followed by 15 more bits (C11). -/
def CodeList.Decoded : CodeList → List Dist → Prop
  | .pre l, ds => List.Forall₂ (fun c d => ∃ p, d = Dist.pre p c.2 ∧ ∀ (s : Nat) (w : List Bool), c.1.Word s w → ReadsPad 15 p.readSymbol w (s : Int)) l ds
  | .ans _ l, ds => List.Forall₂ (fun c d => ∃ a, d = Dist.ans a c.2 ∧ a.Proper c.1.freqs) l ds

/-- The distributions in the decoder are what the descriptions of the codes are read as. `C82_prefix` and `C82_histogram` say what that is (`CodeList.Decoded`). -/
def CodeList.Made : CodeList → List Dist → Prop
  | .pre l, ds => List.Forall₂ (fun c d => ∃ x, d = Dist.pre x c.2 ∧ ReadsPad 15 (newPrefixDist c.1.alphabet) c.1.bits x) l ds
  | .ans log l, ds => List.Forall₂ (fun c d => ∃ a, d = Dist.ans a c.2 ∧ ReadsPad 15 (newANSDist (5 + log)) c.1.bits a) l ds

end Jxl
