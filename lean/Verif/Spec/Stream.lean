import Verif.Model.Entropy
import Verif.Spec.Reader
/-!
# Specification: entropy-coded streams

An encoder, written from the format: rANS with a 12-bit table and 16-bit renormalisation, prefix codes, hybrid
integers, LZ77. Nothing here depends on how the decoder works; the model is only mentioned to say what a
distribution's table means.
-/
namespace Jxl
open Spec

/-- The symbol table of a distribution is an exact partition of the 4096 slots: every slot belongs to one
(symbol, offset) with the offset below the symbol's frequency, and every such pair has exactly one slot. -/
structure Partitions (d : ANSDist) (freq : Nat → Nat) : Prop where
  slot : ∀ i, i < 4096 → ∃ s k : Nat, k < freq s ∧ aliasLookup d i = .ok ((s : Int), (k : Int))
  surj : ∀ s k : Nat, k < freq s → ∃ i, i < 4096 ∧ aliasLookup d i = .ok ((s : Int), (k : Int))
  inj : ∀ i j, i < 4096 → j < 4096 → aliasLookup d i = aliasLookup d j → i = j

/-- A distribution with the frequencies `freq`. -/
structure ANSDist.Proper (d : ANSDist) (freq : List Nat) : Prop where
  freqs : d.freqs = freq.map Int.ofNat
  sum : freq.sum = 4096
  part : Partitions d (fun s => freq.getD s 0)

/-- The frequency of a symbol. -/
def ANSDist.freq (d : ANSDist) (s : Nat) : Nat := (d.freqs.getD s 0).toNat

/-- What a stream is made of, in reading order: coded symbols and uncoded bits. -/
inductive Item where
  | sym (d : Dist) (s : Nat)
  | raw (bits : List Bool)

/-- What an encoder knows: the words of its prefix codes, and the slots of its ANS tables. -/
structure Coder where
  word : PrefixDist → Nat → List Bool
  slot : ANSDist → Nat → Nat → Nat
  /-- bits that follow the stream -/
  pad : Nat

/-- One rANS encoding step: the state before the symbol and the bits to emit in front. -/
def ansPush (f : Nat) (slot : Nat → Nat) (x : Nat) : Nat × List Bool :=
  if f * 2 ^ 20 ≤ x then ((x / 65536) / f * 4096 + slot ((x / 65536) % f), bitsOf 16 (x % 65536))
  else (x / f * 4096 + slot (x % f), [])

/-- The rANS state that the decoder must have before the items, and the bits that follow (encoded from the last item to
the first, starting from the final state 0x130000). Prefix-coded symbols and raw bits do not touch the state. -/
def encodeItems (co : Coder) : List Item → Nat × List Bool
  | [] => (0x130000, [])
  | .raw b :: is => ((encodeItems co is).1, b ++ (encodeItems co is).2)
  | .sym (.pre p _) s :: is => ((encodeItems co is).1, co.word p s ++ (encodeItems co is).2)
  | .sym (.ans a _) s :: is =>
    ((ansPush (a.freq s) (co.slot a s) (encodeItems co is).1).1,
      (ansPush (a.freq s) (co.slot a s) (encodeItems co is).1).2 ++ (encodeItems co is).2)

/-- The bits of a whole stream: the initial rANS state is written, in 32 bits, in front of the first ANS symbol. -/
def streamBitsOf (co : Coder) : List Item → List Bool
  | [] => []
  | .raw b :: is => b ++ streamBitsOf co is
  | .sym (.pre p _) s :: is => co.word p s ++ streamBitsOf co is
  | .sym (.ans a c) s :: is => bitsOf 32 (encodeItems co (.sym (.ans a c) s :: is)).1 ++ (encodeItems co (.sym (.ans a c) s :: is)).2

/-- An item that can be encoded: the symbol has a word that decodes to it, or a non-zero frequency in a proper
distribution whose slots the encoder knows. -/
def Item.OK (co : Coder) : Item → Prop
  | .raw _ => True
  | .sym (.pre p _) s => ReadsPad co.pad p.readSymbol (co.word p s) (s : Int)
  | .sym (.ans a _) s => (∃ freq, a.Proper freq) ∧ 0 < a.freq s ∧
      ∀ k, k < a.freq s → co.slot a s k < 4096 ∧ aliasLookup a (co.slot a s k) = .ok ((s : Int), (k : Int))

/-- The bits from which the items are read when the decoder's state object holds `st` (`none`: nothing read yet). -/
def itemBits (co : Coder) (st : Option Nat) (items : List Item) : List Bool :=
  match st with
  | none => streamBitsOf co items
  | some _ => (encodeItems co items).2

/-- The reader `s`, with the ANS state `st`, stands in front of the encoded `items`, which end at bit position `e`. -/
def Carries (co : Coder) (st : Option Nat) (s : BR) (items : List Item) (e : Nat) : Prop :=
  ∃ p, AtBit s p ∧ itemBits co st items <+: bitsFrom s.data p ∧ p + (itemBits co st items).length = e ∧
    e + co.pad ≤ 8 * s.data.length ∧ (∀ x, st = some x → x = (encodeItems co items).1)

/-- Splitting a value into token, number of extra bits and extra bits. -/
structure Token where
  token : Nat
  nbits : Nat
  extra : Nat
  deriving Repr, DecidableEq

/-- Hybrid integer encoding. -/
def hybridToken (c : HybridConfig) (v : Nat) : Token :=
  if v < 2 ^ c.splitExponent then { token := v, nbits := 0, extra := 0 }
  else
    let n := Nat.log2 v
    let m := v - 2 ^ n
    { token := 2 ^ c.splitExponent + ((n - c.splitExponent) * 2 ^ (c.msbInToken + c.lsbInToken)) +
        (m / 2 ^ (n - c.msbInToken)) * 2 ^ c.lsbInToken + m % 2 ^ c.lsbInToken
      nbits := n - c.msbInToken - c.lsbInToken
      extra := m / 2 ^ c.lsbInToken % 2 ^ (n - c.msbInToken - c.lsbInToken) }

/-- A valid configuration. -/
def HybridConfig.Valid (c : HybridConfig) : Prop := c.msbInToken + c.lsbInToken ≤ c.splitExponent ∧ c.splitExponent ≤ 15

/-- The extra bits of a value. -/
def extraBits (c : HybridConfig) (v : Nat) : List Bool := bitsOf (hybridToken c v).nbits (hybridToken c v).extra

/-- A value coded with a distribution. -/
def valueItems (d : Dist) (v : Nat) : List Item :=
  [.sym d (hybridToken d.config v).token, .raw (extraBits d.config v)]

/-- LZ77 commands. -/
inductive LZCmd where
  /-- a value -/
  | lit (v : Nat)
  /-- copy `len` values from `dist` back (at most 2^20 and not before the first value); `code` codes the distance -/
  | copy (len dist code : Nat)
  deriving Repr, DecidableEq

/-- `len` times: append the value that stands `dist` before the end. -/
def copyBack : Nat → Nat → List Int → List Int
  | 0, _, out => out
  | len + 1, dist, out => copyBack len dist (out ++ [out.getD (out.length - dist) 0])

/-- The values that the commands stand for, after the values `out`. -/
def expandLZ : List LZCmd → List Int → List Int
  | [], out => out
  | .lit v :: cs, out => expandLZ cs (out ++ [i32 v])
  | .copy len dist _ :: cs, out => expandLZ cs (copyBack len (min (min dist (2 ^ 20)) out.length) out)

/-- The distance that a code stands for, with a distance multiplier (0: none), never less than 1. -/
def codedDistance (mult : Int) (code : Nat) : Int :=
  if mult = 0 then code + 1
  else if code < 120 then max 1 ((specialDistances.getD code (0, 0)).1 + mult * (specialDistances.getD code (0, 0)).2)
  else code - 119

/-- The code is not one of the special codes that stand for the value itself or a later one. -/
def PlainDistance (mult : Int) (code : Nat) : Prop :=
  mult = 0 ∨ 120 ≤ code ∨ 1 ≤ (specialDistances.getD code (0, 0)).1 + mult * (specialDistances.getD code (0, 0)).2

/-- What reader and writer of a stream agree on: a distribution for each context and, with LZ77, the smallest length
symbol, the smallest length, the integer configuration of lengths and the distribution of distances. -/
structure LZInfo where
  minSymbol : Nat
  minLength : Nat
  lengthConfig : HybridConfig
  distDist : Dist

structure Codes where
  dist : Int → Dist
  lz : Option LZInfo

/-- A copy command: length token and extra bits, then the distance code. -/
def copyItems (d : Dist) (z : LZInfo) (len code : Nat) : List Item :=
  [.sym d (z.minSymbol + (hybridToken z.lengthConfig (len - z.minLength)).token), .raw (extraBits z.lengthConfig (len - z.minLength))] ++
    valueItems z.distDist code

/-- The stream of a list of commands; `ctxs` are the contexts of the values, in order. A copy command is coded in the
context of its first value. -/
def lzItems (cd : Codes) : List LZCmd → List Int → List Item
  | [], _ => []
  | _ :: _, [] => []
  | .lit v :: cs, ctx :: ctxs => valueItems (cd.dist ctx) v ++ lzItems cd cs ctxs
  | .copy len _ code :: cs, ctx :: ctxs =>
    (match cd.lz with
      | some z => copyItems (cd.dist ctx) z len code
      | none => []) ++ lzItems cd cs (ctxs.drop (len - 1))

/-- The commands produce exactly the values of the contexts `ctxs`, `n` values having been produced before. -/
def LZValid (cd : Codes) (mult : Int) : List LZCmd → List Int → Nat → Prop
  | [], ctxs, _ => ctxs = []
  | _ :: _, [], _ => False
  | .lit v :: cs, ctx :: ctxs, n =>
    v < 2 ^ 32 ∧ (cd.dist ctx).config.Valid ∧
      (∀ z, cd.lz = some z → (hybridToken (cd.dist ctx).config v).token < z.minSymbol) ∧ LZValid cd mult cs ctxs (n + 1)
  | .copy len dist code :: cs, _ :: ctxs, n =>
    (∃ z, cd.lz = some z ∧ z.minLength ≤ len ∧ z.lengthConfig.Valid ∧ z.distDist.config.Valid) ∧
      1 ≤ len ∧ len ≤ ctxs.length + 1 ∧ code < 2 ^ 31 ∧
      1 ≤ dist ∧ dist < 2 ^ 31 ∧ 1 ≤ n ∧ codedDistance mult code = dist ∧ PlainDistance mult code ∧
      LZValid cd mult cs (ctxs.drop (len - 1)) (n + len)

/-- Reading a sequence of values, one per context. -/
def ES.readSeq (mult : Int) : List Int → ES → Rd (List Int × ES)
  | [], es => pure ([], es)
  | ctx :: ctxs, es => do
    let (v, es) ← es.readSymbolMul ctx mult
    let (vs, es) ← ES.readSeq mult ctxs es
    pure (v :: vs, es)

/-- The stream object uses these codes in the contexts `ctxs`. -/
structure ES.Uses (es : ES) (cd : Codes) (ctxs : List Int) : Prop where
  dist : ∀ c ∈ ctxs, es.distOf c = .ok (cd.dist c)
  lz : match cd.lz with
    | none => es.usesLZ77 = false
    | some z => es.usesLZ77 = true ∧ es.minSymbol = z.minSymbol ∧ es.minLength = z.minLength ∧
        es.lzLengthConfig = z.lengthConfig ∧
        (∃ c, idx es.clusterMap ((es.clusterMap.length : Int) - 1) = .ok c ∧ idx es.dists c = .ok z.distDist)

/-- The stream object holds the history `out`: nothing is being copied and (with LZ77) the ring buffer holds the last
2^20 values. -/
structure ES.Holds (es : ES) (out : List Int) : Prop where
  copy : es.numToCopy = 0
  count : es.usesLZ77 = true → es.numDecoded = out.length
  window : es.usesLZ77 = true → ∀ j, j < out.length → out.length ≤ j + 2 ^ 20 → es.window ((j + 1) % 2 ^ 20) = out.getD j 0

/-- Move-to-front coding of a list, from the textbook: the position of the value in the table, then move it to the front. -/
def mtfEncode : List Int → List Int → List Int
  | _, [] => []
  | t, v :: vs => (t.idxOf v : Int) :: mtfEncode (v :: t.erase v) vs

end Jxl
