import Verif.Spec.Canonical
/-!
# Specification: descriptions of prefix codes (RFC 7932 sections 3.4 and 3.5, used by ISO/IEC 18181-1)

Written as an encoder of descriptions, from the RFC.
-/
namespace Jxl.Spec

/-- RFC 7932 section 3.5: the fixed code for code-length code lengths, as it appears in the stream. -/
def level0Word : Nat → List Bool
  | 0 => [false, false]
  | 1 => [true, true, true, false]
  | 2 => [true, true, false]
  | 3 => [false, true]
  | 4 => [true, false]
  | _ => [true, true, true, true]

/-- RFC 7932 section 3.5: the order in which code-length code lengths are listed. -/
def codeLengthOrder : List Nat := [1, 2, 3, 4, 0, 5, 17, 6, 16, 7, 8, 9, 10, 11, 12, 13, 14, 15]

/-- Share of a code space of size `2^b` taken by a code length (0 = unused). -/
def share (b l : Nat) : Nat := if l = 0 then 0 else 2 ^ (b - l)

/-- The code-length code lengths `vals` (in listing order), written until the space of 32 is used up. `total` is the
space used so far. -/
def encLevel1 : Nat → List Nat → List Bool
  | _, [] => []
  | total, v :: vs =>
    if 32 ≤ total + share 5 v then level0Word v
    else level0Word v ++ encLevel1 (total + share 5 v) vs

/-- Commands of the code-length alphabet: a length, 16 (repeat the previous length) or 17 (zeros). -/
inductive LenCmd where
  | lit (len : Nat)
  | rep (extra : Nat)
  | zrun (extra : Nat)
  deriving Repr, DecidableEq

/-- What the expansion remembers: the run length of the current sequence of 16s, of 17s, and the last nonzero length
(8 at the start). -/
structure RunState where
  rep : Nat := 0
  zero : Nat := 0
  last : Nat := 8
  deriving Repr, DecidableEq

/-- RFC 7932 section 3.5: a 16 repeats the last nonzero length 3 to 6 times; if it directly follows another 16, the
total becomes `4 * (total - 2) + 3 + extra`. The same for 17, zeros, and `8 * (total - 2) + 3 + extra`. -/
def LenCmd.run (st : RunState) : LenCmd → List Nat × RunState
  | .lit l => ([l], { rep := 0, zero := 0, last := if l = 0 then st.last else l })
  | .rep e =>
    let total := if st.rep = 0 then 3 + e else 4 * (st.rep - 2) + 3 + e
    (List.replicate (total - st.rep) st.last, { st with rep := total, zero := 0 })
  | .zrun e =>
    let total := if st.zero = 0 then 3 + e else 8 * (st.zero - 2) + 3 + e
    (List.replicate (total - st.zero) 0, { st with rep := 0, zero := total })

def LenCmd.symbol : LenCmd → Nat
  | .lit l => l
  | .rep _ => 16
  | .zrun _ => 17

def LenCmd.extraBits : LenCmd → List Bool
  | .lit _ => []
  | .rep e => bitsOf 2 e
  | .zrun e => bitsOf 3 e

def LenCmd.Valid : LenCmd → Prop
  | .lit l => l ≤ 15
  | .rep e => e < 4
  | .zrun e => e < 8

/-- All lengths that a list of commands stands for. -/
def expandCmds (st : RunState) : List LenCmd → List Nat
  | [] => []
  | c :: cs => (c.run st).1 ++ expandCmds (c.run st).2 cs

/-- Space used by a list of lengths. -/
def space (b : Nat) (L : List Nat) : Nat := (L.map (share b)).sum

/-- The commands, written with the code words `word`. -/
def encCmds (word : Nat → List Bool) : List LenCmd → List Bool
  | [] => []
  | c :: cs => word c.symbol ++ c.extraBits ++ encCmds word cs

/-- A complex prefix code: how many listed lengths are skipped (0, 2 or 3), the 18 lengths of the code-length code, the
words of that code, and the commands. -/
structure PrefixDesc where
  hskip : Nat
  level1 : List Nat
  cmds : List LenCmd

/-- The code words of the code-length code: the canonical ones; a code with only one symbol has an empty word. -/
def level1Word (l1 : List Nat) (c : Nat) (w : List Bool) : Prop :=
  if (l1.filter (· ≠ 0)).length = 1 then l1[c]?.getD 0 ≠ 0 ∧ w = []
  else IsCodeWord 6 l1 c w

/-- A valid description of the lengths `L`. -/
structure PrefixDesc.Valid (d : PrefixDesc) (word : Nat → List Bool) (L : List Nat) : Prop where
  hskip : d.hskip = 0 ∨ d.hskip = 2 ∨ d.hskip = 3
  len1 : d.level1.length = 18
  le1 : ∀ l ∈ d.level1, l ≤ 5
  skipped : ∀ c ∈ codeLengthOrder.take d.hskip, d.level1[c]? = some 0
  full1 : space 5 d.level1 = 32 ∨ (d.level1.filter (· ≠ 0)).length = 1
  words : ∀ c ∈ d.cmds, level1Word d.level1 c.symbol (word c.symbol)
  cmds : ∀ c ∈ d.cmds, c.Valid
  /-- the space is used up by the last command and not before -/
  full2 : space 15 L = 32768
  minimal : ∀ n, n < d.cmds.length → space 15 (expandCmds {} (d.cmds.take n)) < 32768
  expand : ∃ k, L = expandCmds {} d.cmds ++ List.replicate k 0

/-- The bits of the description, after the two bits of `hskip`. -/
def PrefixDesc.bits (d : PrefixDesc) (word : Nat → List Bool) : List Bool :=
  encLevel1 0 ((codeLengthOrder.drop d.hskip).map fun c => d.level1[c]?.getD 0) ++ encCmds word d.cmds

end Jxl.Spec
