import Verif.Model.BitReader
import Verif.Spec.Bits
/-!
# `entropy/VLCTable.go`: prefix-code lookup tables
-/
namespace Jxl

/-- entropy/VLCTable.go:11-14 `VLCTable`; a table row `{symbol, length}` is a pair (lengths are never negative). -/
structure VLC where
  bits : Nat
  table : List (Int × Nat)
  deriving Repr, DecidableEq

/-- `bits.Reverse32` (Go standard library): the 32 bits in the opposite order. -/
def reverse32 (x : Nat) : Nat := Spec.leVal (Spec.bitsOf 32 x).reverse

/-- entropy/VLCTable.go:26-54, the first loop of `NewVLCTableWithSymbols`: for each used entry its 32-bit code, its
length and its symbol; at the end the sum of all code space. `i` is the index, `code` the code so far. A shift count
above 32 would be negative in Go and panics. -/
def vlcCodes (symbols : List Int) : List Int → Nat → Nat → Res (List (Nat × Nat × Int) × Nat)
  | [], _, code => .ok ([], code)
  | l :: ls, i, code =>
    if l = 0 then vlcCodes symbols ls (i + 1) code
    else do
      let sym ← if 0 < l then (if symbols.length > 0 then idx symbols i else .ok (i : Int)) else .ok 0
      let len := l.natAbs
      if 32 < len then .panic
      else
        let code' := code + 2 ^ (32 - len)
        if 2 ^ 32 < code' then .err
        else do
          let (rest, total) ← vlcCodes symbols ls (i + 1) code'
          .ok (if 0 < l then ((code, len, sym) :: rest, total) else (rest, total))

/-- entropy/VLCTable.go:60-69: write `number` table rows starting at `index`, `offset` apart. -/
def vlcFill (len : Nat) (sym : Int) (offset : Nat) : Nat → Nat → List (Int × Nat) → Res (List (Int × Nat))
  | 0, _, table => .ok table
  | n + 1, index, table =>
    match table[index]? with
    | none => .panic
    | some (oldSymbol, oldLen) =>
      if (0 < oldLen ∨ 0 < oldSymbol) ∧ (oldLen ≠ len ∨ oldSymbol ≠ sym) then .err
      else vlcFill len sym offset n (u32 (index + offset)) (table.set index (sym, len))

/-- entropy/VLCTable.go:55-73, the second loop. -/
def vlcFillAll (bits : Nat) : List (Nat × Nat × Int) → List (Int × Nat) → Res (List (Int × Nat))
  | [], table => .ok table
  | (code, len, sym) :: rest, table =>
    if len ≤ bits then do
      let table ← vlcFill len sym (u32 (2 ^ len)) (2 ^ (bits - len)) (reverse32 code) table
      vlcFillAll bits rest table
    else .err

/-- entropy/VLCTable.go:22-81 `NewVLCTableWithSymbols`. -/
def newVLC (bits : Nat) (lengths symbols : List Int) : Res VLC := do
  let (codes, total) ← vlcCodes symbols lengths 0 0
  if total ≠ 2 ^ 32 then .err
  else do
    let table ← vlcFillAll bits codes (List.replicate (2 ^ bits) (0, 0))
    .ok { bits := bits, table := table.map fun e => if e.2 = 0 then (-1, e.2) else e }

/-- entropy/VLCTable.go:82-96 `GetVLC`. -/
def getVLC (t : VLC) : Rd Int := do
  let index ← showBits t.bits
  let e ← Rd.lift (idx t.table index)
  skipBits e.2
  return e.1

end Jxl
