import Verif.Spec.Decoder
/-!
# Colour profiles, as the format defines them

An encoded profile consists of the size of the profile, the size of the command bytes, the command bytes, and the data bytes. This file
defines what a list of commands means (the profile it describes) and how it is written. Nothing here refers to the code.
-/
namespace Jxl.Spec

/-- The four bytes of a number, most significant first (numbers from 2^32 on are reduced). -/
def be32 (v : Nat) : List Nat := [v / 2 ^ 24 % 256, v / 2 ^ 16 % 256, v / 2 ^ 8 % 256, v % 256]

def name4 (a b c d : Char) : List Nat := [a.toNat, b.toNat, c.toNat, d.toNat]

/-! ## The header -/

/-- The guess for byte `i` of the header, of a profile of `size` bytes that begins with `done`. -/
def headerGuess (size : Nat) (done : List Nat) (i : Nat) : Nat :=
  let b40 := done.getD 40 0
  let b41 := done.getD 41 0
  match i with
  | 0 => size / 2 ^ 24 % 256
  | 1 => size / 2 ^ 16 % 256
  | 2 => size / 2 ^ 8 % 256
  | 3 => size % 256
  | 8 => 4
  | 12 => 'm'.toNat | 13 => 'n'.toNat | 14 => 't'.toNat | 15 => 'r'.toNat
  | 16 => 'R'.toNat | 17 => 'G'.toNat | 18 => 'B'.toNat | 19 => ' '.toNat
  | 20 => 'X'.toNat | 21 => 'Y'.toNat | 22 => 'Z'.toNat | 23 => ' '.toNat
  | 36 => 'a'.toNat | 37 => 'c'.toNat | 38 => 's'.toNat | 39 => 'p'.toNat
  | 41 => if b40 = 'A'.toNat then 'P'.toNat else if b40 = 'M'.toNat then 'S'.toNat else 0
  | 42 => if b40 = 'A'.toNat then 'P'.toNat else if b40 = 'M'.toNat then 'F'.toNat
      else if b40 = 'S'.toNat ∧ b41 = 'G'.toNat then 'I'.toNat else if b40 = 'S'.toNat ∧ b41 = 'U'.toNat then 'N'.toNat else 0
  | 43 => if b40 = 'A'.toNat then 'L'.toNat else if b40 = 'M'.toNat then 'T'.toNat
      else if b40 = 'S'.toNat ∧ b41 = 'G'.toNat then ' '.toNat else if b40 = 'S'.toNat ∧ b41 = 'U'.toNat then 'W'.toNat else 0
  | 70 => 246 | 71 => 214 | 73 => 1 | 78 => 211 | 79 => 45
  | 80 => done.getD 4 0 | 81 => done.getD 5 0 | 82 => done.getD 6 0 | 83 => done.getD 7 0
  | _ => 0

/-- The header: each byte is its guess plus a byte of the data. -/
def headerBytes (size : Nat) : List Nat → List Nat → List Nat
  | done, [] => done
  | done, e :: es => headerBytes size (done ++ [(e + headerGuess size done done.length) % 256]) es

/-! ## The tag table -/

inductive TagKind
  | named (name : List Nat)
  | trc
  | xyz
  | known (k : Fin 17)

/-- The names of the known tags. -/
def knownTag (k : Fin 17) : List Nat := match k.val with
  | 0 => name4 'c' 'p' 'r' 't' | 1 => name4 'w' 't' 'p' 't' | 2 => name4 'b' 'k' 'p' 't' | 3 => name4 'r' 'X' 'Y' 'Z' | 4 => name4 'g' 'X' 'Y' 'Z'
  | 5 => name4 'b' 'X' 'Y' 'Z' | 6 => name4 'k' 'X' 'Y' 'Z' | 7 => name4 'r' 'T' 'R' 'C' | 8 => name4 'g' 'T' 'R' 'C' | 9 => name4 'b' 'T' 'R' 'C'
  | 10 => name4 'k' 'T' 'R' 'C' | 11 => name4 'c' 'h' 'a' 'd' | 12 => name4 'd' 'e' 's' 'c' | 13 => name4 'c' 'h' 'r' 'm' | 14 => name4 'd' 'm' 'n' 'd'
  | 15 => name4 'd' 'm' 'd' 'd' | _ => name4 'l' 'u' 'm' 'i'

/-- The tags whose size is 20 unless it is given. -/
def size20 : List (List Nat) :=
  [name4 'r' 'X' 'Y' 'Z', name4 'g' 'X' 'Y' 'Z', name4 'b' 'X' 'Y' 'Z', name4 'k' 'X' 'Y' 'Z', name4 'w' 't' 'p' 't', name4 'b' 'k' 'p' 't', name4 'l' 'u' 'm' 'i']

def TagKind.name : TagKind → List Nat
  | .named n => n
  | .trc => name4 'r' 'T' 'R' 'C'
  | .xyz => name4 'r' 'X' 'Y' 'Z'
  | .known k => knownTag k

/-- A tag command. The offset and the size are optional. -/
structure TagCmd where
  kind : TagKind
  offset : Option Nat
  size : Option Nat

/-- An entry of the tag table. -/
def entry (name : List Nat) (start size : Nat) : List Nat := name ++ be32 start ++ be32 size

/-- The entries that a tag command stands for. -/
def TagKind.entries (k : TagKind) (start size : Nat) : List Nat := match k with
  | .trc => entry (name4 'r' 'T' 'R' 'C') start size ++ entry (name4 'g' 'T' 'R' 'C') start size ++ entry (name4 'b' 'T' 'R' 'C') start size
  | .xyz => entry (name4 'r' 'X' 'Y' 'Z') start size ++ entry (name4 'g' 'X' 'Y' 'Z') (start + size) size ++ entry (name4 'b' 'X' 'Y' 'Z') (start + 2 * size) size
  | k => entry k.name start size

/-- A tag begins where the previous one ends, unless its offset is given. -/
def TagCmd.start (t : TagCmd) (prevStart prevSize : Nat) : Nat := t.offset.getD (prevStart + prevSize)

/-- A tag is as large as the previous one, or 20 bytes for certain names, unless its size is given. -/
def TagCmd.len (t : TagCmd) (prevSize : Nat) : Nat := t.size.getD (if t.kind.name ∈ size20 then 20 else prevSize)

/-- The tag table (without its number of entries). -/
def tagTable : Nat → Nat → List TagCmd → List Nat
  | _, _, [] => []
  | ps, pz, t :: ts => t.kind.entries (t.start ps pz) (t.len pz) ++ tagTable (t.start ps pz) (t.len pz) ts

/-! ## The other commands -/

inductive IccCmd
  | insert (bytes : List Nat)
  | shuffle2 (bytes : List Nat)
  | shuffle4 (bytes : List Nat)
  | predict (width order : Nat) (stride : Option Nat) (bytes : List Nat)
  | xyz (bytes : List Nat)
  | type (k : Fin 8)

/-- Interleaving: the bytes are the columns, one after the other, of a table of `width` columns; the result is its rows. The last column may
be incomplete. -/
def interleave (width : Nat) (b : List Nat) : List Nat :=
  let height := (b.length + width - 1) / width
  (List.range height).flatMap (fun row => (List.range width).filterMap (fun col => b[row + col * height]?))

/-- The number of `width` bytes at `at_`, most significant byte first. -/
def numberAt (out : List Nat) (at_ : Nat) : Nat → Nat
  | 0 => 0
  | w + 1 => numberAt out at_ w * 256 + out.getD (at_ + w) 0

/-- The guess for the number at `at_`, from the numbers one, two and three strides before. -/
def numberGuess (out : List Nat) (at_ width order stride : Nat) : Int :=
  let n1 : Int := numberAt out (at_ - stride) width
  let n2 : Int := numberAt out (at_ - 2 * stride) width
  let n3 : Int := numberAt out (at_ - 3 * stride) width
  match order with
  | 0 => n1
  | 1 => 2 * n1 - n2
  | _ => 3 * n1 - 3 * n2 + n3

/-- The profile, extended by predicted numbers. `i` counts the bytes; each is the byte of the guess plus a byte of the data. -/
def predicted (width order stride start : Nat) : List Nat → Nat → List Nat → List Nat
  | out, _, [] => out
  | out, i, r :: rs =>
    let guess := numberGuess out (start + (i - i % width)) width order stride
    let byte := (guess / 256 ^ (width - 1 - i % width)) % 256
    predicted width order stride start (out ++ [((r : Int) + byte) % 256 |>.toNat]) (i + 1) rs

def typeName (k : Fin 8) : List Nat := match k with
  | 0 => name4 'X' 'Y' 'Z' ' ' | 1 => name4 'd' 'e' 's' 'c' | 2 => name4 't' 'e' 'x' 't' | 3 => name4 'm' 'l' 'u' 'c'
  | 4 => name4 'p' 'a' 'r' 'a' | 5 => name4 'c' 'u' 'r' 'v' | 6 => name4 's' 'f' '3' '2' | 7 => name4 'g' 'b' 'd' ' '

/-- The bytes of a prediction command, brought into order. -/
def residuals (width : Nat) (b : List Nat) : List Nat := if width = 1 then b else interleave width b

/-- What a command does to the profile decoded so far. -/
def IccCmd.run (out : List Nat) : IccCmd → List Nat
  | .insert b => out ++ b
  | .shuffle2 b => out ++ interleave 2 b
  | .shuffle4 b => out ++ interleave 4 b
  | .predict width order stride b => predicted width order (stride.getD width) out.length out 0 (residuals width b)
  | .xyz b => out ++ (name4 'X' 'Y' 'Z' ' ' ++ [0, 0, 0, 0] ++ b)
  | .type k => out ++ (typeName k ++ [0, 0, 0, 0])

/-! ## A whole profile, and its encoding -/

/-- An encoded profile: the bytes of the header, the number of tags, the tag commands, whether they are terminated, and the other commands. -/
structure Profile where
  header : List Nat
  tagCount : Nat
  tags : List TagCmd
  terminated : Bool
  cmds : List IccCmd

/-- The profile that is described, given its size. -/
def Profile.meaning (p : Profile) (size : Nat) : List Nat :=
  p.cmds.foldl IccCmd.run (headerBytes size [] p.header ++ be32 p.tagCount ++ tagTable (128 + 12 * p.tagCount) 0 p.tags)

def TagKind.code : TagKind → Nat
  | .named _ => 1
  | .trc => 2
  | .xyz => 3
  | .known k => 4 + k.val

def optVarint : Option Nat → List Nat
  | none => []
  | some v => encVarint v

/-- The command bytes of a tag. -/
def TagCmd.cmdBytes (t : TagCmd) : List Nat :=
  (t.kind.code + (if t.offset.isSome then 64 else 0) + (if t.size.isSome then 128 else 0)) :: (optVarint t.offset ++ optVarint t.size)

/-- The data bytes of a tag. -/
def TagCmd.dataBytes (t : TagCmd) : List Nat := match t.kind with
  | .named n => n
  | _ => []

/-- The command bytes of a command. -/
def IccCmd.cmdBytes : IccCmd → List Nat
  | .insert b => 1 :: encVarint b.length
  | .shuffle2 b => 2 :: encVarint b.length
  | .shuffle4 b => 3 :: encVarint b.length
  | .predict width order stride b =>
    4 :: ((width - 1) + 4 * order + (if stride.isSome then 16 else 0)) :: (optVarint stride ++ encVarint b.length)
  | .xyz _ => [10]
  | .type k => [16 + k.val]

/-- The data bytes of a command. -/
def IccCmd.dataBytes : IccCmd → List Nat
  | .insert b => b
  | .shuffle2 b => b
  | .shuffle4 b => b
  | .predict _ _ _ b => b
  | .xyz b => b
  | .type _ => []

/-- All command bytes of a profile. -/
def Profile.cmdBytes (p : Profile) : List Nat :=
  encVarint (p.tagCount + 1) ++ p.tags.flatMap TagCmd.cmdBytes ++ (if p.terminated then [0] else []) ++ p.cmds.flatMap IccCmd.cmdBytes

/-- All data bytes of a profile. -/
def Profile.dataBytes (p : Profile) : List Nat := p.header ++ p.tags.flatMap TagCmd.dataBytes ++ p.cmds.flatMap IccCmd.dataBytes

/-- The encoded profile. -/
def Profile.encode (p : Profile) (size : Nat) : List Nat :=
  encVarint size ++ encVarint p.cmdBytes.length ++ p.cmdBytes ++ p.dataBytes

/-- A command is valid when `n` bytes of the profile have been decoded. -/
def IccCmd.Valid (n : Nat) : IccCmd → Prop
  | .insert b => ∀ v ∈ b, v < 256
  | .shuffle2 b => ∀ v ∈ b, v < 256
  | .shuffle4 b => ∀ v ∈ b, v < 256
  | .predict width order stride b => (∀ v ∈ b, v < 256) ∧ (width = 1 ∨ width = 2 ∨ width = 4) ∧ order ≤ 2 ∧
      width ≤ stride.getD width ∧ 4 * stride.getD width < n
  | .xyz b => (∀ v ∈ b, v < 256) ∧ b.length = 12
  | .type _ => True

/-- All commands are valid, from a profile `out` on. -/
def CmdsValid : List Nat → List IccCmd → Prop
  | _, [] => True
  | out, c :: cs => c.Valid out.length ∧ CmdsValid (c.run out) cs

/-- A tag is valid. -/
def TagCmd.Valid (t : TagCmd) : Prop :=
  (∀ n, t.kind = .named n → n.length = 4 ∧ ∀ v ∈ n, v < 256) ∧ (∀ v, t.offset = some v → v < 2 ^ 32) ∧ (∀ v, t.size = some v → v < 2 ^ 32)

/-- A valid profile of more than 128 bytes. -/
structure Profile.Valid (p : Profile) (size : Nat) : Prop where
  header : p.header.length = 128
  headerByte : ∀ v ∈ p.header, v < 256
  tagCount : p.tagCount + 1 < 2 ^ 32
  tags : ∀ t ∈ p.tags, t.Valid
  terminated : p.cmds = [] ∨ p.terminated = true
  cmds : CmdsValid (headerBytes size [] p.header ++ be32 p.tagCount ++ tagTable (128 + 12 * p.tagCount) 0 p.tags) p.cmds
  size : (p.meaning size).length = size

/-- A profile of at most 128 bytes consists of header bytes only. -/
def encodeShort (header : List Nat) : List Nat := encVarint header.length ++ encVarint 0 ++ header

/-- A profile without a tag table: the number of tags is written as 0, and the commands follow. -/
def encodeBare (size : Nat) (header : List Nat) (cmds : List IccCmd) : List Nat :=
  encVarint size ++ encVarint (encVarint 0 ++ cmds.flatMap IccCmd.cmdBytes).length ++ (encVarint 0 ++ cmds.flatMap IccCmd.cmdBytes) ++
    (header ++ cmds.flatMap IccCmd.dataBytes)

/-! ## Contexts -/

def isLetter (b : Nat) : Bool := ('a'.toNat ≤ b && b ≤ 'z'.toNat) || ('A'.toNat ≤ b && b ≤ 'Z'.toNat)

def isNumeric (b : Nat) : Bool := ('0'.toNat ≤ b && b ≤ '9'.toNat) || b = '.'.toNat || b = ','.toNat

/-- The class of the previous byte: letters, digits and punctuation, 0, 1, below 16, above 240, 255, others. -/
def classOfLast (b : Nat) : Nat :=
  if isLetter b then 0 else if isNumeric b then 1 else if b = 0 then 2 else if b = 1 then 3 else if b < 16 then 4
  else if b = 255 then 6 else if b > 240 then 5 else 7

/-- The class of the byte before it. -/
def classOfSecondLast (b : Nat) : Nat :=
  if isLetter b then 0 else if isNumeric b then 1 else if b < 16 then 2 else if b > 240 then 3 else 4

/-- The context of the next byte of an encoded profile, given the bytes before it. -/
def contextOfNext (done : List Nat) : Nat :=
  if done.length ≤ 128 then 0 else 1 + classOfLast (done.getD (done.length - 1) 0) + 8 * classOfSecondLast (done.getD (done.length - 2) 0)

/-! ## A restriction of the code -/

/-- Four columns are interleaved only for these numbers of bytes (see `C40_shuffle_crashes` for the others). -/
def Handles : IccCmd → Prop
  | .shuffle4 b => b.length ≤ 2 ∨ b.length % 4 = 0 ∨ b.length % 4 = 3
  | .predict width _ _ b => width = 4 → b.length ≤ 2 ∨ b.length % 4 = 0 ∨ b.length % 4 = 3
  | _ => True

end Jxl.Spec
