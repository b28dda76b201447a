import Verif.Model.ImageHeader
import Verif.Model.Modular
/-!
# Colour profiles (bundle/image_header.go: `GetDecodedICC`, `GetICCPrediction`, `GetICCContext`, `shuffle`)

The encoded profile is a list of bytes. Two readers work on it, one for the commands and one for the data; both are readers of
Verif/Model/BitReader.lean. The decoded profile is a list of fixed length that is written from front to back.
`GetDecodedICC` keeps its buffer in the header when it fails; the model drops it.
-/
namespace Jxl

/-- The bytes of a string literal. -/
def ascii (l : List Char) : List Nat := l.map Char.toNat

/-- bundle/image_header.go:691-709 `GetICCContext`, the class of the previous byte. -/
def iccKind1 (b : Nat) : Nat :=
  if (b ≥ 97 ∧ b ≤ 122) ∨ (b ≥ 65 ∧ b ≤ 90) then 0
  else if (b ≥ 48 ∧ b ≤ 57) ∨ b = 46 ∨ b = 44 then 1
  else if b ≤ 1 then 2 + b
  else if b > 1 ∧ b < 16 then 4
  else if b > 240 ∧ b < 255 then 5
  else if b = 255 then 6
  else 7

/-- bundle/image_header.go:692, 710-720 `GetICCContext`, the class of the byte before it. -/
def iccKind2 (b : Nat) : Nat :=
  if (b ≥ 97 ∧ b ≤ 122) ∨ (b ≥ 65 ∧ b ≤ 90) then 0
  else if (b ≥ 48 ∧ b ≤ 57) ∨ b = 46 ∨ b = 44 then 1
  else if b < 16 then 2
  else if b > 240 then 3
  else 4

/-- bundle/image_header.go:687-722 `GetICCContext`. -/
def iccContext (buffer : List Nat) (index : Nat) : Res Nat :=
  if index ≤ 128 then .ok 0
  else do
    let b1 ← idx buffer ((index : Int) - 1)
    let b2 ← idx buffer ((index : Int) - 2)
    .ok (1 + iccKind1 b1 + 8 * iccKind2 b2)

/-- bundle/image_header.go:681-683 `shuffle`: the loop, from `i` on, for `n` more bytes. -/
def shuffleLoop (buffer : List Nat) (width height : Int) : Nat → Nat → List Nat → Res (List Nat)
  | 0, _, result => .ok result
  | n + 1, i, result => do
    let v ← idx buffer i
    let result ← setAt result (i32 (i32 ((i : Int) % height * width) + (i : Int) / height)) v
    shuffleLoop buffer width height n (i + 1) result

/-- bundle/image_header.go:677-685 `shuffle`. `util.CeilDiv` is (util/MathsHelper.go:301-303) `((a - 1) / b) + 1` on `uint32`; the loop does not run on
an empty buffer. -/
def iccShuffle (buffer : List Nat) (width : Nat) : Res (List Nat) :=
  let height : Int := i32 (u32 (u32 (u32 buffer.length + 4294967295) / width + 1))
  shuffleLoop buffer width height buffer.length 0 (List.replicate buffer.length 0)

/-- bundle/image_header.go:955 and 962: `buffer[41]`, which is looked at only behind an `S`. -/
def iccB41 (buffer : List Nat) (b40 : Nat) : Res Nat := if b40 = 83 then idx buffer 41 else .ok 0

/-- bundle/image_header.go:920-992 `GetICCPrediction`. -/
def iccPrediction (buffer : List Nat) (i : Nat) : Res Int :=
  if i ≤ 3 then .ok (sar (i32 buffer.length) (8 * (3 - i)))
  else if i = 8 then .ok 4
  else if 12 ≤ i ∧ i ≤ 23 then do let v ← idx (ascii ['m', 'n', 't', 'r', 'R', 'G', 'B', ' ', 'X', 'Y', 'Z', ' ']) ((i : Int) - 12); .ok v
  else if 36 ≤ i ∧ i ≤ 39 then do let v ← idx (ascii ['a', 'c', 's', 'p']) ((i : Int) - 36); .ok v
  else do
    let b40 ← idx buffer 40
    if b40 = 65 ∧ (i = 41 ∨ i = 42) then .ok 80
    else if b40 = 65 ∧ i = 43 then .ok 76
    else if b40 = 77 ∧ i = 41 then .ok 83
    else if b40 = 77 ∧ i = 42 then .ok 70
    else if b40 = 77 ∧ i = 43 then .ok 84
    else do
      let b41 ← iccB41 buffer b40
      if b40 = 83 ∧ b41 = 71 ∧ i = 42 then .ok 73
      else if b40 = 83 ∧ b41 = 71 ∧ i = 43 then .ok 32
      else if b40 = 83 ∧ b41 = 85 ∧ i = 42 then .ok 78
      else if b40 = 83 ∧ b41 = 85 ∧ i = 43 then .ok 87
      else if i = 70 then .ok 246
      else if i = 71 then .ok 214
      else if i = 73 then .ok 1
      else if i = 78 then .ok 211
      else if i = 79 then .ok 45
      else if 80 ≤ i ∧ i < 84 then do let v ← idx buffer ((i : Int) - 76); .ok v
      else .ok 0

/-- The variables of `GetDecodedICC`: the two readers, `h.DecodedICC` and `resultPos`. -/
structure Icc where
  cmd : BR
  data : BR
  out : List Nat
  pos : Int

/-- The actions of `GetDecodedICC`. -/
abbrev IM (α : Type) := Icc → Res (α × Icc)

instance : Monad IM where
  pure a := fun s => .ok (a, s)
  bind m f := fun s => match m s with
    | .ok (a, s') => f a s'
    | .err => .err
    | .panic => .panic

/-- An error. -/
def IM.fail {α : Type} : IM α := fun _ => .err

/-- An expression that may panic. -/
def IM.lift {α : Type} (r : Res α) : IM α := fun s => match r with
  | .ok a => .ok (a, s)
  | .err => .err
  | .panic => .panic

/-- An action on the command reader. -/
def onCmd {α : Type} (m : Rd α) : IM α := fun s => match m s.cmd with
  | (.ok a, r) => .ok (a, { s with cmd := r })
  | (.err, _) => .err
  | (.panic, _) => .panic

/-- An action on the data reader. -/
def onData {α : Type} (m : Rd α) : IM α := fun s => match m s.data with
  | (.ok a, r) => .ok (a, { s with data := r })
  | (.err, _) => .err
  | (.panic, _) => .panic

/-- `h.DecodedICC[resultPos] = byte(v); resultPos++`. -/
def put (v : Int) : IM Unit := fun s => match setAt s.out s.pos (v % 256).toNat with
  | .ok out => .ok ((), { s with out := out, pos := i32 (s.pos + 1) })
  | .err => .err
  | .panic => .panic

/-- Several bytes. -/
def putAll : List Nat → IM Unit
  | [] => pure ()
  | v :: vs => do
    put v
    putAll vs

/-- The loop `for i := 24; i >= 0; i -= 8 { … byte(v>>i) … }`, for example bundle/image_header.go:442-445. -/
def putBE (v : Int) : IM Unit := do
  put (sar v 24)
  put (sar v 16)
  put (sar v 8)
  put v

/-- `resultPos += n`. -/
def advance (n : Int) : IM Unit := fun s => .ok ((), { s with pos := i32 (s.pos + n) })

/-- The condition of the two loops: `!commandReader.AtEnd() && (commandReader.GetBitsCount()>>3) < uint64(dataStart)`. -/
def more (dataStart : Nat) : IM Bool := fun s =>
  match atEnd s.cmd with
  | (true, r) => .ok (false, { s with cmd := r })
  | (false, r) => .ok (decide (r.bitsRead / 8 < dataStart), { s with cmd := r })

/-- bundle/image_header.go:422-430: the header, from byte `i` on. -/
def iccHeader : Nat → Nat → IM Unit
  | 0, _ => pure ()
  | n + 1, i => do
    let e ← onData (readBits 8)
    let s ← (fun s => .ok (s, s) : IM Icc)
    let p ← IM.lift (iccPrediction s.out i)
    put (i32 (e + p))
    iccHeader n (i + 1)

/-- `dataReader.ReadBits(8)`, `n` times. -/
def dataBytes : Nat → IM (List Nat)
  | 0 => pure []
  | n + 1 => do
    let v ← onData (readBits 8)
    let l ← dataBytes n
    pure (v :: l)

/-- bundle/image_header.go:83-87 `iccTags`. -/
def iccTags : List (List Nat) :=
  [ascii ['c', 'p', 'r', 't'], ascii ['w', 't', 'p', 't'], ascii ['b', 'k', 'p', 't'], ascii ['r', 'X', 'Y', 'Z'], ascii ['g', 'X', 'Y', 'Z'], ascii ['b', 'X', 'Y', 'Z'],
   ascii ['k', 'X', 'Y', 'Z'], ascii ['r', 'T', 'R', 'C'], ascii ['g', 'T', 'R', 'C'], ascii ['b', 'T', 'R', 'C'], ascii ['k', 'T', 'R', 'C'], ascii ['c', 'h', 'a', 'd'],
   ascii ['d', 'e', 's', 'c'], ascii ['c', 'h', 'r', 'm'], ascii ['d', 'm', 'n', 'd'], ascii ['d', 'm', 'd', 'd'], ascii ['l', 'u', 'm', 'i']]

/-- bundle/image_header.go:457-477: the name of a tag. -/
def iccTagName (code : Nat) : IM (List Nat) :=
  if code = 1 then dataBytes 4
  else if code = 2 then pure (ascii ['r', 'T', 'R', 'C'])
  else if code = 3 then pure (ascii ['r', 'X', 'Y', 'Z'])
  else if 4 ≤ code ∧ code ≤ 21 then IM.lift (idx iccTags ((code : Int) - 4))
  else IM.fail

/-- bundle/image_header.go:497: the tags of 20 bytes. -/
def iccSmallTags : List (List Nat) :=
  [ascii ['r', 'X', 'Y', 'Z'], ascii ['g', 'X', 'Y', 'Z'], ascii ['b', 'X', 'Y', 'Z'], ascii ['k', 'X', 'Y', 'Z'], ascii ['w', 't', 'p', 't'], ascii ['b', 'k', 'p', 't'],
   ascii ['l', 'u', 'm', 'i']]

/-- A number that is read only when a flag is set (bundle/image_header.go:481-489, 490-502 and 587-596). -/
def flagged (c : Bool) (dflt : Int) : IM Int := if c then onCmd readICCVarint else pure dflt

/-- bundle/image_header.go:515-527: one entry of the tag table. -/
def putTag (name : List Nat) (start size : Int) : IM Unit := do
  putAll name
  putBE start
  putBE size

/-- bundle/image_header.go:506-531: the entries that a tag command stands for. -/
def putTags (code : Nat) (tag : List Nat) (start size : Int) : IM Unit :=
  if code = 2 then do
    putTag (ascii ['r', 'T', 'R', 'C']) start size
    putTag (ascii ['g', 'T', 'R', 'C']) start size
    putTag (ascii ['b', 'T', 'R', 'C']) start size
  else if code = 3 then do
    putTag (ascii ['r', 'X', 'Y', 'Z']) start size
    putTag (ascii ['g', 'X', 'Y', 'Z']) (i32 (start + size)) size
    putTag (ascii ['b', 'X', 'Y', 'Z']) (i32 (i32 (start + size) + size)) size
  else putTag tag start size

/-- bundle/image_header.go:446-532: the loop over tag commands. Every round reads a byte of the commands, so the length of the stream, plus
one, bounds the number of rounds; running out of `fuel` counts as a crash. -/
def iccTagLoop (dataStart : Nat) : Nat → Int → Int → IM Unit
  | 0, _, _ => fun _ => .panic
  | fuel + 1, prevStart, prevSize => do
    let m ← more dataStart
    if m = false then pure ()
    else do
      let command ← onCmd (readBits 8)
      if command % 64 = 0 then pure ()
      else do
        let tag ← iccTagName (command % 64)
        let start ← flagged (command.testBit 6) (i32 (prevStart + prevSize))
        let size ← flagged (command.testBit 7) (if iccSmallTags.contains tag then 20 else prevSize)
        putTags (command % 64) tag start size
        iccTagLoop dataStart fuel start size

/-- `b := make([]byte, num)` and the loop that fills it, for example bundle/image_header.go:557-564. -/
def readBuf (num : Int) : IM (List Nat) := if num < 0 then fun _ => .panic else dataBytes num.toNat

/-- `copy(h.DecodedICC[resultPos:], b); resultPos += int32(len(b))` (bundle/image_header.go:572-573). -/
def copyIn (b : List Nat) : IM Unit := fun s =>
  if s.pos < 0 ∨ s.pos > s.out.length then .panic
  else .ok ((), { s with out := s.out.take s.pos.toNat ++ (b.take (s.out.length - s.pos.toNat) ++ s.out.drop (s.pos.toNat + b.length)), pos := i32 (s.pos + i32 b.length) })

/-- bundle/image_header.go:622-625: `prev[j]`, from byte `k` on, `n` more bytes. The bitwise or adds a byte to a multiple of 256. -/
def iccPrev (out : List Nat) (at_ : Int) : Nat → Nat → Int → Res Int
  | 0, _, acc => .ok acc
  | n + 1, k, acc => do
    let v ← idx out (i32 (at_ + k))
    iccPrev out at_ n (k + 1) (i32 (acc * 256) + v)

/-- bundle/image_header.go:619-634: the predicted number. -/
def iccPredicted (out : List Nat) (pos stride : Int) (width order : Nat) : Res Int := do
  let p0 ← iccPrev out (i32 (pos - i32 (stride * 1))) width 0 0
  if order = 0 then .ok p0
  else do
    let p1 ← iccPrev out (i32 (pos - i32 (stride * 2))) width 0 0
    if order = 1 then .ok (i32 (i32 (2 * p0) - p1))
    else do
      let p2 ← iccPrev out (i32 (pos - i32 (stride * 3))) width 0 0
      .ok (i32 (i32 (i32 (3 * p0) - i32 (3 * p1)) + p2))

/-- bundle/image_header.go:636-639: the bytes of one predicted number, from byte `j` on. -/
def iccPutPred (b : List Nat) (p : Int) (width i num : Nat) : Nat → Nat → IM Unit
  | 0, _ => pure ()
  | n + 1, j =>
    if i + j < num then do
      let v ← IM.lift (idx b ((i + j : Nat) : Int))
      put (v + sar p (8 * (width - 1 - j)))
      iccPutPred b p width i num n (j + 1)
    else pure ()

/-- bundle/image_header.go:618-640: the loop over predicted numbers; `fuel` bounds the number of rounds. -/
def iccPredLoop (b : List Nat) (stride : Int) (width order num : Nat) : Nat → Nat → IM Unit
  | 0, _ => pure ()
  | fuel + 1, i =>
    if i < num then do
      let s ← (fun s => .ok (s, s) : IM Icc)
      let p ← IM.lift (iccPredicted s.out s.pos stride width order)
      iccPutPred b p width i num width 0
      iccPredLoop b stride width order num fuel (i + width)
    else pure ()

/-- bundle/image_header.go:615-617. -/
def shuffleIf (c : Bool) (b : List Nat) (width : Nat) : IM (List Nat) := if c then IM.lift (iccShuffle b width) else pure b

/-- bundle/image_header.go:565-570: the width of a shuffle command. -/
def shuffleWidth (command : Nat) : Nat := if command = 2 then 2 else 4

/-- bundle/image_header.go:574-640: the command that predicts. -/
def iccPredict : IM Unit := do
  let flags ← onCmd (readBits 8)
  let width := flags % 4 + 1
  if width = 3 then IM.fail
  else do
    let order := flags / 4 % 4
    if order = 3 then IM.fail
    else do
      let stride ← flagged (flags.testBit 4) width
      let s ← (fun s => .ok (s, s) : IM Icc)
      if i32 (stride * 4) ≥ s.pos then IM.fail
      else if stride < width then IM.fail
      else do
        let num ← onCmd readICCVarint
        let b ← readBuf num
        let b ← shuffleIf (width = 2 || width = 4) b width
        iccPredLoop b stride width order num.toNat num.toNat 0

/-- bundle/image_header.go:660: the names of types. -/
def iccTypes : List (List Nat) :=
  [ascii ['X', 'Y', 'Z', ' '], ascii ['d', 'e', 's', 'c'], ascii ['t', 'e', 'x', 't'], ascii ['m', 'l', 'u', 'c'], ascii ['p', 'a', 'r', 'a'], ascii ['c', 'u', 'r', 'v'],
   ascii ['s', 'f', '3', '2'], ascii ['g', 'b', 'd', ' ']]

/-- The loop that reads and writes a byte `n` times (bundle/image_header.go:544-551 and 651-658). -/
def copyData : Nat → IM Unit
  | 0 => pure ()
  | n + 1 => do
    let v ← onData (readBits 8)
    put v
    copyData n

/-- bundle/image_header.go:539-670: one command. -/
def iccCommand (command : Nat) : IM Unit :=
  if command = 1 then do
    let num ← onCmd readICCVarint
    copyData num.toNat
  else if command = 2 ∨ command = 3 then do
    let num ← onCmd readICCVarint
    let b ← readBuf num
    let b ← IM.lift (iccShuffle b (shuffleWidth command))
    copyIn b
  else if command = 4 then iccPredict
  else if command = 10 then do
    putAll (ascii ['X', 'Y', 'Z', ' '])
    advance 4
    copyData 12
  else if 16 ≤ command ∧ command < 24 then do
    let t ← IM.lift (idx iccTypes ((command : Int) - 16))
    putAll t
    advance 4
  else IM.fail

/-- bundle/image_header.go:534-671: the loop over commands; `fuel` as in `iccTagLoop`. -/
def iccCmdLoop (dataStart : Nat) : Nat → IM Unit
  | 0 => fun _ => .panic
  | fuel + 1 => do
    let m ← more dataStart
    if m = false then pure ()
    else do
      let command ← onCmd (readBits 8)
      iccCommand command
      iccCmdLoop dataStart fuel

/-- bundle/image_header.go:435-672: everything behind the header. -/
def iccBody (dataStart fuel : Nat) : IM Unit := do
  let t ← onCmd readICCVarint
  let tagCount := i32 (t - 1)
  if tagCount ≥ 0 then do
    putBE tagCount
    iccTagLoop dataStart fuel (i32 (128 + i32 (tagCount * 12))) 0
    iccCmdLoop dataStart fuel
  else pure ()

/-- bundle/image_header.go:396-675 `GetDecodedICC` (for a profile that is present and has not been decoded). -/
def getDecodedICC (enc : List UInt8) : Res (List Nat) := do
  let r := BR.new enc
  match readICCVarint r with
  | (.err, _) => .err
  | (.panic, _) => .panic
  | (.ok outputSize, r) =>
    match readICCVarint r with
    | (.err, _) => .err
    | (.panic, _) => .panic
    | (.ok commandSize, r) =>
      let dataStart := i32 (i32 (r.bitsRead / 8 : Nat) + commandSize)
      if dataStart < 0 ∨ dataStart > enc.length then .panic
      else if outputSize < 0 then .panic
      else
        let headerSize := min 128 outputSize.toNat
        let s : Icc := ⟨r, BR.new (enc.drop dataStart.toNat), List.replicate outputSize.toNat 0, 0⟩
        match iccHeader headerSize 0 s with
        | .err => .err
        | .panic => .panic
        | .ok (_, s) =>
          if s.pos = outputSize then .ok s.out
          else
            match iccBody dataStart.toNat (enc.length + 1) s with
            | .err => .err
            | .panic => .panic
            | .ok (_, s) => .ok s.out

end Jxl
