import Verif.Spec.Decoder
/-!
# Where the sections of a frame lie

Independent of the decoder. The sections are stored one after the other; a permutation `p` of the
table of contents says that logical section `i` is the `p[i]`-th one in the file.
-/
namespace Jxl

/-- The bytes of the `j`-th stored section, when the stored sections start at `data`. -/
def storedSection (data : List UInt8) (lengths : List Nat) (j : Nat) : List UInt8 :=
  (data.drop (lengths.take j).sum).take (lengths.getD j 0)

/-- The bytes of logical section `i`. -/
def logicalSection (data : List UInt8) (lengths : List Nat) (perm : Option (List Nat)) (i : Nat) : List UInt8 :=
  storedSection data lengths (match perm with | none => i | some p => p.getD i 0)

/-- The lengths in the table of contents: `U32(u(10), 1024+u(14), 17408+u(22), 4211712+u(30))` each. -/
def decLengths : Nat → Spec.Dec (List Nat)
  | 0 => pure []
  | n + 1 => do
    let l ← Spec.decU32 (fun k => match k with | 0 => (0, 10) | 1 => (1024, 14) | 2 => (17408, 22) | 3 => (4211712, 30))
    let ls ← decLengths n
    return l :: ls

end Jxl
