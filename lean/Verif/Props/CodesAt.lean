import Verif.Props.TreeCoding

/-!
# C82: codes whose maps are coded themselves
-/
namespace Jxl
open Spec

/-- **C82**, all codes of a stream. Codes for any number of contexts are read where they are described, to their last bit, with the codes that are described: prefix codes or distributions, with or without
LZ77, with a map that is written with a fixed number of bits for each entry or coded (in turn with any such codes, with or without moving to the front). `_partial`: 15 more bits must follow (C11). -/
theorem C82_codes_partial {data : List UInt8} {p q n : Nat} {es : ES} (h : CodesAt data p q n es) (s : BR) (hd : s.data = data) (hs : AtBit s p) :
    (∃ s', ES.load n false s = (.ok es, s') ∧ AtBit s' q ∧ s'.data = data) ∧
      ∃ (lz : Option (LZParams × List Bool × List Bool)) (map : List Nat) (codes : CodeList), LZWritten lz ∧ lzBits lz <+: bitsFrom data p ∧ codes.Valid ∧ codes.bits <+: bitsFrom data (q - codes.bits.length) ∧
        map.length = (if lz.isSome then n + 1 else n) ∧ es.clusterMap = map.map Int.ofNat ∧ codes.Decoded es.dists ∧ es.state = none ∧ es.numDecoded = 0 ∧ es.numToCopy = 0 ∧
        match lz with
        | none => es.usesLZ77 = false
        | some z => es.usesLZ77 = true ∧ es.minSymbol = z.1.minSymbol ∧ es.minLength = z.1.minLength ∧ es.lzLengthConfig = z.1.lengthConfig := by
  refine ⟨h.load s hd hs, ?_⟩
  obtain ⟨-, lz, map, codes, ds, p1, h1, -, h3, h4, -, h6, -, -, h9, rfl, -, h11, rfl⟩ := h
  refine ⟨lz, map, codes, h1, h3, h6, by rwa [Nat.add_sub_cancel], h4, rfl, h11.decoded h6, rfl, rfl, rfl, ?_⟩
  cases lz with
  | none => rfl
  | some z => exact ⟨rfl, rfl, rfl, rfl⟩

/-- Three codes for four contexts: the map 2, 2, 1, 0 is 2, 0, 2, 2 after moving to the front, and these numbers are coded. -/
def frontData : List UInt8 := [148, 66, 130, 4, 2, 166, 254, 63, 0, 0, 0]

theorem front_moved : movedToFront [2, 2, 1, 0] = [2, 0, 2, 2] := by decide +kernel

theorem treeCodes_one : (treeCodes 1).Valid 1 where
  pos := by decide
  contexts := by decide
  width := by decide
  entries := by decide
  one := by decide
  all := by decide
  count := by decide
  codes := treeCodes_codes 1
  lz := by intro z hz; cases hz

/-- The hypothesis of `C82_codes_partial` is met by codes with a coded map. -/
theorem front_codes : ∃ es, CodesAt frontData 0 65 4 es ∧ es.clusterMap = [2, 2, 1, 0] := by
  obtain ⟨ds, h1, h2⟩ := codesDeep_of frontData 3 1 1 true (treeCodes 1) treeCodes_one (fun _ => rfl) (by decide +kernel) (by decide +kernel)
  have h3 := treeNumbers frontData 42 1 ds h2 0 [(0, 2), (0, 0), (0, 2), (0, 2)] (by decide) (by decide) (by decide) (by decide +kernel) (by decide +kernel)
  have hv : (CodeList.pre [(.only, ⟨15, 0, 0⟩), (.only, ⟨15, 0, 0⟩), (.only, ⟨15, 0, 0⟩)]).Valid := by
    intro c hc
    simp only [List.mem_cons, List.not_mem_nil, or_false, or_self] at hc
    rw [hc]
    exact ⟨trivial, by decide, by decide, by decide⟩
  obtain ⟨es, hm, -⟩ := made_exists _ hv
  refine ⟨_, ⟨by decide, none, [2, 2, 1, 0], _, es, 49, (by intro z hz; cases hz), (fun h => by cases h), (by decide +kernel), rfl, ?_, hv, by decide, by decide, by decide +kernel,
    (by decide +kernel), (by decide), hm, rfl⟩, rfl⟩
  unfold MapAt
  rw [if_neg (by decide)]
  refine Or.inr ⟨true, _, 42, by decide, by decide +kernel, h1, ?_⟩
  rw [if_pos rfl, front_moved]
  exact h3

end Jxl
