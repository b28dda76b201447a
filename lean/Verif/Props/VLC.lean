import Verif.Proofs.PrefixDesc
/-!
# C10, C11: prefix codes

Specification: `Spec/Canonical.lean` (canonical codes), `Spec/PrefixDesc.lean` (descriptions, RFC 7932).
-/
namespace Jxl
open Spec

/-- **C10**, table. For all lengths listed in non-decreasing order (0 = unused) that fill the code space exactly, building
the table succeeds, and wherever a canonical code word stands in a stream (with at least the table's width of bits left)
looking it up returns its symbol and consumes exactly the word. -/
theorem C10_table (b : Nat) (hb : b ≤ 31) (lens : List Nat) (syms : List Int) (hlen : lens.length = syms.length)
    (hle : ∀ l ∈ lens, l ≤ b) (hsort : (lens.filter (· ≠ 0)).Pairwise (· ≤ ·)) (hfull : KraftFull b (lens.filter (· ≠ 0))) :
    ∃ t, newVLC b (lens.map Int.ofNat) syms = .ok t ∧
      ∀ (k : Nat) w sym, (canonicalWords (lens.filter (· ≠ 0)))[k]? = some w →
        (((lens.zip syms).filter (·.1 ≠ 0)).map (·.2))[k]? = some sym →
        ∀ s p, AtBit s p → w <+: bitsFrom s.data p → p + b ≤ 8 * s.data.length →
          ∃ s', getVLC t s = (.ok sym, s') ∧ AtBit s' (p + w.length) ∧ s'.data = s.data := by
  have e1 : lens.map Int.ofNat = (lens.zip syms).map fun e => (e.1 : Int) := by
    have : (lens.zip syms).map (·.1) = lens := List.map_fst_zip (by omega)
    conv => lhs; rw [← this, List.map_map]
    rfl
  have e2 : syms = (lens.zip syms).map (·.2) := (List.map_snd_zip (by omega)).symm
  have e3 : (usedEntries (lens.zip syms)).map (·.1) = lens.filter (· ≠ 0) := by
    have : (lens.zip syms).map (·.1) = lens := List.map_fst_zip (by omega)
    conv => rhs; rw [← this, List.filter_map]
    rfl
  obtain ⟨t, h1, h2, h3⟩ := newVLC_words b hb (lens.zip syms)
    (fun e he => hle e.1 (List.of_mem_zip (a := e.1) (b := e.2) he).1) (by rw [e3]; exact hsort) (by rw [e3]; exact hfull)
  rw [← e1, ← e2] at h1
  refine ⟨t, h1, ?_⟩
  intro k w sym hw hs s p hat hp hlen'
  rw [e3] at h3
  have hs' : ((usedEntries (lens.zip syms)).map (·.2))[k]? = some sym := hs
  rw [List.getElem?_map] at hs'
  cases hk : (usedEntries (lens.zip syms))[k]? with
  | none => rw [hk] at hs'; simp at hs'
  | some e =>
    obtain ⟨hkl, hke⟩ := List.getElem?_eq_some_iff.1 hk
    rw [hk] at hs'
    have hes : e.2 = sym := by simpa using hs'
    have hhas := h3 k hkl w hw
    rw [hke, hes] at hhas
    obtain ⟨g1, g2, g3⟩ := hhas
    exact getVLC_has ⟨g1, g2, g3⟩ (b - w.length) (by omega) s p hat hp (by omega)

example : KraftFull 3 ([1, 0, 2, 3, 3].filter (· ≠ 0)) ∧ ([1, 0, 2, 3, 3].filter (· ≠ 0)).Pairwise (· ≤ ·) ∧
    canonicalWords [1, 2, 3, 3] = [[false], [true, false], [true, true, false], [true, true, true]] := by
  refine ⟨by unfold KraftFull; decide, by decide, by decide⟩

/-- **C10**, rejection. Lengths that do not fill the code space exactly, whether too much or too little, are rejected with
an error (for every order of listing). -/
theorem C10_reject (b : Nat) (lens : List Nat) (syms : List Int) (hlen : lens.length = syms.length)
    (hle : ∀ l ∈ lens, l ≤ 32) (hbad : ¬ KraftFull 32 (lens.filter (· ≠ 0))) :
    newVLC b (lens.map Int.ofNat) syms = .err := by
  have e1 : lens.map Int.ofNat = (lens.zip syms).map fun e => (e.1 : Int) := by
    have : (lens.zip syms).map (·.1) = lens := List.map_fst_zip (by omega)
    conv => lhs; rw [← this, List.map_map]
    rfl
  have e3 : (usedEntries (lens.zip syms)).map (·.1) = lens.filter (· ≠ 0) := by
    have : (lens.zip syms).map (·.1) = lens := List.map_fst_zip (by omega)
    conv => rhs; rw [← this, List.filter_map]
    rfl
  rw [e1]
  apply newVLC_reject b (lens.zip syms) syms (fun e he => hle e.1 (List.of_mem_zip (a := e.1) (b := e.2) he).1)
  · intro k hk
    simp only [List.length_zip] at hk
    rw [if_pos (by omega)]
    apply idx_nat
    simp [show k < syms.length by omega]
  · rw [e3]; exact hbad

example : ¬ KraftFull 32 ([1, 1, 1].filter (· ≠ 0)) ∧ ¬ KraftFull 32 ([1, 2].filter (· ≠ 0)) := by
  constructor <;> (unfold KraftFull; decide)

/-- **C10**, nothing is left over: the canonical words of lengths that fill the code space leave no bit string
undecodable. -/
theorem C10_complete (b : Nat) (es : List (Nat × Int)) (hle : ∀ e ∈ es, e.1 ≤ b) (hsort : (es.map (·.1)).Pairwise (· ≤ ·))
    (hfull : KraftFull b (es.map (·.1))) (x : List Bool) (hx : x.length = b) :
    ∃ (k : Nat) (w : List Bool), (canonicalWords (es.map (·.1)))[k]? = some w ∧ w <+: x := by
  have hend : spaceEnd b 0 es = 2 ^ b := by rw [spaceEnd_eq, hfull, Nat.zero_add]
  have hbx : bitsOf b (leVal x) = x := by rw [← hx]; exact bitsOf_leVal x
  have hfind : ∀ (n : Nat), n ≤ es.length → msb b (leVal x) < spaceEnd b 0 (es.take n) →
      ∃ k, k < n ∧ spaceEnd b 0 (es.take k) ≤ msb b (leVal x) ∧ msb b (leVal x) < spaceEnd b 0 (es.take (k + 1)) := by
    intro n
    induction n with
    | zero => intro _ h; simp [spaceEnd] at h
    | succ n ih =>
      intro hn h
      by_cases hc : msb b (leVal x) < spaceEnd b 0 (es.take n)
      · obtain ⟨k, h1, h2⟩ := ih (by omega) hc
        exact ⟨k, by omega, h2⟩
      · exact ⟨n, by omega, by omega, h⟩
  obtain ⟨k, hk, h1, h2⟩ := hfind es.length (Nat.le_refl _) (by
    rw [List.take_of_length_le (Nat.le_refl _), hend]; exact msb_lt b _)
  obtain ⟨c, g1, g2, g3, g4⟩ := canonicalWords_get b es hle hsort (by omega) k hk
  refine ⟨k, _, g1, ?_⟩
  rw [← hbx, codeWord_prefix_iff b _ _ c (hle _ (List.getElem_mem hk)) g2]
  omega

example : ∃ (k : Nat) (w : List Bool), (canonicalWords ([(1, 7), (2, 5), (2, 6)].map (·.1)))[k]? = some w ∧ w <+: [true, false] := by
  refine ⟨1, [true, false], by decide, by decide⟩

/-- **C10**, the stream format. For every list of code lengths `L` (one per symbol, in any order) that fills the code
space, and every valid description of it (RFC 7932: code-length code, repeats, zero runs, early stop), reading the
description yields a distribution that decodes the canonical word (by length, then symbol) of every symbol to that symbol,
consuming exactly the word. `_partial`: the stream must go on for 15 more bits after what is read (see C11); the alphabet
has more than one symbol, as in every stream with a description. -/
theorem C10_described_code_partial (d : PrefixDesc) (word : Nat → List Bool) (L : List Nat) (hd : d.Valid word L)
    (hA : L.length ≠ 1) :
    ∃ t, ReadsPad 15 (newPrefixDist L.length) (bitsOf 2 d.hskip ++ d.bits word) (.table t) ∧
      ∀ j w, IsCodeWord 16 L j w → L[j]? = some w.length ∧ ReadsPad 15 (PrefixDist.table t).readSymbol w (j : Int) := by
  obtain ⟨t, h1, h2, h3⟩ := populateComplex_spec d word L hd
  refine ⟨t, ?_, ?_⟩
  · unfold newPrefixDist
    rw [if_neg hA]
    have hh : d.hskip < 4 ∧ d.hskip ≠ 1 := by rcases hd.hskip with h | h | h <;> omega
    apply ReadsPad.bind ((reads_bitsOf 2 d.hskip (by omega) (by omega)).pad 15)
    rw [if_neg hh.2]
    refine (ReadsPad.bind h1 (e2 := []) ?_).congr (by simp) rfl
    exact ReadsPad.pure 15 _
  · intro j w hw
    obtain ⟨g1, g2⟩ := h3 j w hw
    exact ⟨g2, getVLC_has g1 15 (by omega)⟩

/-- A description: symbols 0..3 with lengths 2, 1, 3, 3; the code-length code has words for 1, 2 and 3. -/
def exampleDesc : PrefixDesc :=
  { hskip := 0, level1 := [0, 2, 2, 1, 0, 0, 0, 0, 0, 0, 0, 0, 0, 0, 0, 0, 0, 0], cmds := [.lit 2, .lit 1, .lit 3, .lit 3] }

def exampleWord : Nat → List Bool
  | 1 => [true, false]
  | 2 => [true, true]
  | _ => [false]

example : exampleDesc.Valid exampleWord [2, 1, 3, 3, 0] where
  hskip := by decide
  len1 := by decide
  le1 := by decide
  skipped := by decide
  full1 := by decide
  words := by
    have h : ∀ c ∈ [2, 1, 3], level1Word exampleDesc.level1 c (exampleWord c) := by
      intro c hc
      unfold level1Word
      rw [if_neg (by decide)]
      simp only [List.mem_cons, List.not_mem_nil, or_false] at hc
      rcases hc with rfl | rfl | rfl
      · exact ⟨2, by decide, by decide⟩
      · exact ⟨1, by decide, by decide⟩
      · exact ⟨0, by decide, by decide⟩
    intro c hc
    apply h
    simp only [exampleDesc, List.mem_cons, List.not_mem_nil, or_false] at hc
    rcases hc with rfl | rfl | rfl | rfl <;> simp [LenCmd.symbol]
  cmds := by
    intro c hc
    simp only [exampleDesc, List.mem_cons, List.not_mem_nil, or_false] at hc
    rcases hc with rfl | rfl | rfl | rfl <;> simp [LenCmd.Valid]
  full2 := by decide
  minimal := by decide
  expand := ⟨1, by decide⟩

/-- The words of a simple prefix code (RFC 7932 section 3.4): which symbol has which word, as a function of the symbols in
stream order and the tree selector. -/
inductive SimpleWord : List Nat → Bool → Nat → List Bool → Prop
  | two0 {a b} : SimpleWord [a, b] false (min a b) [false]
  | two1 {a b} : SimpleWord [a, b] false (max a b) [true]
  | three0 {a b c} : SimpleWord [a, b, c] false a [false]
  | three1 {a b c} : SimpleWord [a, b, c] false (min b c) [true, false]
  | three2 {a b c} : SimpleWord [a, b, c] false (max b c) [true, true]
  | tree0 {a b c d} : SimpleWord [a, b, c, d] true a [false]
  | tree1 {a b c d} : SimpleWord [a, b, c, d] true b [true, false]
  | tree2 {a b c d} : SimpleWord [a, b, c, d] true (min c d) [true, true, false]
  | tree3 {a b c d} : SimpleWord [a, b, c, d] true (max c d) [true, true, true]
  /-- four symbols of length two: the word is the rank -/
  | flat {a b c d w x y z} : [w, x, y, z].Perm [a, b, c, d] → w ≤ x → x ≤ y → y ≤ z →
      ∀ k (hk : k < 4), SimpleWord [a, b, c, d] false ([w, x, y, z][k]'hk) (codeWord 2 k)

theorem C10_simple_aux (syms : List Nat) (tree : Bool) (h2 : 2 ≤ syms.length) (h4 : syms.length ≤ 4) :
    ∃ t, newVLC (simpleShape (syms.map Int.ofNat) tree).1 (simpleShape (syms.map Int.ofNat) tree).2.1
        (simpleShape (syms.map Int.ofNat) tree).2.2 = .ok t ∧ t.bits ≤ 3 ∧
      ∀ sym w, SimpleWord syms tree sym w → t.Has w sym := by
  match syms, h2, h4 with
  | [a, b], _, _ =>
    have key : ∀ x y : Nat, ∃ t, newVLC 1 [1, 1, 0, 0] [(x : Int), (y : Int), 0, 0] = .ok t ∧ t.bits = 1 ∧ t.Has [false] x ∧ t.Has [true] y := by
      intro x y
      obtain ⟨t, t1, t2, t3⟩ := newVLC_words 1 (by decide) [(1, (x : Int)), (1, (y : Int)), (0, 0), (0, 0)]
        (by intro e he; simp at he; rcases he with rfl | rfl | rfl <;> simp) (by simp [usedEntries]) (by simp [usedEntries, KraftFull])
      refine ⟨t, t1, t2, ?_, ?_⟩
      · exact t3 0 (by simp [usedEntries]) [false] (by simp [usedEntries]; decide)
      · exact t3 1 (by simp [usedEntries]) [true] (by simp [usedEntries]; decide)
    by_cases hab : b < a
    · obtain ⟨t, t1, t2, t3, t4⟩ := key b a
      refine ⟨t, ?_, by omega, ?_⟩
      · have : simpleShape ([a, b].map Int.ofNat) tree = (1, [1, 1, 0, 0], [(b : Int), (a : Int), 0, 0]) := by
          simp [simpleShape, hab]
        rw [this]; exact t1
      · intro sym w h
        cases h with
        | two0 => rw [show min a b = b by omega]; exact t3
        | two1 => rw [show max a b = a by omega]; exact t4
    · obtain ⟨t, t1, t2, t3, t4⟩ := key a b
      refine ⟨t, ?_, by omega, ?_⟩
      · have : simpleShape ([a, b].map Int.ofNat) tree = (1, [1, 1, 0, 0], [(a : Int), (b : Int), 0, 0]) := by
          simp [simpleShape, hab]
        rw [this]; exact t1
      · intro sym w h
        cases h with
        | two0 => rw [show min a b = a by omega]; exact t3
        | two1 => rw [show max a b = b by omega]; exact t4
  | [a, b, c], _, _ =>
    have key : ∀ x y z : Nat, ∃ t, newVLC 2 [1, 2, 2, 0] [(x : Int), (y : Int), (z : Int), 0] = .ok t ∧ t.bits = 2 ∧ t.Has [false] x ∧ t.Has [true, false] y ∧ t.Has [true, true] z := by
      intro x y z
      obtain ⟨t, t1, t2, t3⟩ := newVLC_words 2 (by decide) [(1, (x : Int)), (2, (y : Int)), (2, (z : Int)), (0, 0)]
        (by intro e he; simp at he; rcases he with rfl | rfl | rfl | rfl <;> simp) (by simp [usedEntries]) (by simp [usedEntries, KraftFull])
      refine ⟨t, t1, t2, ?_, ?_, ?_⟩
      · exact t3 0 (by simp [usedEntries]) [false] (by simp [usedEntries]; decide)
      · exact t3 1 (by simp [usedEntries]) [true, false] (by simp [usedEntries]; decide)
      · exact t3 2 (by simp [usedEntries]) [true, true] (by simp [usedEntries]; decide)
    by_cases hab : c < b
    · obtain ⟨t, t1, t2, t3, t4, t5⟩ := key a c b
      refine ⟨t, ?_, by omega, ?_⟩
      · have : simpleShape ([a, b, c].map Int.ofNat) tree = (2, [1, 2, 2, 0], [(a : Int), (c : Int), (b : Int), 0]) := by
          simp [simpleShape, hab]
        rw [this]; exact t1
      · intro sym w h
        cases h with
        | three0 => exact t3
        | three1 => rw [show min b c = c by omega]; exact t4
        | three2 => rw [show max b c = b by omega]; exact t5
    · obtain ⟨t, t1, t2, t3, t4, t5⟩ := key a b c
      refine ⟨t, ?_, by omega, ?_⟩
      · have : simpleShape ([a, b, c].map Int.ofNat) tree = (2, [1, 2, 2, 0], [(a : Int), (b : Int), (c : Int), 0]) := by
          simp [simpleShape, hab]
        rw [this]; exact t1
      · intro sym w h
        cases h with
        | three0 => exact t3
        | three1 => rw [show min b c = b by omega]; exact t4
        | three2 => rw [show max b c = c by omega]; exact t5
  | [a, b, c, d], _, _ =>
    cases tree with
    | true =>
      have key : ∀ x y z u : Nat, ∃ t, newVLC 3 [1, 2, 3, 3] [(x : Int), (y : Int), (z : Int), (u : Int)] = .ok t ∧ t.bits = 3 ∧
          t.Has [false] x ∧ t.Has [true, false] y ∧ t.Has [true, true, false] z ∧ t.Has [true, true, true] u := by
        intro x y z u
        obtain ⟨t, t1, t2, t3⟩ := newVLC_words 3 (by decide) [(1, (x : Int)), (2, (y : Int)), (3, (z : Int)), (3, (u : Int))]
          (by intro e he; simp at he; rcases he with rfl | rfl | rfl | rfl <;> simp) (by simp [usedEntries]) (by simp [usedEntries, KraftFull])
        refine ⟨t, t1, t2, ?_, ?_, ?_, ?_⟩
        · exact t3 0 (by simp [usedEntries]) [false] (by simp [usedEntries]; decide)
        · exact t3 1 (by simp [usedEntries]) [true, false] (by simp [usedEntries]; decide)
        · exact t3 2 (by simp [usedEntries]) [true, true, false] (by simp [usedEntries]; decide)
        · exact t3 3 (by simp [usedEntries]) [true, true, true] (by simp [usedEntries]; decide)
      by_cases hab : d < c
      · obtain ⟨t, t1, t2, t3, t4, t5, t6⟩ := key a b d c
        refine ⟨t, ?_, by omega, ?_⟩
        · have : simpleShape ([a, b, c, d].map Int.ofNat) true = (3, [1, 2, 3, 3], [(a : Int), (b : Int), (d : Int), (c : Int)]) := by
            simp [simpleShape, hab]
          rw [this]; exact t1
        · intro sym w h
          cases h with
          | tree0 => exact t3
          | tree1 => exact t4
          | tree2 => rw [show min c d = d by omega]; exact t5
          | tree3 => rw [show max c d = c by omega]; exact t6
      · obtain ⟨t, t1, t2, t3, t4, t5, t6⟩ := key a b c d
        refine ⟨t, ?_, by omega, ?_⟩
        · have : simpleShape ([a, b, c, d].map Int.ofNat) true = (3, [1, 2, 3, 3], [(a : Int), (b : Int), (c : Int), (d : Int)]) := by
            simp [simpleShape, hab]
          rw [this]; exact t1
        · intro sym w h
          cases h with
          | tree0 => exact t3
          | tree1 => exact t4
          | tree2 => rw [show min c d = c by omega]; exact t5
          | tree3 => rw [show max c d = d by omega]; exact t6
    | false =>
      have key : ∀ x y z u : Int, ∃ t, newVLC 2 [2, 2, 2, 2] [x, y, z, u] = .ok t ∧ t.bits = 2 ∧
          ∀ k (hk : k < 4), t.Has (codeWord 2 k) ([x, y, z, u][k]'hk) := by
        intro x y z u
        obtain ⟨t, t1, t2, t3⟩ := newVLC_words 2 (by decide) [(2, x), (2, y), (2, z), (2, u)]
          (by intro e he; simp at he; rcases he with rfl | rfl | rfl | rfl <;> simp) (by simp [usedEntries]) (by simp [usedEntries, KraftFull])
        refine ⟨t, t1, t2, ?_⟩
        intro k hk
        have h : k = 0 ∨ k = 1 ∨ k = 2 ∨ k = 3 := by omega
        rcases h with rfl | rfl | rfl | rfl
        · exact t3 0 (by simp [usedEntries]) _ (by simp [usedEntries]; decide)
        · exact t3 1 (by simp [usedEntries]) _ (by simp [usedEntries]; decide)
        · exact t3 2 (by simp [usedEntries]) _ (by simp [usedEntries]; decide)
        · exact t3 3 (by simp [usedEntries]) _ (by simp [usedEntries]; decide)
      obtain ⟨hp, hs⟩ := sortInts_perm [(a : Int), (b : Int), (c : Int), (d : Int)]
      have hlen := hp.length_eq
      obtain ⟨x, y, z, u, hxyz⟩ : ∃ x y z u, sortInts [(a : Int), (b : Int), (c : Int), (d : Int)] = [x, y, z, u] := by
        match sortInts [(a : Int), (b : Int), (c : Int), (d : Int)], hlen with
        | [x, y, z, u], _ => exact ⟨x, y, z, u, rfl⟩
      rw [hxyz] at hp hs
      obtain ⟨t, t1, t2, t3⟩ := key x y z u
      refine ⟨t, ?_, by omega, ?_⟩
      · have : simpleShape ([a, b, c, d].map Int.ofNat) false = (2, [2, 2, 2, 2], [x, y, z, u]) := by
          simp [simpleShape, ← hxyz]
        rw [this]; exact t1
      · intro sym w h
        cases h with
        | @flat _ _ _ _ w' x' y' z' hperm h1 h2 h3 k hk =>
          have heq : [(w' : Int), (x' : Int), (y' : Int), (z' : Int)] = [x, y, z, u] := by
            apply List.Perm.eq_of_pairwise (le := fun a b : Int => a ≤ b)
            · intro a b _ _ h1 h2; omega
            · simp; omega
            · exact hs
            · exact (hperm.map Int.ofNat).trans hp.symm
          have := t3 k hk
          have hval : ([x, y, z, u][k]'hk) = ((([w', x', y', z'][k]'hk : Nat)) : Int) := by
            have : [x, y, z, u] = [w', x', y', z'].map Int.ofNat := heq.symm
            simp only [this, List.getElem_map]
            rfl
          rw [hval] at this
          exact this

/-- **C10**, simple codes. Reading a simple code with two to four symbols yields a distribution that decodes every
word of RFC 7932 section 3.4 to its symbol. `_partial`: as above, 3 more bits must follow. -/
theorem C10_simple_code_partial (alphabetSize : Nat) (hA : alphabetSize ≠ 1) (syms : List Nat) (tree : Bool)
    (h2 : 2 ≤ syms.length) (h4 : syms.length ≤ 4) (ht : tree = true → syms.length = 4)
    (hw : ceilLog1p (alphabetSize - 1) ≤ 64) (hsym : ∀ x ∈ syms, x < 2 ^ ceilLog1p (alphabetSize - 1)) :
    ∃ t, ReadsPad 3 (newPrefixDist alphabetSize)
        (bitsOf 2 1 ++ bitsOf 2 (syms.length - 1) ++ syms.flatMap (bitsOf (ceilLog1p (alphabetSize - 1))) ++
          (if syms.length = 4 then [tree] else [])) (.table t) ∧
      ∀ sym w, SimpleWord syms tree sym w → ReadsPad 3 (PrefixDist.table t).readSymbol w (sym : Int) := by
  obtain ⟨t, h1, hb, h3⟩ := C10_simple_aux syms tree h2 h4
  refine ⟨t, ?_, fun sym w h => getVLC_has (h3 sym w h) 3 (by omega)⟩
  unfold newPrefixDist
  rw [if_neg hA, List.append_assoc, List.append_assoc]
  apply ReadsPad.bind ((reads_bitsOf 2 1 (by omega) (by omega)).pad 3)
  rw [if_pos rfl]
  unfold populateSimplePrefix
  apply ReadsPad.bind ((reads_bitsOf 2 (syms.length - 1) (by omega) (by omega)).pad 3)
  rw [show syms.length - 1 + 1 = syms.length by omega]
  apply ReadsPad.bind ((readSymbols_spec _ hw syms hsym).pad 3)
  have htree : ReadsPad 3 (readTreeSelect syms.length) (if syms.length = 4 then [tree] else []) tree := by
    unfold readTreeSelect
    by_cases h : syms.length = 4
    · rw [if_pos h, if_pos h]; exact (reads_bool tree).pad 3
    · rw [if_neg h, if_neg h]
      have : tree = false := by cases tree with
        | false => rfl
        | true => exact absurd (ht rfl) h
      rw [this]
      exact ReadsPad.pure 3 false
  rw [← List.append_nil (if syms.length = 4 then [tree] else [])]
  refine ReadsPad.bind htree (e2 := []) ?_
  apply ReadsPad.lift
  match syms, h2 with
  | a :: b :: r, _ =>
    simp only [simpleTable, List.map_cons] at h1 ⊢
    rw [h1]; rfl

example : SimpleWord [5, 1] false 1 [false] ∧ SimpleWord [9, 5, 1] false 5 [true, true] :=
  ⟨SimpleWord.two0 (a := 5) (b := 1), SimpleWord.three2 (a := 9) (b := 5) (c := 1)⟩

/-- **C10**, one symbol: a code with one symbol reads no bits. -/
theorem C10_single (sym : Int) : Reads (PrefixDist.single sym).readSymbol [] sym := Reads.pure sym

/-- **C11** fails: with fewer bits left than the width of the table, every look-up fails, even when the stream ends
with a complete code word. For all tables, streams and positions. -/
theorem C11_fails_near_end (t : VLC) (hb : t.bits ≤ 31) (s : BR) (p : Nat) (hs : AtBit s p)
    (hend : 8 * s.data.length < p + t.bits) : (getVLC t s).1 = .err := getVLC_eof t hb s p hs hend

/-- **C11**, witness: the code with lengths 1, 2, 2; the stream ends with a complete code word of length one (`0`), and
reading it is an error. -/
theorem C11_violated : ∃ t w s p, newVLC 2 [1, 2, 2] [0, 1, 2] = .ok t ∧ (canonicalWords [1, 2, 2])[0]? = some w ∧
    AtBit s p ∧ w = bitsFrom s.data p ∧ (getVLC t s).1 = .err := by
  refine ⟨{ bits := 2, table := [(0, 1), (1, 2), (0, 1), (2, 2)] }, [false], ⟨[0], 1, 7, 7, 0⟩, 7, by decide, by decide, ?_, by decide, ?_⟩
  · exact Or.inr (by decide)
  · exact getVLC_eof _ (by decide) _ 7 (Or.inr (by decide)) (by decide)

/-- **C11**, what holds: a complete code word is decoded whenever at least the table's width of bits is left.
`_partial`: the property asks for it without this condition, which `C11_violated` shows to be false. -/
theorem C11_word_decoded_partial (b : Nat) (hb : b ≤ 31) (lens : List Nat) (syms : List Int) (hlen : lens.length = syms.length)
    (hle : ∀ l ∈ lens, l ≤ b) (hsort : (lens.filter (· ≠ 0)).Pairwise (· ≤ ·)) (hfull : KraftFull b (lens.filter (· ≠ 0)))
    (t : VLC) (ht : newVLC b (lens.map Int.ofNat) syms = .ok t) (k : Nat) (w : List Bool) (sym : Int)
    (hw : (canonicalWords (lens.filter (· ≠ 0)))[k]? = some w)
    (hsym : (((lens.zip syms).filter (·.1 ≠ 0)).map (·.2))[k]? = some sym) (s : BR) (p : Nat) (hs : AtBit s p)
    (hp : w <+: bitsFrom s.data p) :
    ((getVLC t s).1 = .ok sym ↔ p + b ≤ 8 * s.data.length) := by
  obtain ⟨t', h1, h2⟩ := C10_table b hb lens syms hlen hle hsort hfull
  rw [h1] at ht
  cases ht
  constructor
  · intro h
    by_cases hc : p + b ≤ 8 * s.data.length
    · exact hc
    · have hbits : t.bits = b := by
        have := h1
        unfold newVLC at this
        revert this
        rcases vlcCodes syms (lens.map Int.ofNat) 0 0 with ⟨codes, total⟩ | _ | _
        · simp only [Res.bind_ok]
          split
          · intro h; cases h
          · rcases vlcFillAll b codes (List.replicate (2 ^ b) (0, 0)) with tb | _ | _
            · simp only [Res.bind_ok]; intro h; cases h; rfl
            · intro h; cases h
            · intro h; cases h
        · intro h; cases h
        · intro h; cases h
      have := getVLC_eof t (by omega) s p hs (by omega)
      rw [h] at this; cases this
  · intro hc
    obtain ⟨s', e, _⟩ := h2 k w sym hw hsym s p hs hp hc
    rw [e]

example : AtBit (BR.new [0x12, 0x34]) 0 ∧ 0 + 2 ≤ 8 * (BR.new [0x12, 0x34]).data.length := by
  refine ⟨Or.inl ?_, ?_⟩ <;> decide

end Jxl

namespace Jxl
open Spec

/-- **C52** fails: a 6-byte stream on which reading the description of a prefix code (alphabet of 3 symbols, every code
length 5) crashes with an index out of range instead of returning an error. -/
theorem C52_violated : ((newPrefixDist 3) (BR.new [0x00, 0x10, 0, 0, 0, 0])).1 = .panic := by decide +kernel

/-- **C52** fails in a second way: a zero run that passes the end of the alphabet is accepted by the loop and crashes the
sort that follows. -/
theorem C52_violated_run : ((newPrefixDist 3) (BR.new [0x00, 0x40, 0, 0, 0x80, 0, 0, 0])).1 = .panic := by decide +kernel

/-- **C52**, what holds: reading the description of a simple code, or of an alphabet of one symbol, never crashes, on any
stream at any position. `_partial`: complex codes are excluded, where `C52_violated` shows crashes. -/
theorem C52_simple_never_crashes_partial (logAlphabetSize : Nat) (h64 : logAlphabetSize ≤ 64) (s : BR) (p : Nat) (hs : AtBit s p) :
    (populateSimplePrefix logAlphabetSize s).1 ≠ .panic := by
  have hsyms : ∀ n, ∃ d : Dec (List Int), Implements (readSymbols logAlphabetSize n) d ∧
      ∀ l v r, d l = some (v, r) → v.length = n ∧ ∀ x ∈ v, 0 ≤ x := by
    intro n
    induction n with
    | zero =>
      refine ⟨_, Implements.pure _, ?_⟩
      intro l v r h
      rw [Dec.pure_eq] at h
      cases h; simp
    | succ n ih =>
      obtain ⟨d, hd, hl⟩ := ih
      refine ⟨_, Implements.bind (implements_bits logAlphabetSize h64) (fun x => Implements.bind hd (fun rest => Implements.pure ((x : Int) :: rest))), ?_⟩
      intro l v r h
      rw [Dec.bind_eq] at h
      split at h
      · rename_i x r' _
        rw [Dec.bind_eq] at h
        split at h
        · rename_i rest r'' hr
          rw [Dec.pure_eq] at h
          cases h
          obtain ⟨g1, g2⟩ := hl _ _ _ hr
          refine ⟨by simp [g1], ?_⟩
          intro y hy
          rcases List.mem_cons.1 hy with rfl | hy
          · omega
          · exact g2 y hy
        · cases h
      · cases h
  have htree : ∀ n, ∃ d : Dec Bool, Implements (readTreeSelect n) d := by
    intro n
    unfold readTreeSelect
    split
    · exact ⟨_, implements_bool⟩
    · exact ⟨_, Implements.pure _⟩
  have htable : ∀ (v : List Int) (tr : Bool), 1 ≤ v.length → v.length ≤ 4 → (∀ x ∈ v, 0 ≤ x) → ∃ t, simpleTable v tr = .ok t := by
    intro v tr h1 h4 hpos
    by_cases h : v.length = 1
    · match v, h with
      | [a], _ => exact ⟨_, rfl⟩
    · obtain ⟨syms, rfl⟩ : ∃ syms : List Nat, v = syms.map Int.ofNat := by
        refine ⟨v.map Int.toNat, ?_⟩
        rw [List.map_map]
        conv => lhs; rw [← List.map_id v]
        apply List.map_congr_left
        intro x hx
        have := hpos x hx
        simp; omega
      rw [List.length_map] at h1 h4 h
      obtain ⟨t, e, _⟩ := C10_simple_aux syms tr (by omega) h4
      refine ⟨.table t, ?_⟩
      match syms, (show 2 ≤ syms.length by omega) with
      | a :: b :: r, _ =>
        simp only [simpleTable, List.map_cons] at e ⊢
        rw [e]; rfl
  have hb := implements_bits 2 (by omega) s p hs
  unfold populateSimplePrefix
  split at hb
  · rename_i n r hn
    obtain ⟨s1, p1, e1, a1, _, _⟩ := hb
    rw [Rd.bind_ok e1]
    have hn4 : n < 4 := by
      unfold decBits at hn
      split at hn
      · rename_i hlen
        cases hn
        have := leVal_lt (List.take 2 (bitsFrom s.data p))
        rw [List.length_take, Nat.min_eq_left hlen] at this
        exact this
      · cases hn
    obtain ⟨d, hd, hl⟩ := hsyms (n + 1)
    have hb := hd s1 p1 a1
    split at hb
    · rename_i v r' hv
      obtain ⟨s2, p2, e2, a2, _, _⟩ := hb
      rw [Rd.bind_ok e2]
      obtain ⟨dt, hdt⟩ := htree (n + 1)
      have hb := hdt s2 p2 a2
      split at hb
      · rename_i tr _ _
        obtain ⟨s3, p3, e3, a3, _, _⟩ := hb
        rw [Rd.bind_ok e3]
        obtain ⟨g1, g2⟩ := hl _ _ _ hv
        obtain ⟨t, ht⟩ := htable v tr (by omega) (by omega) g2
        rw [ht]
        simp [Rd.lift]
      · rw [Rd.bind_eq]
        rcases hm : readTreeSelect (n + 1) s2 with ⟨r, s⟩
        rw [hm] at hb; simp only at hb; subst hb; simp
    · rw [Rd.bind_eq]
      rcases hm : readSymbols logAlphabetSize (n + 1) s1 with ⟨r, s⟩
      rw [hm] at hb; simp only at hb; subst hb; simp
  · rw [Rd.bind_eq]
    rcases hm : readBits 2 s with ⟨r, s⟩
    rw [hm] at hb; simp only at hb; subst hb; simp

example : AtBit (BR.new [0x12, 0x34]) 0 := AtBit.new _

end Jxl
