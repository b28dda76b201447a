import Verif.Props.CodeCoding
import Verif.Proofs.TreeCoding

/-!
# C83: decision trees are read as they are written
-/
namespace Jxl
open Spec

/-- **C83**. Any tree of at most 2^20 + 1 nodes, written at any position of any data with any codes, is read as it is, with the codes for its leaves, up to its
last bit. The stream for the leaves has not read anything yet. -/
theorem C83_tree (data : List UInt8) (p q : Nat) (t : MATree) (es : ES) (h : TreeAt data p q t es) (hsz : t.size ≤ 2 ^ 20 + 1) (s : BR) (hd : s.data = data)
    (hs : AtBit s p) :
    ∃ s', readMATree s = (.ok (t, es), s') ∧ AtBit s' q ∧ s'.data = data ∧ t.Usable ∧ es.state = none ∧ es.numToCopy = 0 ∧ es.numDecoded = 0 := by
  obtain ⟨s', h1, h2, h3, h4, h5, h6, h7, _⟩ := h.read hsz hd hs
  exact ⟨s', h1, h2, h3, h4, h5, h6, h7⟩

/-- A node that can be written. -/
def MATree.Writable : MATree → Prop
  | .leaf l => (0 ≤ l.predictor ∧ l.predictor ≤ 13) ∧ (-2 ^ 30 ≤ l.offset ∧ l.offset < 2 ^ 31) ∧ 1 ≤ l.multiplier ∧ l.multiplier < 2 ^ 31
  | .node p v a b => (0 ≤ p ∧ p + 1 < 2 ^ 31) ∧ (-2 ^ 30 ≤ v ∧ v < 2 ^ 31) ∧ a.Writable ∧ b.Writable

/-- The tree without the numbers of its leaves. -/
def MATree.unnumbered : MATree → MATree
  | .leaf l => .leaf { l with context := 0 }
  | .node p v a b => .node p v a.unnumbered b.unnumbered

/-- The sizes of a list of trees. -/
def totalSize (l : List MATree) : Nat := (l.map MATree.size).sum

theorem serial_all (n : Nat) : ∀ (l : List MATree) (c : Nat), totalSize l ≤ n → (∀ t ∈ l, t.Writable) →
    ∃ l' out, l'.map MATree.unnumbered = l.map MATree.unnumbered ∧ Serial l' c out := by
  induction n with
  | zero =>
    intro l c hn hw
    cases l with
    | nil => exact ⟨[], [], rfl, .nil c⟩
    | cons t r =>
      exfalso
      have : 1 ≤ t.size := by cases t <;> simp only [MATree.size] <;> omega
      unfold totalSize at hn
      rw [List.map_cons, List.sum_cons] at hn
      omega
  | succ n ih =>
    intro l c hn hw
    cases l with
    | nil => exact ⟨[], [], rfl, .nil c⟩
    | cons t r =>
      unfold totalSize at hn
      rw [List.map_cons, List.sum_cons] at hn
      have hr : ∀ t ∈ r, t.Writable := fun x hx => hw x (List.mem_cons_of_mem _ hx)
      have ht := hw t List.mem_cons_self
      cases t with
      | leaf m =>
        simp only [MATree.size] at hn
        obtain ⟨l', out, e1, e2⟩ := ih r (c + 1) (by unfold totalSize; omega) hr
        obtain ⟨hp, ho, hm1, hm2⟩ := ht
        refine ⟨.leaf { m with context := c } :: l', _, ?_, Serial.leaf (log := 0) (bits := (m.multiplier - 1).toNat) rfl hp ho (by omega) ?_ ?_ e2⟩
        · rw [List.map_cons, List.map_cons, e1]; rfl
        · show (m.multiplier - 1).toNat + 2 ≤ 2 ^ 31
          omega
        · show m.multiplier = _
          omega
      | node p v a b =>
        simp only [MATree.size] at hn
        obtain ⟨hp, hv, ha, hb⟩ := ht
        obtain ⟨l', out, e1, e2⟩ := ih (r ++ [a, b]) c (by
          unfold totalSize; rw [List.map_append, List.sum_append]; simp only [List.map_cons, List.map_nil, List.sum_cons, List.sum_nil]; omega) (by
          intro x hx
          rcases List.mem_append.mp hx with hx | hx
          · exact hr x hx
          · simp only [List.mem_cons, List.not_mem_nil, or_false] at hx
            rcases hx with rfl | rfl
            · exact ha
            · exact hb)
        rw [List.map_append] at e1
        obtain ⟨r', ab, rfl, e3, e4⟩ := List.map_eq_append_iff.mp e1
        obtain ⟨a', b', rfl⟩ : ∃ a' b', ab = [a', b'] := by
          have := congrArg List.length e4
          rw [List.length_map, List.length_map] at this
          exact List.length_eq_two.mp this
        · simp only [List.map_cons, List.map_nil, List.cons.injEq, and_true] at e4
          refine ⟨.node p v a' b' :: r', _, ?_, Serial.node hp hv e2⟩
          rw [List.map_cons, List.map_cons, e3]
          simp only [MATree.unnumbered, e4.1, e4.2]

/-- **C83**, every tree can be written: with its leaves numbered in the order in which they are written, any tree whose properties, values, predictors, offsets and
multipliers are in range has a list of numbers that stands for it. -/
theorem C83_every_tree (t : MATree) (h : t.Writable) : ∃ t' out, t'.unnumbered = t.unnumbered ∧ Serial [t'] 0 out := by
  obtain ⟨l, out, e1, e2⟩ := serial_all _ [t] 0 (Nat.le_refl _) (by simpa using h)
  obtain ⟨t', rfl⟩ : ∃ t', l = [t'] := by
    have := congrArg List.length e1
    rw [List.length_map, List.length_map] at this
    exact List.length_eq_one_iff.mp this
  exact ⟨t', out, by simpa using e1, e2⟩

/-- Codes that are described as in `C82_fixed` are described, whatever is allowed for coded maps. -/
theorem codesDeep_of (data : List UInt8) (p n depth : Nat) (allowed : Bool) (d : CodeDesc) (hd : d.Valid n) (ha : d.lz.isSome → allowed = true) (hp : d.bits <+: bitsFrom data p)
    (hq : p + d.bits.length + 15 ≤ 8 * data.length) :
    ∃ ds, CodesDeep data depth allowed n p (p + d.bits.length) (ES.mk' (d.map.map Int.ofNat) ds (d.lz.map Prod.fst)) ∧ d.codes.Decoded ds := by
  obtain ⟨ds, hm, h2⟩ := made_exists d.codes hd.codes
  refine ⟨ds, ?_, h2⟩
  have hpos := hd.pos
  have key : ∀ codes, CodesIn data (MapAt data codes) allowed n p (p + d.bits.length) (ES.mk' (d.map.map Int.ofNat) ds (d.lz.map Prod.fst)) := by
    intro codes
    unfold CodeDesc.bits at hp hq ⊢
    obtain ⟨b1, b2⟩ := prefix_append_split hp
    obtain ⟨b0, b1⟩ := prefix_append_split b1
    rw [bitsFrom_drop] at b1 b2
    rw [List.length_append, List.length_append] at hq ⊢
    rw [List.length_append] at b2
    refine ⟨hpos, d.lz, d.map, d.codes, ds, p + ((lzBits d.lz).length + (if d.map.length = 1 then [] else true :: (bitsOf 2 d.width ++ d.map.flatMap (bitsOf d.width)) : List Bool).length),
      hd.lz, ha, b0, hd.contexts, ?_, hd.codes, hd.all, hd.count, b2, by omega, by omega, hm, rfl⟩
    unfold MapAt
    by_cases h1 : d.map.length = 1
    · rw [if_pos h1, if_pos h1]
      exact ⟨hd.one h1, rfl⟩
    · rw [if_neg h1] at b1
      rw [if_neg h1, if_neg h1]
      refine Or.inl ⟨d.width, hd.width, fun c hc => (hd.entries c hc).1, b1, ?_⟩
      rw [List.length_cons, List.length_append, length_bitsOf]
      omega
  cases depth with
  | zero => exact key _
  | succ depth => exact key _

/-- Codes that are described as in `C82_fixed` are codes in the sense of `TreeAt`. -/
theorem codesAt_of (data : List UInt8) (p n : Nat) (d : CodeDesc) (hd : d.Valid n) (hp : d.bits <+: bitsFrom data p) (hq : p + d.bits.length + 15 ≤ 8 * data.length) :
    ∃ ds, CodesAt data p (p + d.bits.length) n (ES.mk' (d.map.map Int.ofNat) ds (d.lz.map Prod.fst)) ∧ d.codes.Decoded ds := codesDeep_of data p n 2 true d hd (fun _ => rfl) hp hq

/-! An example: the tree `property 1 > 1 ? (predictor 2, offset 1) : (predictor 0, multiplier 3)` in 102 bits. -/

/-- One code of three symbols for `n` contexts. -/
def treeCodes (n : Nat) : CodeDesc where
  lz := none
  width := 0
  map := List.replicate n 0
  codes := .pre [(.simple 17 [0, 2, 16] false, ⟨4, 1, 0⟩)]

theorem treeCodes_codes (n : Nat) : (treeCodes n).codes.Valid := by
  intro c hc
  simp only [List.mem_cons, List.not_mem_nil, or_false] at hc
  rcases hc with rfl
  exact ⟨⟨by decide, by decide, by decide, by decide, by decide, by decide⟩, by decide, by decide, by decide⟩

theorem treeCodes_valid6 : (treeCodes 6).Valid 6 where
  pos := by decide
  contexts := by decide
  width := by decide
  entries := by decide
  one := by decide
  all := by decide
  count := by decide
  codes := treeCodes_codes 6
  lz := by intro z hz; cases hz

theorem treeCodes_valid2 : (treeCodes 2).Valid 2 where
  pos := by decide
  contexts := by decide
  width := by decide
  entries := by decide
  one := by decide
  all := by decide
  count := by decide
  codes := treeCodes_codes 2
  lz := by intro z hz; cases hz

def codedTree : MATree := .node 1 1 (.leaf ⟨0, 2, 1, 1⟩) (.leaf ⟨1, 0, 0, 3⟩)

def codedTreeOut : List (Int × Nat) := [(1, 2), (0, 2), (1, 0), (2, 2), (3, 2), (4, 0), (5, 0), (1, 0), (2, 0), (3, 0), (4, 0), (5, 2)]

def codedTreeData : List UInt8 := [146, 66, 130, 4, 2, 150, 2, 146, 20, 18, 36, 16, 16, 0, 0]

theorem codedTree_serial : Serial [codedTree] 0 codedTreeOut := by
  refine Serial.node (p := 1) (v := 1) (q := []) (by decide) (by decide) ?_
  refine Serial.leaf (l := ⟨0, 2, 1, 1⟩) (log := 0) (bits := 0) rfl (by decide) (by decide) (by decide) (by decide) (by decide) ?_
  exact Serial.leaf (l := ⟨1, 0, 0, 3⟩) (log := 0) (bits := 2) rfl (by decide) (by decide) (by decide) (by decide) (by decide) (.nil 2)

/-- The words of the code. -/
def treeWord : Nat → List Bool
  | 0 => [false]
  | 2 => [true, false]
  | _ => [true, true]

/-- The numbers 0 and 2 are written with the code, whatever the contexts. -/
theorem treeNumbers (data : List UInt8) (p n : Nat) (ds : List Dist) (hdec : (treeCodes n).codes.Decoded ds) (mult : Int) (out : List (Int × Nat))
    (hlen : out.length < 2 ^ 31) (hout : ∀ o ∈ out, o.2 = 0 ∨ o.2 = 2) (hctx : ∀ o ∈ out, 0 ≤ o.1 ∧ o.1 < n) (hp : out.flatMap (fun o => treeWord o.2) <+: bitsFrom data p)
    (hq : p + (out.flatMap (fun o => treeWord o.2)).length + 15 ≤ 8 * data.length) :
    NumbersAt data p (p + (out.flatMap (fun o => treeWord o.2)).length) (ES.mk' ((treeCodes n).map.map Int.ofNat) ds none) mult out := by
  obtain ⟨d, rfl, x, rfl, hw⟩ : ∃ d, ds = [d] ∧ ∃ x, d = Dist.pre x ⟨4, 1, 0⟩ ∧ ∀ (s : Nat) (w : List Bool), SimpleWord [0, 2, 16] false s w → ReadsPad 15 x.readSymbol w (s : Int) := by
    cases hdec with
    | cons h1 h2 =>
      cases h2
      obtain ⟨x, e1, e2⟩ := h1
      exact ⟨_, rfl, x, e1, e2⟩
  have w0 := hw 0 [false] (SimpleWord.three0 (a := 0) (b := 2) (c := 16))
  have w2 := hw 2 [true, false] (SimpleWord.three1 (a := 0) (b := 2) (c := 16))
  have key : ∀ l : List (Int × Nat), (∀ o ∈ l, o.2 = 0 ∨ o.2 = 2) → ∀ acc k,
      expandLZ (l.map fun o => .lit o.2) acc = acc ++ l.map (fun o => i32 o.2) ∧
      LZValid ⟨fun _ => Dist.pre x ⟨4, 1, 0⟩, none⟩ mult (l.map fun o => .lit o.2) (l.map Prod.fst) k ∧
      (∀ i ∈ lzItems ⟨fun _ => Dist.pre x ⟨4, 1, 0⟩, none⟩ (l.map fun o => .lit o.2) (l.map Prod.fst), i.OK ⟨fun _ => treeWord, fun _ _ _ => 0, 15⟩) ∧
      streamBitsOf ⟨fun _ => treeWord, fun _ _ _ => 0, 15⟩ (lzItems ⟨fun _ => Dist.pre x ⟨4, 1, 0⟩, none⟩ (l.map fun o => .lit o.2) (l.map Prod.fst)) =
        l.flatMap (fun o => treeWord o.2) := by
    intro l
    induction l with
    | nil =>
      intro _ acc k
      exact ⟨by simp [expandLZ], rfl, (by intro i hi; cases hi), rfl⟩
    | cons o l ih =>
      intro hl acc k
      obtain ⟨c, v⟩ := o
      obtain ⟨a1, a2, a3, a4⟩ := ih (fun o ho => hl o (List.mem_cons_of_mem _ ho)) (acc ++ [i32 v]) (k + 1)
      have hv : v = 0 ∨ v = 2 := hl (c, v) List.mem_cons_self
      have ht : hybridToken ⟨4, 1, 0⟩ v = ⟨v, 0, 0⟩ := by rcases hv with rfl | rfl <;> rfl
      refine ⟨?_, ?_, ?_, ?_⟩
      · simp only [List.map_cons, expandLZ, a1, List.append_assoc, List.cons_append, List.nil_append]
      · exact ⟨by rcases hv with rfl | rfl <;> show _ < 2 ^ 32 <;> norm_num, (by show 1 + 0 ≤ 4 ∧ 4 ≤ 15; decide), fun z hz => (by cases hz), a2⟩
      · intro i hi
        simp only [List.map_cons, lzItems, valueItems, Dist.config, ht, List.cons_append, List.nil_append, List.mem_cons] at hi
        rcases hi with rfl | rfl | hi
        · rcases hv with rfl | rfl
          · exact w0
          · exact w2
        · trivial
        · exact a3 i hi
      · simp only [List.map_cons, lzItems, valueItems, Dist.config, extraBits, ht, List.cons_append, List.nil_append, streamBitsOf, a4, List.flatMap_cons]
        rfl
  obtain ⟨k1, k2, k3, k4⟩ := key out hout [] 0
  refine ⟨⟨fun _ => treeWord, fun _ _ _ => 0, 15⟩, ⟨fun _ => Dist.pre x ⟨4, 1, 0⟩, none⟩, out.map fun o => .lit o.2, ?_, hlen, by simpa using k1, ⟨?_, rfl⟩, k2, k3, ?_, ?_, ?_⟩
  · intro o ho
    rcases hout o ho with h | h <;> rw [h] <;> decide
  · intro c hc
    obtain ⟨o, ho, rfl⟩ := List.mem_map.mp hc
    obtain ⟨c1, c2⟩ := hctx o ho
    obtain ⟨j, hj⟩ := Int.eq_ofNat_of_zero_le c1
    rw [hj] at c2 ⊢
    have hi : idx ((List.replicate n 0).map Int.ofNat) (j : Int) = .ok 0 := by
      rw [List.map_replicate]
      refine idx_nat _ _ _ ?_
      rw [List.getElem?_replicate, if_pos (by omega)]
      rfl
    unfold ES.distOf
    have hl : ¬ ((ES.mk' ((treeCodes n).map.map Int.ofNat) [Dist.pre x ⟨4, 1, 0⟩] none).clusterMap.length : Int) ≤ (j : Int) := by
      show ¬ (((List.replicate n 0).map Int.ofNat).length : Int) ≤ (j : Int)
      rw [List.length_map, List.length_replicate]
      omega
    rw [if_neg hl]
    show (do let c ← idx ((List.replicate n 0).map Int.ofNat) (j : Int); if (([Dist.pre x ⟨4, 1, 0⟩] : List Dist).length : Int) ≤ c then Res.err else idx [Dist.pre x ⟨4, 1, 0⟩] c) = _
    rw [hi]
    rfl
  · rw [k4]; exact hp
  · rw [k4]
  · exact hq

/-- The hypotheses of `C83_tree` are met by the example. -/
theorem codedTree_at : ∃ es, TreeAt codedTreeData 0 101 codedTree es ∧ codedTree.size ≤ 2 ^ 20 + 1 := by
  obtain ⟨ds, h1, h2⟩ := codesAt_of codedTreeData 0 6 (treeCodes 6) treeCodes_valid6 (by decide +kernel) (by decide +kernel)
  have h3 := treeNumbers codedTreeData 42 6 ds h2 0 codedTreeOut (by decide) (by decide) (by decide) (by decide +kernel) (by decide +kernel)
  obtain ⟨ds', h4, h5⟩ := codesAt_of codedTreeData 59 2 (treeCodes 2) treeCodes_valid2 (by decide +kernel) (by decide +kernel)
  refine ⟨_, ⟨ES.mk' ((treeCodes 6).map.map Int.ofNat) ds none, 42, 59, codedTreeOut, ?_, codedTree_serial, ?_, h4⟩, by decide⟩
  · exact h1
  · exact h3

example : codedTree.Writable := by
  refine ⟨by decide, by decide, ⟨by decide, by decide, by decide, by decide⟩, ⟨by decide, by decide, by decide, by decide⟩⟩

end Jxl
