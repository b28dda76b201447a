import Verif.Proofs.MATree
import Verif.Proofs.Cluster

/-!
# C19, C20: meta-adaptive trees
-/
namespace Jxl

/-- The node table describes one binary tree rooted at node 0: the children of an inner node occur after it, every other
node is the child of exactly one node, and the leaves carry the contexts 0, 1, ..., L-1 in order. -/
structure IsTreeTable (nodes : List MANode) (L : Nat) : Prop where
  root : 0 < nodes.length
  count : L = (nodes.length + 1) / 2 ∧ nodes.length % 2 = 1
  children : ∀ (i : Nat) (p v : Int) (l r : Nat), nodes[i]? = some (.inner p v l r) → i < l ∧ r = l + 1 ∧ r < nodes.length
  parent : ∀ (j : Nat), 0 < j → j < nodes.length →
    ∃ (i : Nat), (∃ (p v : Int) (l r : Nat), nodes[i]? = some (.inner p v l r) ∧ (j = l ∨ j = r)) ∧
      ∀ (i' : Nat), (∃ (p v : Int) (l r : Nat), nodes[i']? = some (.inner p v l r) ∧ (j = l ∨ j = r)) → i' = i
  contexts : nodes.filterMap (fun n => match n with | .leaf l => some l.context | .inner .. => none) = (List.range L).map Int.ofNat

/-- **C19**: whenever the nodes are read without error, from any stream, they form a binary tree. -/
theorem C19_table (es es' : ES) (s s' : BR) (nodes : List MANode)
    (h : maLoop (2 ^ 20 + 1) 1 0 [] es s = (.ok (nodes, es'), s')) : ∃ L, IsTreeTable nodes L := by
  obtain ⟨c, hi⟩ := maLoop_ok (2 ^ 20 + 1) 1 0 [] es MAInv.init s _ _ h
  have hc := hi.count
  have hx := hi.ctx
  dsimp only at hc hx hi
  refine ⟨c, ⟨by omega, by omega, fun i p v l r h => hi.children h, fun j h0 h1 => hi.parent h0 h1, ?_⟩⟩
  rw [← hi.leaves, tableLeaves, List.map_filterMap]
  congr 1
  funext n
  cases n <;> rfl

/-- **C19**: whenever a tree is read without error, linking the nodes did not fail, it has `L` leaves with the contexts
`0, …, L-1`, each once, the stream for the leaves has at least `L` distributions, and evaluating the tree always
reaches one of its leaves. -/
theorem C19_tree (s s' : BR) (t : MATree) (es : ES) (h : readMATree s = (.ok (t, es), s')) :
    ∃ L, 0 < L ∧ t.size = 2 * L - 1 ∧ t.leaves.length = L ∧ L ≤ es.clusterMap.length ∧
      (t.leaves.map MALeaf.context).Perm ((List.range L).map Int.ofNat) ∧
      ∀ f : Int → Res Int, (∀ p, ∃ x, f p = .ok x) → ∃ l ∈ t.leaves, t.walk f = .ok l := by
  have key : OnOk readMATree (fun r => ∃ L, 0 < L ∧ r.1.size = 2 * L - 1 ∧ r.1.leaves.length = L ∧ L ≤ r.2.clusterMap.length ∧
      (r.1.leaves.map MALeaf.context).Perm ((List.range L).map Int.ofNat)) := by
    unfold readMATree
    refine OnOk.bind (OnOk.trivial _) ?_
    intro es0 _
    refine OnOk.bind (maLoop_ok _ 1 0 [] es0 MAInv.init) ?_
    rintro r ⟨c, hi⟩
    split
    · have hload : OnOk (ES.load ((r.1.length + 1) / 2) false) (fun e => (r.1.length + 1) / 2 ≤ e.clusterMap.length) := by
        unfold ES.load loadWith
        split
        · exact OnOk.fail
        · refine OnOk.bind (OnOk.trivial _) ?_
          intro lz _
          refine OnOk.bind (readClusterMap_ok 2 _ _) ?_
          rintro ⟨cm, nc⟩ hcm
          refine OnOk.bind (OnOk.trivial _) ?_
          intro d _
          apply OnOk.pure
          have := hcm.1
          dsimp only [ES.mk'] at this ⊢
          rw [this]
          split <;> omega
      refine OnOk.bind hload ?_
      intro e he
      obtain ⟨t, h1, _, h2, h3⟩ := hi.tree
      refine OnOk.bind (OnOk.lift (Q := fun a => a = t) (by intro a ha; rw [h1] at ha; cases ha; rfl)) ?_
      rintro a rfl
      apply OnOk.pure
      have hc := hi.count
      have hl := h2.length_eq
      simp at hl
      exact ⟨_, by omega, by show a.size = _; omega, hl, he, h2⟩
    · exact OnOk.fail
  obtain ⟨L, h1, h2, h3, h4, h5⟩ := key s _ _ h
  exact ⟨L, h1, h2, h3, h4, h5, fun f hf => t.walk_leaf f hf⟩

/-- Linking the nodes that were read never crashes. -/
theorem C19_link (es es' : ES) (s s' : BR) (nodes : List MANode)
    (h : maLoop (2 ^ 20 + 1) 1 0 [] es s = (.ok (nodes, es'), s')) : ∃ t, linkTree nodes nodes.length 0 = .ok t := by
  obtain ⟨c, hi⟩ := maLoop_ok (2 ^ 20 + 1) 1 0 [] es MAInv.init s _ _ h
  obtain ⟨t, h1, _⟩ := hi.tree
  exact ⟨t, h1⟩

/-- A stream with the code `0 ↦ 0`, `1 ↦ 1` in every context. -/
def bitES : ES :=
  { usesLZ77 := false, minSymbol := 0, minLength := 0, lzLengthConfig := ⟨0, 0, 0⟩,
    clusterMap := [0, 0, 0, 0, 0, 0], dists := [.pre (.table ⟨1, [(0, 1), (1, 1)]⟩) ⟨4, 0, 0⟩],
    state := none, window := fun _ => 0, numToCopy := 0, copyPos := 0, numDecoded := 0 }

/-- The hypothesis of `C19_table` is met: a tree of one inner node and two leaves. -/
example : (match (maLoop (2 ^ 20 + 1) 1 0 [] bitES (BR.new [0b00001001, 0, 0, 0, 0])).1 with
    | .ok r => some r.1 | _ => none) =
    some [.inner 0 0 1 2, .leaf ⟨0, 1, 0, 1⟩, .leaf ⟨1, 0, 0, 1⟩] := by decide +kernel

/-! ## C20 -/

/-- **C20**: specialising a tree to a channel and a stream does not change the leaf found for any pixel. -/
theorem C20_compactify (t : MATree) (c s : Int) (f : Int → Res Int) (h0 : f 0 = .ok c) (h1 : f 1 = .ok s) :
    (t.compactify c s).walk f = t.walk f := by
  induction t with
  | leaf l => rfl
  | node p v a b iha ihb =>
    rw [MATree.compactify]
    split
    · rename_i hp
      subst hp
      rw [MATree.walk, h0]
      simp only [Res.bind_ok]
      split
      · exact iha
      · exact ihb
    · split
      · rename_i hp
        subst hp
        rw [MATree.walk, h1]
        simp only [Res.bind_ok]
        split
        · exact iha
        · exact ihb
      · rfl

/-- **C20**: nor does specialising it to a row as well. -/
theorem C20_compactifyWithY (t : MATree) (c s y : Int) (f : Int → Res Int) (h0 : f 0 = .ok c) (h1 : f 1 = .ok s) (h2 : f 2 = .ok y) :
    (t.compactifyWithY c s y).walk f = t.walk f := by
  induction t with
  | leaf l => rfl
  | node p v a b iha ihb =>
    rw [MATree.compactifyWithY]
    split
    · rename_i hp
      subst hp
      rw [MATree.walk, h0]
      simp only [Res.bind_ok]
      split
      · exact iha
      · exact ihb
    · split
      · rename_i hp
        subst hp
        rw [MATree.walk, h1]
        simp only [Res.bind_ok]
        split
        · exact iha
        · exact ihb
      · split
        · rename_i hp
          subst hp
          rw [MATree.walk, h2]
          simp only [Res.bind_ok]
          split
          · exact iha
          · exact ihb
        · rfl

/-- **C20**: the two steps of the decoder together. -/
theorem C20_refined (t : MATree) (c s y : Int) (f : Int → Res Int) (h0 : f 0 = .ok c) (h1 : f 1 = .ok s) (h2 : f 2 = .ok y) :
    ((t.compactify c s).compactifyWithY c s y).walk f = t.walk f := by
  rw [C20_compactifyWithY _ c s y f h0 h1 h2, C20_compactify t c s f h0 h1]

/-- **C20**: the leaves of a specialised tree are leaves of the tree, so nothing new can be selected. -/
theorem C20_leaves (t : MATree) (c s y : Int) : (t.compactifyWithY c s y).leaves ⊆ t.leaves ∧ (t.compactify c s).leaves ⊆ t.leaves := by
  induction t with
  | leaf l => exact ⟨fun _ h => h, fun _ h => h⟩
  | node p v a b iha ihb =>
    have ha : a.leaves ⊆ (MATree.node p v a b).leaves := by intro x hx; simp [MATree.leaves, hx]
    have hb : b.leaves ⊆ (MATree.node p v a b).leaves := by intro x hx; simp [MATree.leaves, hx]
    constructor
    · rw [MATree.compactifyWithY]
      repeat' split
      all_goals first
        | exact fun x hx => ha (iha.1 hx)
        | exact fun x hx => hb (ihb.1 hx)
        | exact fun x hx => hx
    · rw [MATree.compactify]
      repeat' split
      all_goals first
        | exact fun x hx => ha (iha.2 hx)
        | exact fun x hx => hb (ihb.2 hx)
        | exact fun x hx => hx

/-- A tree that tests channel, row and a pixel property. -/
example : (MATree.node 0 0 (.node 2 4 (.leaf ⟨0, 1, 0, 1⟩) (.leaf ⟨1, 5, 0, 1⟩)) (.node 9 0 (.leaf ⟨2, 0, 0, 1⟩) (.leaf ⟨3, 0, 0, 1⟩))).compactify 1 0 =
    .node 2 4 (.leaf ⟨0, 1, 0, 1⟩) (.leaf ⟨1, 5, 0, 1⟩) := by decide

/-- **C20**, the test for weighted prediction is sound: where it says no, property 15 is never asked for and no leaf with
predictor 6 is reached, so the weighted predictor's state, which is not allocated then, is never used. -/
theorem C20_useWP (t : MATree) (h : t.useWP = false) (f g : Int → Res Int) (hfg : ∀ p, p ≠ 15 → f p = g p) :
    t.walk f = t.walk g ∧ ∀ l, t.walk f = .ok l → l.predictor ≠ 6 := by
  induction t with
  | leaf l =>
    refine ⟨rfl, ?_⟩
    intro l' hl
    cases hl
    simpa [MATree.useWP] using h
  | node p v a b iha ihb =>
    simp [MATree.useWP] at h
    obtain ⟨⟨hp, ha⟩, hb⟩ := h
    have iha := iha ha
    have ihb := ihb hb
    rw [MATree.walk, MATree.walk, hfg p hp]
    cases g p with
    | err => exact ⟨rfl, by intro l hl; cases hl⟩
    | panic => exact ⟨rfl, by intro l hl; cases hl⟩
    | ok x =>
      simp only [Res.bind_ok]
      split
      · exact iha
      · exact ihb

end Jxl
