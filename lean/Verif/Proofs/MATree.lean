import Verif.Model.MATree
import Verif.Proofs.Permutation

namespace Jxl

def MANode.isInner : MANode → Bool
  | .inner .. => true
  | .leaf _ => false

/-- The number of inner nodes among the first `i`. -/
def innersBefore (nodes : List MANode) (i : Nat) : Nat := (nodes.take i).countP MANode.isInner

/-- The leaves of a node table, in order. -/
def tableLeaves (nodes : List MANode) : List MALeaf :=
  nodes.filterMap (fun n => match n with | .leaf l => some l | .inner .. => none)

structure MAInv (nodes : List MANode) (remaining contextId : Nat) : Prop where
  count : nodes.length + remaining = 2 * nodes.countP MANode.isInner + 1
  ctx : nodes.length = nodes.countP MANode.isInner + contextId
  leaves : (tableLeaves nodes).map MALeaf.context = (List.range contextId).map Int.ofNat
  inner : ∀ (i : Nat) (p v : Int) (l r : Nat), nodes[i]? = some (.inner p v l r) → l = 2 * innersBefore nodes i + 1 ∧ r = l + 1 ∧ 0 ≤ p
  pending : ∀ (i : Nat), i < nodes.length → i ≤ 2 * innersBefore nodes i

theorem innersBefore_append (nodes : List MANode) (m : List MANode) (i : Nat) (h : i ≤ nodes.length) :
    innersBefore (nodes ++ m) i = innersBefore nodes i := by
  unfold innersBefore
  rw [List.take_append_of_le_length h]

theorem innersBefore_length (nodes : List MANode) : innersBefore nodes nodes.length = nodes.countP MANode.isInner := by
  unfold innersBefore
  rw [List.take_length]

theorem MAInv.addInner {nodes : List MANode} {remaining ctx : Nat} (h : MAInv nodes (remaining + 1) ctx) (p v : Int) (hp : 0 ≤ p) :
    MAInv (nodes ++ [.inner p v (nodes.length + remaining + 1) (nodes.length + remaining + 1 + 1)]) (remaining + 2) ctx where
  count := by have := h.count; simp [MANode.isInner]; omega
  ctx := by have := h.ctx; simp [MANode.isInner]; omega
  leaves := by rw [← h.leaves]; simp [tableLeaves]
  inner := by
    intro i q w l r hi
    rw [List.getElem?_append] at hi
    split at hi
    · rename_i hlt
      rw [innersBefore_append _ _ _ (by omega)]
      exact h.inner i q w l r hi
    · rename_i hge
      have hi0 : i - nodes.length = 0 := by
        have := (List.getElem?_eq_some_iff.1 hi).1
        simp at this; omega
      rw [hi0] at hi
      simp at hi
      obtain ⟨rfl, rfl, rfl, rfl⟩ := hi
      have : i = nodes.length := by omega
      subst this
      rw [innersBefore_append _ _ _ (by omega), innersBefore_length]
      have := h.count
      refine ⟨by omega, by omega, hp⟩
  pending := by
    intro i hi
    simp at hi
    rcases Nat.lt_or_ge i nodes.length with hlt | hge
    · rw [innersBefore_append _ _ _ (by omega)]; exact h.pending i hlt
    · have : i = nodes.length := by omega
      subst this
      rw [innersBefore_append _ _ _ (by omega), innersBefore_length]
      have := h.count
      omega

theorem MAInv.addLeaf {nodes : List MANode} {remaining ctx : Nat} (h : MAInv nodes (remaining + 1) ctx) (lf : MALeaf) (hc : lf.context = ctx) :
    MAInv (nodes ++ [.leaf lf]) remaining (ctx + 1) where
  count := by have := h.count; simp [MANode.isInner]; omega
  ctx := by have := h.ctx; simp [MANode.isInner]; omega
  leaves := by
    have := h.leaves
    rw [List.range_succ, List.map_append, ← this]
    simp [tableLeaves, hc]
  inner := by
    intro i q w l r hi
    rw [List.getElem?_append] at hi
    split at hi
    · rename_i hlt
      rw [innersBefore_append _ _ _ (by omega)]
      exact h.inner i q w l r hi
    · have hi0 : i - nodes.length = 0 := by
        have := (List.getElem?_eq_some_iff.1 hi).1
        simp at this; omega
      rw [hi0] at hi
      simp at hi
  pending := by
    intro i hi
    simp at hi
    rcases Nat.lt_or_ge i nodes.length with hlt | hge
    · rw [innersBefore_append _ _ _ (by omega)]; exact h.pending i hlt
    · have : i = nodes.length := by omega
      subst this
      rw [innersBefore_append _ _ _ (by omega), innersBefore_length]
      have := h.count
      omega

theorem readLeaf_ok (ctx : Int) (es : ES) : OnOk (readLeaf ctx es) (fun r => r.1.context = ctx ∧ r.1.predictor ≤ 13) := by
  unfold readLeaf
  refine OnOk.bind (OnOk.trivial _) ?_
  intro p _
  split
  · exact OnOk.fail
  · rename_i hp
    refine OnOk.bind (OnOk.trivial _) ?_
    intro o _
    refine OnOk.bind (OnOk.trivial _) ?_
    intro l _
    split
    · exact OnOk.fail
    · refine OnOk.bind (OnOk.trivial _) ?_
      intro b _
      refine OnOk.bind (OnOk.trivial _) ?_
      intro lim _
      split
      · exact OnOk.fail
      · exact OnOk.pure ⟨rfl, by simpa using hp⟩

theorem maLoop_ok : ∀ (room remaining ctx : Nat) (nodes : List MANode) (es : ES), MAInv nodes remaining ctx →
    OnOk (maLoop room remaining ctx nodes es) (fun r => ∃ c, MAInv r.1 0 c) := by
  intro room
  induction room with
  | zero =>
    intro remaining ctx nodes es h
    cases remaining with
    | zero => rw [maLoop]; exact OnOk.pure ⟨ctx, h⟩
    | succ remaining => rw [maLoop]; exact OnOk.fail
  | succ room ih =>
    intro remaining ctx nodes es h
    cases remaining with
    | zero => rw [maLoop]; exact OnOk.pure ⟨ctx, h⟩
    | succ remaining =>
      rw [maLoop]
      refine OnOk.bind (OnOk.trivial _) ?_
      intro p _
      dsimp only
      split
      · rename_i hp
        refine OnOk.bind (OnOk.trivial _) ?_
        intro v _
        exact ih _ _ _ _ (h.addInner _ _ hp)
      · refine OnOk.bind (readLeaf_ok _ _) ?_
        intro l hl
        exact ih _ _ _ _ (h.addLeaf l.1 hl.1)

theorem MAInv.init : MAInv [] 1 0 where
  count := by simp
  ctx := by simp
  leaves := by simp [tableLeaves]
  inner := by intro i p v l r h; simp at h
  pending := by intro i h; simp at h

/-! ## Consequences of the invariant -/

theorem innersBefore_succ (nodes : List MANode) (i : Nat) (n : MANode) (h : nodes[i]? = some n) :
    innersBefore nodes (i + 1) = innersBefore nodes i + if n.isInner then 1 else 0 := by
  unfold innersBefore
  rw [List.take_add_one, h, List.countP_append]
  simp [List.countP_cons]

theorem innersBefore_mono (nodes : List MANode) (i j : Nat) (h : i ≤ j) : innersBefore nodes i ≤ innersBefore nodes j := by
  unfold innersBefore
  exact (List.take_sublist_take_left h).countP_le

theorem innersBefore_le_total (nodes : List MANode) (i : Nat) : innersBefore nodes i ≤ nodes.countP MANode.isInner := by
  unfold innersBefore
  exact (List.take_sublist _ _).countP_le

theorem exists_inner (nodes : List MANode) : ∀ (n k : Nat), k < innersBefore nodes n → ∃ (i : Nat) (p v : Int) (l r : Nat),
    i < n ∧ nodes[i]? = some (.inner p v l r) ∧ innersBefore nodes i = k := by
  intro n
  induction n with
  | zero => intro k h; simp [innersBefore] at h
  | succ n ih =>
    intro k h
    cases hn : nodes[n]? with
    | none =>
      have : innersBefore nodes (n + 1) = innersBefore nodes n := by
        unfold innersBefore
        rw [List.take_add_one, hn]; simp
      rw [this] at h
      obtain ⟨i, p, v, l, r, h1, h2, h3⟩ := ih k h
      exact ⟨i, p, v, l, r, by omega, h2, h3⟩
    | some m =>
      rw [innersBefore_succ nodes n m hn] at h
      rcases Nat.lt_or_ge k (innersBefore nodes n) with hlt | hge
      · obtain ⟨i, p, v, l, r, h1, h2, h3⟩ := ih k hlt
        exact ⟨i, p, v, l, r, by omega, h2, h3⟩
      · cases m with
        | leaf lf => simp [MANode.isInner] at h; omega
        | inner p v l r =>
          simp [MANode.isInner] at h
          exact ⟨n, p, v, l, r, by omega, hn, by omega⟩

theorem MAInv.children {nodes : List MANode} {c : Nat} (h : MAInv nodes 0 c) {i : Nat} {p v : Int} {l r : Nat}
    (hi : nodes[i]? = some (.inner p v l r)) : i < l ∧ r = l + 1 ∧ r < nodes.length := by
  obtain ⟨h1, h2, _⟩ := h.inner i p v l r hi
  have hlt := (List.getElem?_eq_some_iff.1 hi).1
  have hp := h.pending i hlt
  have hs := innersBefore_succ nodes i _ hi
  simp [MANode.isInner] at hs
  have hle := innersBefore_le_total nodes (i + 1)
  have := h.count
  omega

theorem MAInv.parent {nodes : List MANode} {c : Nat} (h : MAInv nodes 0 c) {j : Nat} (h0 : 0 < j) (hj : j < nodes.length) :
    ∃ (i : Nat), (∃ (p v : Int) (l r : Nat), nodes[i]? = some (.inner p v l r) ∧ (j = l ∨ j = r)) ∧
      ∀ (i' : Nat), (∃ (p v : Int) (l r : Nat), nodes[i']? = some (.inner p v l r) ∧ (j = l ∨ j = r)) → i' = i := by
  have hc := h.count
  obtain ⟨i, p, v, l, r, h1, h2, h3⟩ := exists_inner nodes nodes.length ((j - 1) / 2) (by rw [innersBefore_length]; omega)
  obtain ⟨h4, h5, _⟩ := h.inner i p v l r h2
  refine ⟨i, ⟨p, v, l, r, h2, by omega⟩, ?_⟩
  rintro i' ⟨p', v', l', r', h2', hj'⟩
  obtain ⟨h4', h5', _⟩ := h.inner i' p' v' l' r' h2'
  have e : innersBefore nodes i' = innersBefore nodes i := by omega
  have s1 := innersBefore_succ nodes i _ h2
  have s2 := innersBefore_succ nodes i' _ h2'
  simp [MANode.isInner] at s1 s2
  rcases Nat.lt_trichotomy i i' with hlt | heq | hgt
  · have := innersBefore_mono nodes (i + 1) i' (by omega); omega
  · exact heq.symm
  · have := innersBefore_mono nodes (i' + 1) i (by omega); omega

theorem MAInv.link {nodes : List MANode} {c : Nat} (h : MAInv nodes 0 c) : ∀ (m i : Nat), nodes.length - i ≤ m → i < nodes.length →
    ∃ t, ∀ (d : Nat), nodes.length - i ≤ d → linkTree nodes d i = .ok t := by
  intro m
  induction m with
  | zero => intro i h1 h2; omega
  | succ m ih =>
    intro i h1 h2
    cases hn : nodes[i]? with
    | none => rw [List.getElem?_eq_none_iff] at hn; omega
    | some n =>
      cases n with
      | leaf l =>
        refine ⟨.leaf l, ?_⟩
        intro d hd
        obtain ⟨d, rfl⟩ : ∃ e, d = e + 1 := ⟨d - 1, by omega⟩
        rw [linkTree, idx_of_getElem? _ _ _ hn]
        rfl
      | inner p v l r =>
        obtain ⟨c1, c2, c3⟩ := h.children hn
        obtain ⟨a, ha⟩ := ih l (by omega) (by omega)
        obtain ⟨b, hb⟩ := ih r (by omega) (by omega)
        refine ⟨.node p v a b, ?_⟩
        intro d hd
        obtain ⟨d, rfl⟩ : ∃ e, d = e + 1 := ⟨d - 1, by omega⟩
        rw [linkTree, idx_of_getElem? _ _ _ hn]
        simp only [Res.bind_ok]
        rw [ha d (by omega), hb d (by omega)]
        rfl

/-- The leaves below node `i` (none if linking fails). -/
def leavesAt (nodes : List MANode) (i : Nat) : List MALeaf :=
  match linkTree nodes nodes.length i with
  | .ok t => t.leaves
  | _ => []

theorem leavesAt_of {nodes : List MANode} {i : Nat} {t : MATree} (h : linkTree nodes nodes.length i = .ok t) : leavesAt nodes i = t.leaves := by
  unfold leavesAt; rw [h]

theorem MAInv.leavesAt_inner {nodes : List MANode} {c : Nat} (h : MAInv nodes 0 c) {i : Nat} {p v : Int} {l r : Nat}
    (hi : nodes[i]? = some (.inner p v l r)) : leavesAt nodes i = leavesAt nodes l ++ leavesAt nodes r := by
  obtain ⟨c1, c2, c3⟩ := h.children hi
  obtain ⟨a, ha⟩ := h.link nodes.length l (by omega) (by omega)
  obtain ⟨b, hb⟩ := h.link nodes.length r (by omega) (by omega)
  rw [leavesAt_of (ha _ (by omega)), leavesAt_of (hb _ (by omega))]
  have : linkTree nodes nodes.length i = .ok (.node p v a b) := by
    obtain ⟨d, hd⟩ : ∃ e, nodes.length = e + 1 := ⟨nodes.length - 1, by omega⟩
    rw [hd, linkTree, idx_of_getElem? _ _ _ hi]
    simp only [Res.bind_ok]
    rw [ha d (by omega), hb d (by omega)]
    rfl
  rw [leavesAt_of this, MATree.leaves]

theorem MAInv.leavesAt_leaf {nodes : List MANode} {i : Nat} {l : MALeaf}
    (hi : nodes[i]? = some (.leaf l)) : leavesAt nodes i = [l] := by
  have : linkTree nodes nodes.length i = .ok (.leaf l) := by
    have hlt := (List.getElem?_eq_some_iff.1 hi).1
    obtain ⟨d, hd⟩ : ∃ e, nodes.length = e + 1 := ⟨nodes.length - 1, by omega⟩
    rw [hd, linkTree, idx_of_getElem? _ _ _ hi]
    rfl
  rw [leavesAt_of this, MATree.leaves]

theorem MAInv.bfs {nodes : List MANode} {c : Nat} (h : MAInv nodes 0 c) : ∀ (n : Nat), n ≤ nodes.length →
    (leavesAt nodes 0).Perm (tableLeaves (nodes.take n) ++ (List.range' n (2 * innersBefore nodes n + 1 - n)).flatMap (leavesAt nodes)) := by
  intro n
  induction n with
  | zero => intro _; simp [innersBefore, tableLeaves]
  | succ n ih =>
    intro hn
    refine (ih (by omega)).trans ?_
    have hp := h.pending n (by omega)
    obtain ⟨k, hk⟩ : ∃ k, 2 * innersBefore nodes n + 1 - n = k + 1 := ⟨2 * innersBefore nodes n - n, by omega⟩
    rw [hk, List.range'_succ, List.flatMap_cons]
    cases hm : nodes[n]? with
    | none => rw [List.getElem?_eq_none_iff] at hm; omega
    | some m =>
      have hs := innersBefore_succ nodes n m hm
      have htake : nodes.take (n + 1) = nodes.take n ++ [m] := by rw [List.take_add_one, hm]; rfl
      rw [htake]
      cases m with
      | leaf l =>
        simp [MANode.isInner] at hs
        rw [hs, MAInv.leavesAt_leaf hm]
        have : 2 * innersBefore nodes n + 1 - (n + 1) = k := by omega
        rw [this]
        simp [tableLeaves]
      | inner p v l r =>
        simp [MANode.isInner] at hs
        obtain ⟨h4, h5, _⟩ := h.inner n p v l r hm
        rw [hs, h.leavesAt_inner hm]
        have e : 2 * (innersBefore nodes n + 1) + 1 - (n + 1) = k + 2 := by omega
        rw [e, ← List.range'_append_1, List.flatMap_append]
        have e2 : List.range' (n + 1 + k) 2 = [l, r] := by
          have : n + 1 + k = l := by omega
          rw [this, h5]; rfl
        rw [e2]
        have e3 : tableLeaves (nodes.take n ++ [.inner p v l r]) = tableLeaves (nodes.take n) := by simp [tableLeaves]
        rw [e3]
        refine List.Perm.append_left _ ?_
        simp only [List.flatMap_cons, List.flatMap_nil, List.append_nil]
        exact List.perm_append_comm

theorem MATree.leaves_size (t : MATree) : t.size + 1 = 2 * t.leaves.length ∧ 0 < t.leaves.length := by
  induction t with
  | leaf l => simp [MATree.size, MATree.leaves]
  | node p v a b iha ihb => simp [MATree.size, MATree.leaves]; omega

theorem MATree.walk_leaf (t : MATree) (f : Int → Res Int) (hf : ∀ p, ∃ x, f p = .ok x) : ∃ l ∈ t.leaves, t.walk f = .ok l := by
  induction t with
  | leaf l => exact ⟨l, by simp [MATree.leaves], rfl⟩
  | node p v a b iha ihb =>
    obtain ⟨x, hx⟩ := hf p
    obtain ⟨l, hl, hl2⟩ := iha
    obtain ⟨r, hr, hr2⟩ := ihb
    rw [MATree.walk, hx]
    simp only [Res.bind_ok, MATree.leaves]
    split
    · exact ⟨l, by simp [hl], hl2⟩
    · exact ⟨r, by simp [hr], hr2⟩

theorem MAInv.tree {nodes : List MANode} {c : Nat} (h : MAInv nodes 0 c) :
    ∃ t, linkTree nodes nodes.length 0 = .ok t ∧ t.leaves.Perm (tableLeaves nodes) ∧
      (t.leaves.map MALeaf.context).Perm ((List.range ((nodes.length + 1) / 2)).map Int.ofNat) ∧ t.size = nodes.length := by
  have hc := h.count
  have hx := h.ctx
  obtain ⟨t, ht⟩ := h.link nodes.length 0 (by omega) (by omega)
  have ht := ht nodes.length (by omega)
  have hb := h.bfs nodes.length (by omega)
  rw [leavesAt_of ht, List.take_length, innersBefore_length] at hb
  have e : 2 * nodes.countP MANode.isInner + 1 - nodes.length = 0 := by omega
  rw [e] at hb
  simp at hb
  have hctx : c = (nodes.length + 1) / 2 := by omega
  have hp := hb.map MALeaf.context
  rw [h.leaves, hctx] at hp
  refine ⟨t, ht, hb, hp, ?_⟩
  have := hp.length_eq
  simp at this
  have := t.leaves_size
  omega

end Jxl
