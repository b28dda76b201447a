import Verif.Proofs.CodesAt
import Verif.Proofs.MATree
import Verif.Props.Modular
import Verif.Props.MATree

namespace Jxl
open Spec

/-- Node `i` of the table is the root of the tree. -/
inductive Rep (nodes : List MANode) : Nat → MATree → Prop
  | leaf {i : Nat} {l : MALeaf} (h : nodes[i]? = some (.leaf l)) : Rep nodes i (.leaf l)
  | node {i : Nat} {p v : Int} {l r : Nat} {a b : MATree} (h : nodes[i]? = some (.inner p v l r)) (ha : Rep nodes l a) (hb : Rep nodes r b) : Rep nodes i (.node p v a b)

theorem idx_get {α : Type} {l : List α} {i : Nat} {a : α} (h : l[i]? = some a) : idx l (i : Int) = .ok a := by
  unfold idx
  rw [if_neg (by omega), Int.toNat_natCast, h]

theorem Rep.link {nodes : List MANode} {i : Nat} {t : MATree} (h : Rep nodes i t) : ∀ d, t.size ≤ d → linkTree nodes d i = .ok t := by
  induction h with
  | leaf h =>
    intro d hd
    cases d with
    | zero => rw [MATree.size] at hd; omega
    | succ d => rw [linkTree, idx_get h]; rfl
  | node h _ _ iha ihb =>
    intro d hd
    rw [MATree.size] at hd
    cases d with
    | zero => omega
    | succ d =>
      rw [linkTree, idx_get h, Res.bind_ok]
      dsimp only
      rw [iha d (by omega), Res.bind_ok, ihb d (by omega)]
      rfl

theorem unpack_coded (v : Int) (h : -2 ^ 30 ≤ v ∧ v < 2 ^ 31) : unpackSigned (toU32 (i32 (packSigned v : Nat))) = v := by
  obtain ⟨h1, h2⟩ := unpack_pack v (by omega) (by omega)
  have e : toU32 (i32 ((packSigned v : Nat) : Int)) = packSigned v := by
    unfold toU32 i32
    omega
  rw [e, h1]

theorem mulBits_ok {log bits : Nat} (hl : log ≤ 30) (hb : bits + 2 ≤ 2 ^ (31 - log)) :
    ∃ lim, mulBitsLimit (log : Int) = .ok lim ∧ ¬ lim < (bits : Int) ∧ leafMultiplier (bits : Int) (log : Int) = (bits + 1) * 2 ^ log := by
  have hpow : 2 ^ (31 - log) * 2 ^ log = 2147483648 := by
    rw [← Nat.pow_add, show 31 - log + log = 31 by omega]
  have hle : 2 ^ (31 - log) ≤ 2147483648 := by
    have := Nat.pow_le_pow_right (show 1 ≤ 2 by decide) (show 31 - log ≤ 31 by omega)
    simpa using this
  have h1 : i32 (31 - (log : Int)) = ((31 - log : Nat) : Int) := by unfold i32; omega
  refine ⟨2 ^ (31 - log) - 2, ?_, ?_, ?_⟩
  · unfold mulBitsLimit
    dsimp only
    rw [h1, if_neg (Int.not_lt.2 (Int.natCast_nonneg _)), Int.toNat_natCast]
    refine congrArg Res.ok ?_
    have h2 : ((2 : Int) ^ (31 - log)) = ((2 ^ (31 - log) : Nat) : Int) := by push_cast; rfl
    rw [h2]
    have h3 : 2 ≤ 2 ^ (31 - log) := by
      have := Nat.pow_le_pow_right (show 1 ≤ 2 by decide) (show 1 ≤ 31 - log by omega)
      simpa using this
    generalize 2 ^ (31 - log) = n at *
    unfold i32
    omega
  · have h2 : ((2 : Int) ^ (31 - log)) = ((2 ^ (31 - log) : Nat) : Int) := by push_cast; rfl
    rw [h2]
    omega
  · unfold leafMultiplier
    rw [if_neg (by omega), Int.toNat_natCast]
    have h3 : (bits + 1) * 2 ^ log < 2147483648 := by
      have h4 : (bits + 1) * 2 ^ log < 2 ^ (31 - log) * 2 ^ log := Nat.mul_lt_mul_of_pos_right (by omega) (Nat.two_pow_pos log)
      omega
    have h5 : i32 ((bits : Int) + 1) = bits + 1 := by
      unfold i32
      omega
    rw [h5]
    have h6 : ((bits : Int) + 1) * 2 ^ log = (((bits + 1) * 2 ^ log : Nat) : Int) := by push_cast; rfl
    rw [h6]
    unfold i32
    omega

theorem try_ok {es es' : ES} {ctx v : Int} {s s' : BR} (h : es.readSymbol ctx s = (.ok (v, es'), s')) : es.tryReadSymbol ctx s = (.ok (v, es'), s') := by
  unfold ES.tryReadSymbol
  rw [h]

theorem pow_log_le (log : Nat) : 2 ^ (31 - log) ≤ 2147483648 := by
  have := Nat.pow_le_pow_right (show 1 ≤ 2 by decide) (show 31 - log ≤ 31 by omega)
  simpa using this

theorem readLeaf_coded {l : MALeaf} {c log bits : Nat} (hc : l.context = c) (hp : 0 ≤ l.predictor ∧ l.predictor ≤ 13)
    (ho : -2 ^ 30 ≤ l.offset ∧ l.offset < 2 ^ 31) (hl : log ≤ 30) (hb : bits + 2 ≤ 2 ^ (31 - log)) (hm : l.multiplier = (bits + 1) * 2 ^ log)
    {es1 es2 es3 es4 es5 : ES} {s1 s2 s3 s4 s5 : BR} (b2 : es1.readSymbol 2 s1 = (.ok (i32 (l.predictor.toNat : Nat), es2), s2))
    (b3 : es2.readSymbol 3 s2 = (.ok (i32 (packSigned l.offset : Nat), es3), s3)) (b4 : es3.readSymbol 4 s3 = (.ok (i32 (log : Nat), es4), s4))
    (b5 : es4.readSymbol 5 s4 = (.ok (i32 (bits : Nat), es5), s5)) : readLeaf c es1 s1 = (.ok (l, es5), s5) := by
  obtain ⟨lim, m1, m2, m3⟩ := mulBits_ok hl hb
  have hle := pow_log_le log
  have hq : ((l.predictor.toNat : Nat) : Int) = l.predictor := Int.toNat_of_nonneg hp.1
  rw [hq, show i32 l.predictor = l.predictor by unfold i32; omega] at b2
  rw [show i32 (log : Int) = log by unfold i32; omega] at b4
  rw [show i32 (bits : Int) = bits by unfold i32; omega] at b5
  have c1 : ¬ 13 < l.predictor := by omega
  have c2 : ¬ 30 < (log : Int) := by omega
  unfold readLeaf
  rw [Rd.bind_ok b2]
  dsimp only
  rw [if_neg c1, Rd.bind_ok (try_ok b3), Rd.bind_ok b4]
  dsimp only
  rw [if_neg c2, Rd.bind_ok b5, Rd.bind_ok (lift_ok m1 s5)]
  dsimp only
  rw [if_neg m2, unpack_coded _ ho, m3, Rd.pure_eq, ← hm, ← hc]

/-- The number of nodes of the trees in a queue. -/
def sizes (q : List MATree) : Nat := (q.map MATree.size).sum

theorem maLoop_serial {q : List MATree} {c : Nat} {out : List (Int × Nat)} (h : Serial q c out) :
    ∀ (room : Nat) (nodes : List MANode) (es es' : ES) (s s' : BR), sizes q ≤ room →
    ES.readSeq 0 (out.map Prod.fst) es s = (.ok (out.map (fun o => i32 o.2), es'), s') →
    ∃ N, maLoop room q.length c nodes es s = (.ok (N, es'), s') ∧ N.length = nodes.length + sizes q ∧ (∀ (i : Nat) n, nodes[i]? = some n → N[i]? = some n) ∧
      ∀ (k : Nat) t, q[k]? = some t → Rep N (nodes.length + k) t := by
  induction h with
  | nil c =>
    intro room nodes es es' s s' _ hseq
    simp only [List.map_nil, ES.readSeq] at hseq
    rw [Rd.pure_eq] at hseq
    cases hseq
    refine ⟨nodes, ?_, by simp [sizes], fun _ _ h => h, fun k t h => by simp at h⟩
    simp only [List.length_nil]
    rw [maLoop]
    rfl
  | @leaf l q c log bits out hc hp ho hl hb hm _ ih =>
    intro room nodes es es' s s' hroom hseq
    have hsz : sizes (.leaf l :: q) = 1 + sizes q := by simp [sizes, MATree.size]
    obtain ⟨room, rfl⟩ : ∃ r, room = r + 1 := ⟨room - 1, by omega⟩
    simp only [List.map_cons] at hseq
    obtain ⟨v1, vs1, es1, s1, a1, b1, hseq⟩ := readSeq_cons hseq
    obtain ⟨rfl, rfl⟩ := List.cons.inj a1
    change ES.readSymbol _ _ _ = _ at b1
    obtain ⟨v2, vs2, es2, s2, a2, b2, hseq⟩ := readSeq_cons hseq
    obtain ⟨rfl, rfl⟩ := List.cons.inj a2
    change ES.readSymbol _ _ _ = _ at b2
    obtain ⟨v3, vs3, es3, s3, a3, b3, hseq⟩ := readSeq_cons hseq
    obtain ⟨rfl, rfl⟩ := List.cons.inj a3
    change ES.readSymbol _ _ _ = _ at b3
    obtain ⟨v4, vs4, es4, s4, a4, b4, hseq⟩ := readSeq_cons hseq
    obtain ⟨rfl, rfl⟩ := List.cons.inj a4
    change ES.readSymbol _ _ _ = _ at b4
    obtain ⟨v5, vs5, es5, s5, a5, b5, hseq⟩ := readSeq_cons hseq
    obtain ⟨rfl, rfl⟩ := List.cons.inj a5
    change ES.readSymbol _ _ _ = _ at b5
    obtain ⟨N, n1, n2, n3, n4⟩ := ih room (nodes ++ [.leaf l]) es5 es' s5 s' (by omega) hseq
    have hleaf : readLeaf c es1 s1 = (.ok (l, es5), s5) := readLeaf_coded hc hp ho hl hb hm b2 b3 b4 b5
    refine ⟨N, ?_, by rw [n2, hsz]; simp; omega, ?_, ?_⟩
    · rw [List.length_cons, maLoop, Rd.bind_ok b1]
      dsimp only
      rw [if_neg (by decide), Rd.bind_ok hleaf]
      exact n1
    · intro i n hn
      apply n3
      rw [List.getElem?_append_left (List.getElem?_eq_some_iff.1 hn).1]
      exact hn
    · intro k t hk
      cases k with
      | zero =>
        simp only [List.getElem?_cons_zero, Option.some.injEq] at hk
        subst hk
        exact .leaf (n3 _ _ (by simp))
      | succ k =>
        rw [List.getElem?_cons_succ] at hk
        have := n4 k t hk
        rw [List.length_append, List.length_singleton] at this
        rw [show nodes.length + (k + 1) = nodes.length + 1 + k by omega]
        exact this
  | @node p v a b q c out hp hv _ ih =>
    intro room nodes es es' s s' hroom hseq
    have hsz : sizes (.node p v a b :: q) = 1 + sizes (q ++ [a, b]) := by simp [sizes, MATree.size]; omega
    obtain ⟨room, rfl⟩ : ∃ r, room = r + 1 := ⟨room - 1, by omega⟩
    simp only [List.map_cons] at hseq
    obtain ⟨v1, vs1, es1, s1, a1, b1, hseq⟩ := readSeq_cons hseq
    obtain ⟨rfl, rfl⟩ := List.cons.inj a1
    change ES.readSymbol _ _ _ = _ at b1
    obtain ⟨v2, vs2, es2, s2, a2, b2, hseq⟩ := readSeq_cons hseq
    obtain ⟨rfl, rfl⟩ := List.cons.inj a2
    change ES.readSymbol _ _ _ = _ at b2
    obtain ⟨N, n1, n2, n3, n4⟩ := ih room (nodes ++ [.inner p v (nodes.length + q.length + 1) (nodes.length + q.length + 1 + 1)]) es2 es' s2 s' (by omega) hseq
    have hi1 : i32 (i32 (((p + 1).toNat : Nat) : Int) - 1) = p := by unfold i32; omega
    have hl2 : (q ++ [a, b]).length = q.length + 2 := by simp
    refine ⟨N, ?_, by rw [n2, hsz]; simp; omega, ?_, ?_⟩
    · rw [List.length_cons, maLoop, Rd.bind_ok b1]
      dsimp only
      rw [hi1, if_pos hp.1, Rd.bind_ok (try_ok b2)]
      dsimp only
      rw [unpack_coded _ hv]
      rw [hl2] at n1
      exact n1
    · intro i n hn
      apply n3
      rw [List.getElem?_append_left (List.getElem?_eq_some_iff.1 hn).1]
      exact hn
    · intro k t hk
      rw [List.length_append, List.length_singleton] at n4
      cases k with
      | zero =>
        simp only [List.getElem?_cons_zero, Option.some.injEq] at hk
        subst hk
        refine .node (n3 _ _ (List.getElem?_concat_length ..)) ?_ ?_
        · have := n4 q.length a (by simp)
          rw [show nodes.length + q.length + 1 = nodes.length + 1 + q.length by omega]
          exact this
        · have := n4 (q.length + 1) b (by rw [List.getElem?_append_right (by omega)]; simp)
          rw [show nodes.length + q.length + 1 + 1 = nodes.length + 1 + (q.length + 1) by omega]
          exact this
      | succ k =>
        rw [List.getElem?_cons_succ] at hk
        have := n4 k t (by rw [List.getElem?_append_left (List.getElem?_eq_some_iff.1 hk).1]; exact hk)
        rw [show nodes.length + (k + 1) = nodes.length + 1 + k by omega]
        exact this

theorem MATree.size_leaves (t : MATree) : t.size + 1 = 2 * t.leaves.length := by
  induction t with
  | leaf l => rfl
  | node p v a b iha ihb =>
    rw [MATree.size, MATree.leaves, List.length_append]
    omega

theorem maLoop_single {t : MATree} {out : List (Int × Nat)} (h : Serial [t] 0 out) (room : Nat) (es es' : ES) (s s' : BR) (hr : t.size ≤ room)
    (hseq : ES.readSeq 0 (out.map Prod.fst) es s = (.ok (out.map (fun o => i32 o.2), es'), s')) :
    ∃ N, maLoop room 1 0 [] es s = (.ok (N, es'), s') ∧ N.length = t.size ∧ linkTree N t.size 0 = .ok t := by
  obtain ⟨N, n1, n2, _, n4⟩ := maLoop_serial h room [] es es' s s' (by simpa [sizes] using hr) hseq
  simp only [sizes, List.map_cons, List.map_nil, List.sum_cons, List.sum_nil, List.length_nil, Nat.zero_add, Nat.add_zero] at n2
  exact ⟨N, n1, n2, (n4 0 t rfl).link t.size (le_refl _)⟩

theorem load_fresh {n : Nat} {b : Bool} {s s' : BR} {es : ES} (h : ES.load n b s = (.ok es, s')) : es.state = none ∧ es.numToCopy = 0 ∧ es.numDecoded = 0 ∧ es.fresh = es := by
  have key : OnOk (ES.load n b) (fun es => es.state = none ∧ es.numToCopy = 0 ∧ es.numDecoded = 0 ∧ es.fresh = es) := by
    unfold ES.load loadWith
    split
    · exact OnOk.fail
    · refine OnOk.bind (OnOk.trivial _) (fun lz _ => OnOk.bind (OnOk.trivial _) ?_)
      rintro ⟨cm, nc⟩ _
      refine OnOk.bind (OnOk.trivial _) (fun d _ => OnOk.pure ?_)
      exact ⟨rfl, rfl, rfl, rfl⟩
  exact key s _ _ h

theorem Serial.usable {q : List MATree} {c : Nat} {out : List (Int × Nat)} (h : Serial q c out) : ∀ t ∈ q, t.Usable := by
  induction h with
  | nil c => intro t ht; cases ht
  | leaf hc hp ho hl hb hm h ih =>
    intro t ht
    rcases List.mem_cons.1 ht with rfl | ht
    · exact hp
    · exact ih t ht
  | node hp hv h ih =>
    intro t ht
    rcases List.mem_cons.1 ht with rfl | ht
    · exact ⟨hp.1, ih _ (by simp), ih _ (by simp)⟩
    · exact ih t (by simp [ht])

theorem TreeAt.read {data : List UInt8} {p q : Nat} {t : MATree} {es : ES} (h : TreeAt data p q t es) (hsz : t.size ≤ 2 ^ 20 + 1) {s : BR} (hd : s.data = data) (hs : AtBit s p) :
    ∃ s', readMATree s = (.ok (t, es), s') ∧ AtBit s' q ∧ s'.data = data ∧ t.Usable ∧ es.state = none ∧ es.numToCopy = 0 ∧ es.numDecoded = 0 ∧ es.fresh = es := by
  obtain ⟨es0, p1, p2, out, h1, h2, h3, h4⟩ := h
  obtain ⟨s1, a1, a2, a3⟩ := h1.load s hd hs
  obtain ⟨f1, f2, f3, _⟩ := load_fresh a1
  obtain ⟨es1, s2, b1, b2, b3, b4⟩ := h3.read f1 f2 f3 a3 a2
  obtain ⟨N, n1, n2, n4⟩ := maLoop_single h2 (2 ^ 20 + 1) es0 es1 s1 s2 hsz b1
  have hl := t.size_leaves
  obtain ⟨s3, c1, c2, c3⟩ := h4.load s2 b3 b2
  obtain ⟨g1, g2, g3, g4⟩ := load_fresh c1
  refine ⟨s3, ?_, c2, c3, h2.usable t (by simp), g1, g2, g3, g4⟩
  unfold readMATree
  rw [Rd.bind_ok a1, Rd.bind_ok n1]
  dsimp only
  rw [if_pos b4, n2, show (t.size + 1) / 2 = t.leaves.length by omega, Rd.bind_ok c1]
  rw [Rd.bind_ok (lift_ok n4 s3)]
  rfl

end Jxl
