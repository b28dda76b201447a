import Verif.Proofs.VarDCTLF
import Verif.Props.Orders

/-!
# Proofs: the orders and codes of a pass
-/
namespace Jxl
open Spec

theorem ctxFunc_eq (x : Nat) : ctxFunc x = lengthContext x := by
  unfold ctxFunc lengthContext
  rw [show ceilLog1p x = Nat.clog 2 (x + 1) from by
    have h := fun n => (C41_ceilLog1p x n)
    refine Nat.le_antisymm ((h _).2 ?_) ?_
    · have := Nat.le_pow_clog (b := 2) (by decide) (x + 1)
      omega
    · refine (Nat.clog_le_iff_le_pow (by decide)).2 ?_
      have := (h (ceilLog1p x)).1 (Nat.le_refl _)
      omega]
  omega

theorem lehmerCtxs_eq : ∀ (code : List Nat) (prev : Nat), lehmerCtxs prev code = (((prev :: code).map lengthContext).zip code).map Prod.fst
  | [], _ => rfl
  | c :: cs, prev => by
    rw [lehmerCtxs, lehmerCtxs_eq cs c, ctxFunc_eq]
    rfl

theorem isNatural_unique {H W : Nat} {a b : List Point} (ha : IsNatural H W a) (hb : IsNatural H W b) : a = b := by
  have hp : a.Perm b := (List.perm_ext_iff_of_nodup ha.visits.1 hb.visits.1).2 fun p => by rw [ha.visits.2, hb.visits.2]
  have ht : a.take (H / 8 * (W / 8)) = b.take (H / 8 * (W / 8)) := by
    apply List.ext_getElem?
    intro k
    by_cases hk : k < H / 8 * (W / 8)
    · have hw : 0 < W / 8 := by
        rcases Nat.eq_zero_or_pos (W / 8) with e | e
        · rw [e, Nat.mul_zero] at hk
          omega
        · exact e
      have h1 : k / (W / 8) < H / 8 := (Nat.div_lt_iff_lt_mul hw).2 hk
      have h2 := Nat.mod_lt k hw
      have h3 : k / (W / 8) * (W / 8) + k % (W / 8) = k := by
        rw [Nat.mul_comm]
        exact Nat.div_add_mod k _
      have e1 := ha.corner _ _ h1 h2
      have e2 := hb.corner _ _ h1 h2
      rw [h3] at e1 e2
      rw [List.getElem?_take_of_lt hk, List.getElem?_take_of_lt hk, e1, e2]
    · rw [List.getElem?_take_eq_none (by omega), List.getElem?_take_eq_none (by omega)]
  have hd : a.drop (H / 8 * (W / 8)) = b.drop (H / 8 * (W / 8)) := by
    refine List.Perm.eq_of_pairwise (le := Before H W) ?_ ha.rest hb.rest ?_
    · intro p q _ _ h1 h2
      unfold Before at h1 h2
      exfalso
      rcases h1 with h1 | ⟨h1, h3⟩
      · omega
      · rcases h2 with h2 | ⟨h2, h4⟩
        · omega
        · rw [h1] at h3
          split at h3
          · rw [if_pos (by assumption)] at h4
            omega
          · rw [if_neg (by assumption)] at h4
            omega
    · have : (a.take (H / 8 * (W / 8)) ++ a.drop (H / 8 * (W / 8))).Perm (b.take (H / 8 * (W / 8)) ++ b.drop (H / 8 * (W / 8))) := by
        rw [List.take_append_drop, List.take_append_drop]
        exact hp
      rw [ht] at this
      exact (List.perm_append_left_iff _).1 this
  rw [← List.take_append_drop (H / 8 * (W / 8)) a, ← List.take_append_drop (H / 8 * (W / 8)) b, ht, hd]

/-- The numbers are delivered, and `es'` is what is left. -/
def Gives (es : ES) (s : BR) (out : List (Int × Nat)) (es' : ES) (s' : BR) : Prop :=
  ES.readSeq 0 (out.map Prod.fst) es s = (.ok (out.map fun o => Int.ofNat o.2, es'), s')

theorem Gives.split {es es' : ES} {s s' : BR} {a b : List (Int × Nat)} (h : Gives es s (a ++ b) es' s') : ∃ es1 s1, Gives es s a es1 s1 ∧ Gives es1 s1 b es' s' := by
  unfold Gives at *
  rw [List.map_append, List.map_append] at h
  obtain ⟨v1, v2, es1, s1, h3, l1, h1, h2⟩ := readSeq_split h
  obtain ⟨e1, e2⟩ := List.append_inj h3 (by rw [l1, List.length_map, List.length_map])
  rw [← e1] at h1
  rw [← e2] at h2
  exact ⟨es1, s1, h1, h2⟩

/-- One order. -/
theorem readOrder_ok {natural : List Point} (hlen : natural.length < 2 ^ 32) {used : Bool} {n : Nat} {p : List Nat} (hw : used = true → Writes natural.length (natural.length / 64) n p)
    {es es' : ES} {s s' : BR} (h : Gives es s (if used then permutationNumbers natural.length (natural.length / 64) n p else []) es' s') :
    readOrder natural used es s = (.ok (if used then p.map fun (i : Nat) => natural.getD i ⟨0, 0⟩ else natural, es'), s') := by
  unfold readOrder
  cases used with
  | false =>
    unfold Gives at h
    rw [if_neg (by decide)] at h
    simp only [List.map_nil, ES.readSeq, Rd.pure_eq] at h
    cases h
    rfl
  | true =>
    rw [if_pos rfl, if_pos rfl]
    rw [if_pos rfl] at h
    have W := hw rfl
    have hr := C17_roundtrip natural.length (natural.length / 64) n W.count hlen p W.perm W.fixed W.zeros es es' s s' (by
      unfold Gives permutationNumbers at h
      dsimp only at h
      rw [List.map_cons, List.map_cons (f := fun o : Int × Nat => Int.ofNat o.2)] at h
      rw [ctxFunc_eq, lehmerCtxs_eq]
      have e : ∀ (l : List Nat) (f : Nat → Int) (z : Nat), (((z :: l).map f).zip l).map (fun o => Int.ofNat o.2) = l.map Int.ofNat := by
        intro l f z
        rw [show (fun o : Int × Nat => Int.ofNat o.2) = Int.ofNat ∘ Prod.snd from rfl, ← List.map_map, List.map_snd_zip (by simp)]
      rw [e] at h
      exact h)
    rw [Rd.bind_ok hr]
    obtain ⟨o, h1, h2, h3⟩ := permuted_ok natural p (fun i hi => List.mem_range.1 (W.perm.mem_iff.1 hi))
    have eo : o = p.map fun (i : Nat) => natural.getD i ⟨0, 0⟩ := by
      apply List.ext_getElem?
      intro k
      rw [List.getElem?_map]
      cases hk : p[k]? with
      | none =>
        rw [Option.map_none, List.getElem?_eq_none_iff, h2]
        exact List.getElem?_eq_none_iff.1 hk
      | some i =>
        have hi : i < natural.length := List.mem_range.1 (W.perm.mem_iff.1 (List.mem_of_getElem? hk))
        rw [h3 k i hk, Option.map_some, List.getD_eq_getElem?_getD, List.getElem?_eq_getElem hi]
        rfl
    dsimp only
    rw [Rd.bind_ok (lift_ok h1 s'), eo]
    rfl

theorem readChannelOrders_ok {natural : List Point} (hlen : natural.length < 2 ^ 32) {used : Bool} {n : Nat → Nat} {p : Nat → List Nat} : ∀ (l : List Nat),
    (∀ c ∈ l, used = true → Writes natural.length (natural.length / 64) (n c) (p c)) → ∀ {es es' : ES} {s s' : BR},
    Gives es s (l.flatMap fun (c : Nat) => if used then permutationNumbers natural.length (natural.length / 64) (n c) (p c) else []) es' s' →
    readChannelOrders natural used l.length es s = (.ok (l.map fun (c : Nat) => if used then (p c).map fun (i : Nat) => natural.getD i ⟨0, 0⟩ else natural, es'), s')
  | [], _, es, es', s, s', h => by
    unfold Gives at h
    simp only [List.flatMap_nil, List.map_nil, ES.readSeq, Rd.pure_eq] at h
    cases h
    rfl
  | c :: cs, hw, es, es', s, s', h => by
    rw [List.flatMap_cons] at h
    obtain ⟨es1, s1, h1, h2⟩ := h.split
    rw [List.length_cons, readChannelOrders, Rd.bind_ok (readOrder_ok hlen (hw c List.mem_cons_self) h1)]
    dsimp only
    rw [Rd.bind_ok (readChannelOrders_ok hlen cs (fun c hc => hw c (List.mem_cons_of_mem _ hc)) h2)]
    rfl

theorem class_natural {b : Nat} (hb : b < 13) {natural : List Point} (hn : ∀ size, classSizes[b]? = some size → IsNatural size.1 size.2 natural) :
    ∃ tt, filterByOrderID (b : Int) = .ok tt ∧ naturalOrder tt = natural ∧ natural.length ≤ 65536 := by
  obtain ⟨tt, H, W, h1, h2, h3⟩ := class_dims ⟨b, hb⟩
  dsimp only at h1 h3
  have e : naturalOrder tt = natural := isNatural_unique (naturalOrder_natural h2) (hn _ h3)
  refine ⟨tt, h1, e, ?_⟩
  rw [← e, natural_length h2]
  have key : ∀ c : Fin 13, ∀ q, classSizes[c.1]? = some q → q.1 ≤ 256 ∧ q.2 ≤ 256 := by decide
  have := key ⟨b, hb⟩ _ h3
  dsimp only at this
  have : H * W ≤ 32 * 32 := Nat.mul_le_mul (by omega) (by omega)
  omega

theorem readOrders_ok {used : Nat} {natural : Nat → List Point} {n : Nat → Nat → Nat} {perm : Nat → Nat → List Nat} {orders : List (List (List Point))} (H : HasOrders used natural n perm orders) :
    ∀ (k b : Nat), b + k = 13 → ∀ {es es' : ES} {s s' : BR},
    Gives es s ((List.range' b k).flatMap fun (b : Nat) => (List.range 3).flatMap fun (c : Nat) =>
      if used.testBit b then permutationNumbers (natural b).length ((natural b).length / 64) (n b c) (perm b c) else []) es' s' →
    readOrders used k b es s = (.ok ((List.range' b k).map fun (b : Nat) => (List.range 3).map fun (c : Nat) =>
      if used.testBit b then (perm b c).map fun (i : Nat) => (natural b).getD i ⟨0, 0⟩ else natural b, es'), s')
  | 0, b, _, es, es', s, s', h => by
    unfold Gives at h
    simp only [List.range'_zero, List.flatMap_nil, List.map_nil, ES.readSeq, Rd.pure_eq] at h
    cases h
    rfl
  | k + 1, b, hb, es, es', s, s', h => by
    obtain ⟨tt, h1, h2, h3⟩ := class_natural (b := b) (by omega) (H.classes b)
    rw [List.range'_succ, List.flatMap_cons] at h
    obtain ⟨es1, s1, g1, g2⟩ := h.split
    rw [readOrders, Rd.bind_ok (lift_ok h1 s), h2]
    have := readChannelOrders_ok (by omega) (used := used.testBit b) (n := n b) (p := perm b) (List.range 3) (fun c hc hu => H.perms b c (by omega) (List.mem_range.1 hc) hu) g1
    rw [List.length_range] at this
    rw [Rd.bind_ok this]
    dsimp only
    rw [Rd.bind_ok (readOrders_ok H k (b + 1) (by omega) g2), List.range'_succ]
    rfl

theorem passAt_reads {data : List UInt8} {p q presets clusters : Nat} {orders : List (List (List Point))} {codes : ES} (hs : 495 * clusters * presets < 2147483648)
    (h : PassAt data p q presets clusters orders codes) : ∀ s : BR, s.data = data → AtBit s p → ∃ s' pass, readHFPass (presets : Int) (clusters : Int) s = (.ok pass, s') ∧ AtBit s' q ∧
      s'.data = data ∧ pass.order = orders ∧ pass.contextStream = codes := by
  obtain ⟨used, p1, p2, h1, ⟨natural, n, perm, H, hO⟩, h3⟩ := h
  intro s hd ha
  have hf := (implements_u32 (fun k => match k with | 0 => (0x5F, 0) | 1 => (0x13, 0) | 2 => (0, 0) | 3 => (0, 13)) (by decide)).follows
  obtain ⟨_, s1, e1, a1, d1, hv⟩ := Runs.dec hf h1 s ha hd
  rw [hv] at e1
  have e1 : readU32 0x5F 0 0x13 0 0 0 0 13 s = _ := e1
  have hctx : (i32 (i32 (495 * (presets : Int)) * (clusters : Int))).toNat = 495 * clusters * presets := by
    rcases Nat.eq_zero_or_pos clusters with e0 | e0
    · subst e0
      simp
      rfl
    · have hle : 495 * presets ≤ 495 * clusters * presets := Nat.mul_le_mul_right _ (by omega)
      rw [show (495 * (presets : Int)) = ((495 * presets : Nat) : Int) by push_cast; rfl, i32_ofNat (by omega),
        show ((495 * presets : Nat) : Int) * (clusters : Int) = ((495 * clusters * presets : Nat) : Int) by push_cast; ring, i32_ofNat hs]
      rfl
  unfold readHFPass
  rw [Rd.bind_ok e1, hctx]
  rcases hO with ⟨rfl, rfl⟩ | ⟨h0, es, p3, hes, hN⟩
  · rw [if_neg (by decide)]
    have ho := readOrders_ok H 13 0 rfl (es := noStream) (es' := noStream) (s := s1) (s' := s1) (by
      unfold Gives
      rfl)
    rw [Rd.bind_ok ho]
    obtain ⟨s2, e2, a2, d2⟩ := h3.load s1 d1 a1
    rw [Rd.bind_ok e2]
    refine ⟨s2, _, rfl, a2, d2, ?_, rfl⟩
    dsimp only
    rw [H.eq, List.range_eq_range' (n := 13)]
  · rw [if_pos h0]
    obtain ⟨s2, e2, a2, d2⟩ := hes.load s1 d1 a1
    obtain ⟨f1, f2, f3, -⟩ := load_fresh e2
    obtain ⟨es', s3, e3, a3, d3, v3⟩ := hN.read f1 f2 f3 d2 a2
    have hval : ∀ o ∈ (List.range 13).flatMap fun (b : Nat) => (List.range 3).flatMap fun (c : Nat) =>
        if used.testBit b then permutationNumbers (natural b).length ((natural b).length / 64) (n b c) (perm b c) else [], o.2 < 2147483648 := by
      intro o ho
      obtain ⟨b, hb, ho⟩ := List.mem_flatMap.1 ho
      obtain ⟨c, hc, ho⟩ := List.mem_flatMap.1 ho
      have hb := List.mem_range.1 hb
      have hc := List.mem_range.1 hc
      by_cases hu : used.testBit b = true
      · rw [if_pos hu] at ho
        have W := H.perms b c hb hc hu
        obtain ⟨tt, -, -, hl⟩ := class_natural hb (H.classes b)
        have hv := lehmerEncode_valid _ _ W.perm
        rw [List.length_range] at hv
        have := W.count
        unfold permutationNumbers at ho
        rcases List.mem_cons.1 ho with rfl | ho
        · dsimp only
          omega
        · have h1 := List.of_mem_zip (a := o.1) (b := o.2) ho
          have h2 := List.mem_of_mem_drop (List.mem_of_mem_take h1.2)
          obtain ⟨i, hi⟩ := List.mem_iff_getElem?.1 h2
          have := hv.2 i _ hi
          omega
      · rw [if_neg hu] at ho
        cases ho
    have hg : Gives es s2 ((List.range 13).flatMap fun (b : Nat) => (List.range 3).flatMap fun (c : Nat) =>
        if used.testBit b then permutationNumbers (natural b).length ((natural b).length / 64) (n b c) (perm b c) else []) es' s3 := by
      unfold Gives
      rw [e3]
      have : ∀ l : List (Int × Nat), (∀ o ∈ l, o.2 < 2147483648) → l.map (fun o => i32 o.2) = l.map (fun o => Int.ofNat o.2) := by
        intro l hl
        exact List.map_congr_left fun o ho => i32_ofNat (hl o ho)
      rw [this _ hval]
    rw [List.range_eq_range' (n := 13)] at hg
    rw [Rd.bind_ok e2, Rd.bind_ok (readOrders_ok H 13 0 rfl hg)]
    dsimp only
    rw [v3, if_pos rfl]
    obtain ⟨s4, e4, a4, d4⟩ := h3.load s3 d3 a3
    rw [Rd.bind_ok e4]
    refine ⟨s4, _, rfl, a4, d4, ?_, rfl⟩
    dsimp only
    rw [H.eq, List.range_eq_range' (n := 13)]

end Jxl
