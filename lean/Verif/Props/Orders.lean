import Verif.Proofs.OrdersNatural

/-!
# C31: the orders of the coefficients
-/
namespace Jxl
open Spec

/-- The classes have the sizes the format gives them. -/
theorem class_dims : ∀ b : Fin 13, ∃ tt h w, filterByOrderID (b.1 : Nat) = .ok tt ∧ Dims tt h w ∧ classSizes[b.1]? = some (8 * h, 8 * w) := by
  have key : ∀ b : Fin 13, (match filterByOrderID (b.1 : Nat) with
    | .ok tt => decide (tt.pixelHeight = ((8 * (tt.pixelHeight.toNat / 8) : Nat) : Int) ∧ tt.pixelWidth = ((8 * (tt.pixelWidth.toNat / 8) : Nat) : Int) ∧
        0 < tt.pixelHeight.toNat / 8 ∧ 0 < tt.pixelWidth.toNat / 8 ∧ classSizes[b.1]? = some (8 * (tt.pixelHeight.toNat / 8), 8 * (tt.pixelWidth.toNat / 8)))
    | _ => false) = true := by decide
  intro b
  have := key b
  split at this
  · next tt e =>
    obtain ⟨h1, h2, h3, h4, h5⟩ := of_decide_eq_true this
    exact ⟨tt, _, _, e, ⟨h1, h2, h3, h4⟩, h5⟩
  · cases this

/-- **C31**: the natural order of each of the 13 classes is the one of the format: a rearrangement of the positions of the block with the low frequencies first, row by
row, and then the other positions by diagonals. -/
theorem C31_natural (b : Nat) (hb : b < 13) : ∃ tt H W, filterByOrderID (b : Int) = .ok tt ∧ classSizes[b]? = some (H, W) ∧ IsNatural H W (naturalOrder tt) := by
  obtain ⟨tt, h, w, h1, h2, h3⟩ := class_dims ⟨b, hb⟩
  exact ⟨tt, 8 * h, 8 * w, h1, h3, naturalOrder_natural h2⟩

/-! ## Orders read from the stream -/

theorem permuted_ok (natural : List Point) : ∀ (p : List Nat), (∀ i ∈ p, i < natural.length) → ∃ o, permuted natural p = .ok o ∧
    o.length = p.length ∧ ∀ (k i : Nat), p[k]? = some i → o[k]? = natural[i]?
  | [], _ => ⟨[], rfl, rfl, by simp⟩
  | i :: p, h => by
    obtain ⟨o, h1, h2, h3⟩ := permuted_ok natural p (fun j hj => h j (List.mem_cons_of_mem _ hj))
    have hi := h i List.mem_cons_self
    have e : idx natural (i : Int) = .ok natural[i] := by simp [idx, hi]
    refine ⟨natural[i] :: o, by rw [permuted, e, Res.bind_ok, h1, Res.bind_ok], by simp [h2], ?_⟩
    intro k j hk
    cases k with
    | zero =>
      simp only [List.getElem?_cons_zero, Option.some.injEq] at hk
      subst hk
      rw [List.getElem?_cons_zero, List.getElem?_eq_getElem hi]
    | succ k =>
      rw [List.getElem?_cons_succ] at hk ⊢
      exact h3 k j hk

theorem permuted_perm {natural : List Point} {p : List Nat} (hp : p.Perm (List.range natural.length)) : ∃ o, permuted natural p = .ok o ∧ o.Perm natural ∧
    ∀ (k i : Nat), p[k]? = some i → o[k]? = natural[i]? := by
  obtain ⟨o, h1, h2, h3⟩ := permuted_ok natural p (fun i hi => List.mem_range.1 (hp.mem_iff.1 hi))
  refine ⟨o, h1, ?_, h3⟩
  have ho : o = p.map (fun i => natural[i]?.getD ⟨0, 0⟩) := by
    apply List.ext_getElem?
    intro k
    rw [List.getElem?_map]
    cases hk : p[k]? with
    | none =>
      rw [Option.map_none, List.getElem?_eq_none_iff, h2]
      exact List.getElem?_eq_none_iff.1 hk
    | some i =>
      rw [h3 k i hk, Option.map_some]
      have hi : i < natural.length := List.mem_range.1 (hp.mem_iff.1 (List.mem_of_getElem? hk))
      rw [List.getElem?_eq_getElem hi]
      rfl
  rw [ho]
  refine (hp.map _).trans (List.Perm.of_eq ?_)
  apply List.ext_getElem?
  intro k
  rw [List.getElem?_map]
  by_cases hk : k < natural.length
  · rw [List.getElem?_range hk, Option.map_some, List.getElem?_eq_getElem hk]
    rfl
  · rw [List.getElem?_eq_none (by simpa using hk), List.getElem?_eq_none (by simpa using hk)]
    rfl

/-- What an order read from a stream is like. -/
def GoodOrder (tt : TransformType) (o : List Point) : Prop :=
  o.Perm (naturalOrder tt) ∧ ∀ k, k < (naturalOrder tt).length / 64 → o[k]? = (naturalOrder tt)[k]?

theorem readOrder_good (tt : TransformType) (hlen : (naturalOrder tt).length < 2 ^ 32) (used : Bool) (es : ES) :
    OnOk (readOrder (naturalOrder tt) used es) (fun r => GoodOrder tt r.1 ∧ (used = false → r.1 = naturalOrder tt)) := by
  unfold readOrder
  cases used with
  | false => exact OnOk.pure ⟨⟨List.Perm.refl _, fun _ _ => rfl⟩, fun _ => rfl⟩
  | true =>
    rw [if_pos rfl]
    refine OnOk.bind (P := fun (p : List Nat × ES) => p.1.Perm (List.range (naturalOrder tt).length) ∧ ∀ (i : Nat), i < (naturalOrder tt).length / 64 → p.1[i]? = some i) ?_ ?_
    · intro s a s' h
      obtain ⟨p, es'⟩ := a
      exact C17_permutation _ _ (Nat.div_le_self _ _) hlen _ _ _ _ _ h
    · rintro ⟨p, es'⟩ ⟨h1, h2⟩
      obtain ⟨o, e1, e2, e3⟩ := permuted_perm h1
      refine OnOk.bind (OnOk.lift (Q := fun a => a = o) ?_) ?_
      · intro a ha
        rw [e1] at ha
        cases ha; rfl
      · rintro a rfl
        refine OnOk.pure ⟨⟨e2, fun k hk => ?_⟩, by intro h; cases h⟩
        exact e3 k k (h2 k hk)

theorem readChannelOrders_good (tt : TransformType) (hlen : (naturalOrder tt).length < 2 ^ 32) (used : Bool) : ∀ (n : Nat) (es : ES),
    OnOk (readChannelOrders (naturalOrder tt) used n es) (fun r => r.1.length = n ∧ ∀ o ∈ r.1, GoodOrder tt o ∧ (used = false → o = naturalOrder tt))
  | 0, es => OnOk.pure ⟨rfl, by simp⟩
  | n + 1, es => by
    rw [readChannelOrders]
    refine OnOk.bind (readOrder_good tt hlen used es) ?_
    rintro ⟨o, es1⟩ ho
    refine OnOk.bind (readChannelOrders_good tt hlen used n es1) ?_
    rintro ⟨r, es2⟩ ⟨h1, h2⟩
    refine OnOk.pure ⟨by simp [h1], ?_⟩
    intro q hq
    rcases List.mem_cons.1 hq with rfl | hq
    · exact ho
    · exact h2 q hq

theorem readOrders_good (usedOrders : Nat) : ∀ (n b : Nat) (es : ES), n + b ≤ 13 →
    OnOk (readOrders usedOrders n b es) (fun r => r.1.length = n ∧ ∀ i, i < n → ∃ os tt H W, r.1[i]? = some os ∧ filterByOrderID ((b + i : Nat) : Int) = .ok tt ∧
      Dims tt H W ∧ classSizes[b + i]? = some (8 * H, 8 * W) ∧ os.length = 3 ∧
      ∀ o ∈ os, GoodOrder tt o ∧ (usedOrders.testBit (b + i) = false → o = naturalOrder tt))
  | 0, b, es, _ => OnOk.pure ⟨rfl, by omega⟩
  | n + 1, b, es, hb => by
    obtain ⟨tt, H, W, h1, h2, h3⟩ := class_dims ⟨b, by omega⟩
    dsimp only at h1 h3
    have hlen : (naturalOrder tt).length < 2 ^ 32 := by
      rw [natural_length h2]
      have key : ∀ c : Fin 13, ∀ q, classSizes[c.1]? = some q → q.1 ≤ 256 ∧ q.2 ≤ 256 := by decide
      have := key ⟨b, by omega⟩ _ h3
      dsimp only at this
      have : H * W ≤ 32 * 32 := Nat.mul_le_mul (by omega) (by omega)
      omega
    rw [readOrders]
    refine OnOk.bind (OnOk.lift (Q := fun a => a = tt) ?_) ?_
    · intro a ha
      rw [h1] at ha
      cases ha; rfl
    rintro a rfl
    refine OnOk.bind (readChannelOrders_good a hlen _ 3 es) ?_
    rintro ⟨os, es1⟩ ⟨g1, g2⟩
    refine OnOk.bind (readOrders_good usedOrders n (b + 1) es1 (by omega)) ?_
    rintro ⟨r, es2⟩ ⟨k1, k2⟩
    refine OnOk.pure ⟨by simp [k1], ?_⟩
    intro i hi
    cases i with
    | zero => exact ⟨os, a, H, W, rfl, h1, h2, h3, g1, g2⟩
    | succ i =>
      obtain ⟨os', tt', H', W', q1, q2, q3, q4, q5, q6⟩ := k2 i (by omega)
      rw [show b + 1 + i = b + (i + 1) by omega] at q2 q4 q6
      exact ⟨os', tt', H', W', by rw [List.getElem?_cons_succ]; exact q1, q2, q3, q4, q5, q6⟩

theorem GoodOrder.visits {tt : TransformType} {H W : Nat} (d : Dims tt H W) {o : List Point} (ho : GoodOrder tt o) :
    Visits (8 * H) (8 * W) o ∧ CornerFirst (8 * H) (8 * W) o := by
  have hn := naturalOrder_natural d
  refine ⟨⟨(ho.1.nodup_iff).2 hn.visits.1, fun p => by rw [ho.1.mem_iff, hn.visits.2]⟩, ?_⟩
  intro y x hy hx
  have hlt : y * (8 * W / 8) + x < (naturalOrder tt).length / 64 := by
    rw [natural_length d]
    rw [show 8 * H / 8 = H by omega] at hy
    rw [show 8 * W / 8 = W by omega] at hx ⊢
    rw [Nat.mul_div_cancel_left (H * W) (show 0 < 64 by omega)]
    have : (y + 1) * W ≤ H * W := Nat.mul_le_mul_right W hy
    rw [Nat.add_mul] at this
    omega
  rw [ho.2 _ hlt]
  exact hn.corner y x hy hx

theorem readHFPass_orders (presets clusters : Int) : OnOk (readHFPass presets clusters) (fun pass => pass.order.length = 13 ∧
    ∀ i : Nat, i < 13 → ∃ os tt H W, pass.order[i]? = some os ∧ filterByOrderID (i : Int) = .ok tt ∧ Dims tt H W ∧ classSizes[i]? = some (8 * H, 8 * W) ∧ os.length = 3 ∧
      ∀ o ∈ os, GoodOrder tt o ∧ (pass.usedOrders.testBit i = false → o = naturalOrder tt)) := by
  unfold readHFPass
  refine OnOk.bind (OnOk.trivial _) ?_
  intro used _
  have key : ∀ es : ES, OnOk (readOrders used 13 0 es) (fun r => r.1.length = 13 ∧ ∀ i : Nat, i < 13 → ∃ os tt H W, r.1[i]? = some os ∧
      filterByOrderID (i : Int) = .ok tt ∧ Dims tt H W ∧ classSizes[i]? = some (8 * H, 8 * W) ∧ os.length = 3 ∧
      ∀ o ∈ os, GoodOrder tt o ∧ (used.testBit i = false → o = naturalOrder tt)) := by
    intro es
    have := readOrders_good used 13 0 es (by omega)
    simpa only [Nat.zero_add] using this
  split
  · refine OnOk.bind (OnOk.trivial _) ?_
    intro es _
    refine OnOk.bind (key es) ?_
    rintro ⟨o, es1⟩ ho
    split
    · refine OnOk.bind (OnOk.trivial _) ?_
      intro ctx _
      exact OnOk.pure ho
    · intro s a s' h
      cases h
  · refine OnOk.bind (key _) ?_
    rintro ⟨o, es1⟩ ho
    refine OnOk.bind (OnOk.trivial _) ?_
    intro ctx _
    exact OnOk.pure ho

/-- **C31**: whatever the stream, if the orders of a pass are read at all, then the order of every class and channel visits every position of the block exactly once,
beginning with the low frequencies row by row; a class whose orders are not in the stream has the natural order. -/
theorem C31_read (presets clusters : Int) (pass : HFPass) (s s' : BR) (h : readHFPass presets clusters s = (.ok pass, s')) (b c : Nat) (hb : b < 13) (hc : c < 3) :
    ∃ o H W, (pass.order[b]?.bind (·[c]?)) = some o ∧ classSizes[b]? = some (H, W) ∧ Visits H W o ∧ CornerFirst H W o ∧
      (pass.usedOrders.testBit b = false → IsNatural H W o) := by
  obtain ⟨_, h2⟩ := readHFPass_orders presets clusters s pass s' h
  obtain ⟨os, tt, H, W, q1, q2, q3, q4, q5, q6⟩ := h2 b hb
  have hlt : c < os.length := by omega
  obtain ⟨g1, g2⟩ := q6 os[c] (List.getElem_mem hlt)
  refine ⟨os[c], 8 * H, 8 * W, by rw [q1, Option.bind_some, List.getElem?_eq_getElem hlt], q4, (g1.visits q3).1, (g1.visits q3).2, fun hu => ?_⟩
  rw [g2 hu]
  exact naturalOrder_natural q3

end Jxl
