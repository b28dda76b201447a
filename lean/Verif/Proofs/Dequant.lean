import Verif.Proofs.VarDCT
import Verif.Spec.Dequant

/-! # Lemmas: dequantization -/
namespace Jxl

section
variable {α : Type} [Arith α]

theorem planeStep_ok {σ : Type} {h w : Nat → Nat} {ups : List (Nat × Nat)} {up : Nat → Nat × Nat} (hup : ∀ c, c < 3 → ups[c]? = some (up c))
    {f : Nat → QBlock → List (List α) × σ → Res (List (List α) × σ)} {Ok : σ → Prop} {Reg : Nat → QBlock → Nat → Nat → Prop} {val : Nat → QBlock → Nat → Nat → α} {b : QBlock}
    (hf : ∀ c, c < 3 → b.takesPart (up c) = true → ∀ m st, Table (h c) (w c) m → Ok st → ∃ m' st', f c b (m, st) = .ok (m', st') ∧ Ok st' ∧ Table (h c) (w c) m' ∧
      ∀ j k, (Reg c b j k → sample m' j k = some (val c b j k)) ∧ (¬ Reg c b j k → sample m' j k = sample m j k))
    {ps : List (List (List α))} {st : σ} (hst : Ok st) (h3 : ps.length = 3) (hT : ∀ c m, ps[c]? = some m → Table (h c) (w c) m) :
    ∃ ps' st', forFrom (fun c s => do
      let u ← idx ups (c : Int)
      if !b.takesPart u then .ok s else do
      let m ← idx s.1 (c : Int)
      let r ← f c b (m, s.2)
      let planes ← setAt s.1 (c : Int) r.1
      .ok (planes, r.2)) 3 0 (ps, st) = .ok (ps', st') ∧ Ok st' ∧ ps'.length = 3 ∧
      ∀ c m', c < 3 → ps'[c]? = some m' → ∃ m, ps[c]? = some m ∧ Table (h c) (w c) m' ∧
        ∀ j k, (b.takesPart (up c) = true → Reg c b j k → sample m' j k = some (val c b j k)) ∧ ((b.takesPart (up c) = true → ¬ Reg c b j k) → sample m' j k = sample m j k) := by
  obtain ⟨⟨ps', st'⟩, e, k1, k2, k3⟩ := forFrom_inv (f := fun c s => do
      let u ← idx ups (c : Int)
      if !b.takesPart u then .ok s else do
      let m ← idx s.1 (c : Int)
      let r ← f c b (m, s.2)
      let planes ← setAt s.1 (c : Int) r.1
      .ok (planes, r.2))
    (fun i (s : List (List (List α)) × σ) => Ok s.2 ∧ s.1.length = 3 ∧
      ∀ c m', c < 3 → s.1[c]? = some m' → ∃ m, ps[c]? = some m ∧ (c < i → Table (h c) (w c) m' ∧
        ∀ j k, (b.takesPart (up c) = true → Reg c b j k → sample m' j k = some (val c b j k)) ∧ ((b.takesPart (up c) = true → ¬ Reg c b j k) → sample m' j k = sample m j k)) ∧
        (i ≤ c → m' = m)) 3 0 (ps, st)
    ⟨hst, h3, fun c m' _ hm => ⟨m', hm, fun h => by omega, fun _ => rfl⟩⟩
    (by
      rintro c ⟨ps1, st1⟩ _ hc ⟨k1, k2, k3⟩
      have hc3 : c < 3 := by omega
      rw [idx_nat (hup c hc3), Res.bind_ok]
      obtain ⟨m, hm⟩ : ∃ m, ps1[c]? = some m := ⟨_, List.getElem?_eq_getElem (show c < ps1.length by simp only at k2; omega)⟩
      obtain ⟨m0, hm0, _, hsame⟩ := k3 c m hc3 hm
      obtain rfl := hsame (Nat.le_refl _)
      have hTm := hT c m hm0
      cases hp : b.takesPart (up c) with
      | false =>
        refine ⟨(ps1, st1), by rw [if_pos (by rfl)], k1, k2, fun d m' hd hm' => ?_⟩
        obtain ⟨m1, hm1, a1, a2⟩ := k3 d m' hd hm'
        refine ⟨m1, hm1, fun h => ?_, fun h => a2 (by omega)⟩
        by_cases hdc : d = c
        · subst hdc
          obtain rfl := a2 (Nat.le_refl _)
          exact ⟨hT d m' hm1, fun j k => ⟨fun h => absurd (hp.symm.trans h) (by decide), fun _ => rfl⟩⟩
        · exact a1 (by omega)
      | true =>
        rw [if_neg (by decide), idx_nat hm, Res.bind_ok]
        obtain ⟨m', st', e, q1, q2, q3⟩ := hf c hc3 hp m st1 hTm k1
        have hlen : c < ps1.length := by simp only at k2; omega
        refine ⟨(ps1.set c m', st'), by rw [e, Res.bind_ok, setAt_natCast hlen, Res.bind_ok], q1, by rw [List.length_set]; exact k2, fun d m2 hd hm2 => ?_⟩
        by_cases hdc : d = c
        · subst hdc
          have hm2' : (ps1.set d m')[d]? = some m2 := hm2
          rw [List.getElem?_set_self hlen] at hm2'
          obtain rfl := Option.some.inj hm2'
          exact ⟨m, hm0, fun _ => ⟨q2, fun j k => ⟨fun _ h => (q3 j k).1 h, fun h => (q3 j k).2 (h hp)⟩⟩, fun h => by omega⟩
        · have hm2' : (ps1.set c m')[d]? = some m2 := hm2
          rw [List.getElem?_set_ne (Ne.symm hdc)] at hm2'
          obtain ⟨m1, hm1, a1, a2⟩ := k3 d m2 hd hm2'
          exact ⟨m1, hm1, fun h => a1 (by omega), fun h => a2 (by omega)⟩)
  refine ⟨ps', st', e, k1, k2, fun c m' hc hm' => ?_⟩
  obtain ⟨m, hm, a1, _⟩ := k3 c m' hc hm'
  exact ⟨m, hm, a1 (by omega)⟩

theorem eachPlane_ok {σ : Type} {h w : Nat → Nat} {ups : List (Nat × Nat)} {up : Nat → Nat × Nat} (hup : ∀ c, c < 3 → ups[c]? = some (up c))
    {f : Nat → QBlock → List (List α) × σ → Res (List (List α) × σ)} {Ok : σ → Prop} {Reg : Nat → QBlock → Nat → Nat → Prop} {val : Nat → QBlock → Nat → Nat → α} :
    ∀ (blocks : List QBlock), (∀ b ∈ blocks, ∀ c, c < 3 → b.takesPart (up c) = true → ∀ m st, Table (h c) (w c) m → Ok st →
      ∃ m' st', f c b (m, st) = .ok (m', st') ∧ Ok st' ∧ Table (h c) (w c) m' ∧
        ∀ j k, (Reg c b j k → sample m' j k = some (val c b j k)) ∧ (¬ Reg c b j k → sample m' j k = sample m j k)) →
    (blocks.Pairwise fun b b' => ∀ c, c < 3 → b.takesPart (up c) = true → b'.takesPart (up c) = true → ∀ j k, Reg c b j k → ¬ Reg c b' j k) →
    ∀ (ps : List (List (List α))) (st : σ), Ok st → ps.length = 3 → (∀ c m, ps[c]? = some m → Table (h c) (w c) m) →
    ∃ ps' st', eachPlane ups f blocks (ps, st) = .ok (ps', st') ∧ ps'.length = 3 ∧ ∀ c m', c < 3 → ps'[c]? = some m' → ∃ m, ps[c]? = some m ∧ Table (h c) (w c) m' ∧
      ∀ j k, (∀ b ∈ blocks, b.takesPart (up c) = true → Reg c b j k → sample m' j k = some (val c b j k)) ∧
        ((∀ b ∈ blocks, b.takesPart (up c) = true → ¬ Reg c b j k) → sample m' j k = sample m j k)
  | [], _, _, ps, st, _, h3, hT => ⟨ps, st, rfl, h3, fun c m' hc hm => ⟨m', hm, hT c m' hm, fun j k => ⟨fun b hb => absurd hb List.not_mem_nil, fun _ => rfl⟩⟩⟩
  | b :: bs, hf, hp, ps, st, hst, h3, hT => by
    obtain ⟨ps1, st1, e1, q1, q2, q3⟩ := planeStep_ok hup (hf b List.mem_cons_self) hst h3 hT
    rw [eachPlane, e1, Res.bind_ok]
    have hT1 : ∀ c m, ps1[c]? = some m → Table (h c) (w c) m := by
      intro c m hm
      have hc : c < 3 := by
        obtain ⟨hlt, _⟩ := List.getElem?_eq_some_iff.1 hm
        omega
      obtain ⟨_, _, a, _⟩ := q3 c m hc hm
      exact a
    have hap := List.pairwise_cons.1 hp
    obtain ⟨ps2, st2, e2, r2, r3⟩ := eachPlane_ok hup bs (fun x hx => hf x (List.mem_cons_of_mem _ hx)) hap.2 ps1 st1 q1 q2 hT1
    refine ⟨ps2, st2, e2, r2, fun c m' hc hm' => ?_⟩
    obtain ⟨m1, hm1, a1, a2⟩ := r3 c m' hc hm'
    obtain ⟨m, hm, b1, b2⟩ := q3 c m1 hc hm1
    refine ⟨m, hm, a1, fun j k => ⟨fun x hx ht hr => ?_, fun hjk => ?_⟩⟩
    · rcases List.mem_cons.1 hx with rfl | hx
      · rw [(a2 j k).2 (fun b' hb' hp' => hap.1 b' hb' c hc ht hp' _ _ hr)]
        exact (b2 j k).1 ht hr
      · exact (a2 j k).1 x hx ht hr
    · rw [(a2 j k).2 (fun b' hb' => hjk b' (List.mem_cons_of_mem _ hb'))]
      exact (b2 j k).2 (hjk b List.mem_cons_self)

/-! ## Dequantization of a block -/

theorem unquantize_ok (bias numerator : α) (q : Int) : unquantize bias numerator q = .ok (quantValue bias numerator q) := by
  unfold unquantize quantValue
  by_cases h0 : q = 0
  · subst h0; rfl
  by_cases h1 : q = 1
  · subst h1; rfl
  by_cases h2 : q = -1
  · subst h2; rfl
  rw [if_neg (by omega), if_neg h0, if_neg h1, if_neg h2]

/-- The part of a rectangle that is not in its upper left corner of `dh` rows and `dw` columns. -/
def HighPart (y0 x0 h w dh dw j k : Nat) : Prop := ((y0 ≤ j ∧ j < y0 + h) ∧ (x0 ≤ k ∧ k < x0 + w)) ∧ ¬ (j < y0 + dh ∧ k < x0 + dw)

theorem dequantBlock_ok {H W : Nat} {dq : List (List α)} (hT : Table H W dq) {quantized : List (List Int)} {weights : List (List α)} {sfc bias numerator : α} {tt : TransformType}
    {ppg : Nat × Nat} {q : Nat → Nat → Int} {Wt : Nat → Nat → α} (hH : ppg.1 + tt.pixelHeight.toNat ≤ H) (hW : ppg.2 + tt.pixelWidth.toNat ≤ W)
    (hq : HasBlock ppg.1 ppg.2 tt.pixelHeight.toNat tt.pixelWidth.toNat q quantized)
    (hw : ∀ y x, y < tt.pixelHeight.toNat → x < tt.pixelWidth.toNat → (if tt.flip then sample weights x y else sample weights y x) = some (if tt.flip then Wt x y else Wt y x)) :
    ∃ dq', dequantBlock quantized weights sfc bias numerator tt ppg dq = .ok dq' ∧ Table H W dq' ∧
      ∀ j k, (HighPart ppg.1 ppg.2 tt.pixelHeight.toNat tt.pixelWidth.toNat tt.dctHeight.toNat tt.dctWidth.toNat j k →
          sample dq' j k = some (quantValue bias numerator (q (j - ppg.1) (k - ppg.2)) * sfc * (if tt.flip then Wt (k - ppg.2) (j - ppg.1) else Wt (j - ppg.1) (k - ppg.2)))) ∧
        (¬ HighPart ppg.1 ppg.2 tt.pixelHeight.toNat tt.pixelWidth.toNat tt.dctHeight.toNat tt.dctWidth.toNat j k → sample dq' j k = sample dq j k) := by
  obtain ⟨y0, x0⟩ := ppg
  dsimp only at hH hW hq ⊢
  unfold dequantBlock
  generalize tt.pixelHeight.toNat = h at *
  generalize tt.pixelWidth.toNat = w at *
  generalize tt.dctHeight.toNat = dh at *
  generalize tt.dctWidth.toNat = dw at *
  let G : Nat → Nat → α := fun y x => quantValue bias numerator (q y x) * sfc * (if tt.flip then Wt x y else Wt y x)
  obtain ⟨m', e, h1, h2⟩ := fill_loop (f := fun y x dq =>
      if y < dh ∧ x < dw then .ok dq else do
      let coeff ← at2 quantized ((y0 + y : Nat) : Int) ((x0 + x : Nat) : Int)
      let quant ← unquantize bias numerator coeff
      let wy := if tt.flip then x else y
      let w ← at2 weights (wy : Int) ((x ^^^ y ^^^ wy : Nat) : Int)
      set2 dq ((y0 + y : Nat) : Int) ((x0 + x : Nat) : Int) (quant * sfc * w))
    (fun y x m' => Table H W m' ∧ ∀ j k, sample m' j k =
      if ((y0 ≤ j ∧ (j < y0 + y ∨ j = y0 + y ∧ k < x0 + x)) ∧ (x0 ≤ k ∧ k < x0 + w)) ∧ ¬ (j < y0 + dh ∧ k < x0 + dw) then some (G (j - y0) (k - x0)) else sample dq j k) h w dq
    ⟨hT, fun j k => by rw [if_neg (by omega)]⟩
    (by
      rintro y x m1 hy hx ⟨h1, h2⟩
      by_cases hlow : y < dh ∧ x < dw
      · refine ⟨m1, if_pos hlow, h1, fun j k => ?_⟩
        rw [h2]
        by_cases hh : ((y0 ≤ j ∧ (j < y0 + y ∨ j = y0 + y ∧ k < x0 + x)) ∧ (x0 ≤ k ∧ k < x0 + w)) ∧ ¬ (j < y0 + dh ∧ k < x0 + dw)
        · rw [if_pos hh, if_pos (by omega)]
        · rw [if_neg hh, if_neg (by omega)]
      · obtain ⟨m2, e2, t2, s2⟩ := set2_table h1 (show y0 + y < H by omega) (show x0 + x < W by omega) (G y x)
        refine ⟨m2, ?_, t2, fun j k => ?_⟩
        · rw [if_neg hlow, at2_block hq hy hx, Res.bind_ok, unquantize_ok, Res.bind_ok]
          have hw' := hw y x hy hx
          cases hfl : tt.flip with
          | true =>
            rw [hfl] at hw'
            simp only [if_true] at hw' ⊢
            rw [show x ^^^ y ^^^ x = y by rw [Nat.xor_comm x y, Nat.xor_assoc, Nat.xor_self, Nat.xor_zero], at2_sample hw', Res.bind_ok, ← e2]
            simp only [G, hfl, if_true]
          | false =>
            rw [hfl] at hw'
            simp only [Bool.false_eq_true, if_false] at hw' ⊢
            rw [show x ^^^ y ^^^ y = x by rw [Nat.xor_assoc, Nat.xor_self, Nat.xor_zero], at2_sample hw', Res.bind_ok, ← e2]
            simp only [G, hfl, Bool.false_eq_true, if_false]
        · rw [s2]
          by_cases hjk : j = y0 + y ∧ k = x0 + x
          · obtain ⟨rfl, rfl⟩ := hjk
            rw [if_pos ⟨rfl, rfl⟩, if_pos (by omega), Nat.add_sub_cancel_left, Nat.add_sub_cancel_left]
          · rw [if_neg hjk, h2]
            by_cases hh : ((y0 ≤ j ∧ (j < y0 + y ∨ j = y0 + y ∧ k < x0 + x)) ∧ (x0 ≤ k ∧ k < x0 + w)) ∧ ¬ (j < y0 + dh ∧ k < x0 + dw)
            · rw [if_pos hh, if_pos (by omega)]
            · rw [if_neg hh, if_neg (by omega)])
    (by
      rintro y m1 hy ⟨h1, h2⟩
      refine ⟨h1, fun j k => ?_⟩
      rw [h2]
      by_cases hh : ((y0 ≤ j ∧ (j < y0 + y ∨ j = y0 + y ∧ k < x0 + w)) ∧ (x0 ≤ k ∧ k < x0 + w)) ∧ ¬ (j < y0 + dh ∧ k < x0 + dw)
      · rw [if_pos hh, if_pos (by omega)]
      · rw [if_neg hh, if_neg (by omega)])
  refine ⟨m', e, h1, fun j k => ⟨fun hr => ?_, fun hr => ?_⟩⟩
  · unfold HighPart at hr
    rw [h2, if_pos (by omega)]
  · unfold HighPart at hr
    rw [h2, if_neg (by omega)]

/-! ## Low frequencies of a block -/

omit [Arith α] in
theorem llfScale_sample (scale : Nat → Nat → α) {tt : TransformType} {a b : Nat} (ha : tt.dctHeight.toNat = 2 ^ a) (hb : tt.dctWidth.toNat = 2 ^ b) (ha' : a ≤ 5) (hb' : b ≤ 5) {y x : Nat}
    (hy : y < 2 ^ a) (hx : x < 2 ^ b) : sample (llfScale scale tt) y x = some (scale (y * 2 ^ (5 - a)) (x * 2 ^ (5 - b))) := by
  unfold llfScale sample
  rw [ha, hb, ceilLog2_pow a (by omega), ceilLog2_pow b (by omega)]
  rw [List.getElem?_map, List.getElem?_range hy]
  simp only [Option.map_some, Option.bind_some]
  rw [List.getElem?_map, List.getElem?_range hx]
  simp only [Option.map_some, Nat.shiftLeft_eq]

theorem llfBlock_ok {lut : List (List (List α))} {c : Nat → Nat → Nat → α} (scale : Nat → Nat → α) {lf : List (List α)} {tt : TransformType} {a b : Nat}
    (hl : ∀ l, l ≤ 5 → HasLUT lut l (2 ^ l) (c l))
    (ha : tt.dctHeight.toNat = 2 ^ a) (hb : tt.dctWidth.toNat = 2 ^ b) (ha' : a ≤ 5) (hb' : b ≤ 5) {src ppg : Nat × Nat} {f : Nat → Nat → α}
    (hf : HasBlock src.1 src.2 (2 ^ a) (2 ^ b) f lf) {H W : Nat} {m s0 s1 : List (List α)} (hT : Table H W m) (hH : ppg.1 + 2 ^ a ≤ H) (hW : ppg.2 + 2 ^ b ≤ W)
    (t0 : Table 32 32 s0) (t1 : Table 32 32 s1) :
    ∃ m' s0' s1', llfBlock lut scale lf tt src ppg (m, s0, s1) = .ok (m', s0', s1') ∧ Table 32 32 s0' ∧ Table 32 32 s1' ∧
      Laid H W ppg.1 ppg.2 (2 ^ a) (2 ^ b) (lowValue c scale a b f) m m' := by
  have p5 : 2 ^ a ≤ 32 := Nat.pow_le_pow_right (n := 2) (by decide) ha'
  have p5' : 2 ^ b ≤ 32 := Nat.pow_le_pow_right (n := 2) (by decide) hb'
  obtain ⟨d, s0', s1', e, q0, q1, L⟩ := forwardDCT2D_ok (lut := lut) (a := a) (b := b) (ca := c a) (cb := c b) (by omega) (by omega) (hl a ha') (hl b hb') hf hT hH hW t0 t1 p5 p5'
  unfold llfBlock
  rw [ha, hb]
  have e' : forwardDCT2D lut lf (m, s0, s1).1 src ppg (2 ^ a, 2 ^ b) (m, s0, s1).2.1 (m, s0, s1).2.2 = .ok (d, s0', s1') := e
  simp only
  rw [e', Res.bind_ok]
  obtain ⟨m', e2, k1, k2⟩ := fill_loop (f := fun y x m => do
      let v ← at2 m ((ppg.1 + y : Nat) : Int) ((ppg.2 + x : Nat) : Int)
      let k ← at2 (llfScale scale tt) (y : Int) (x : Int)
      set2 m ((ppg.1 + y : Nat) : Int) ((ppg.2 + x : Nat) : Int) (v * k))
    (fun y x m' => Table H W m' ∧ ∀ j k, sample m' j k =
      if (ppg.1 ≤ j ∧ (j < ppg.1 + y ∨ j = ppg.1 + y ∧ k < ppg.2 + x)) ∧ (ppg.2 ≤ k ∧ k < ppg.2 + 2 ^ b) then some (lowValue c scale a b f (j - ppg.1) (k - ppg.2)) else sample d j k) (2 ^ a) (2 ^ b) d
    ⟨L.1, fun j k => by rw [if_neg (by omega)]⟩
    (by
      rintro y x m1 hy hx ⟨h1, h2⟩
      have hold : sample m1 (ppg.1 + y) (ppg.2 + x) = some (fdctVal (c a) (2 ^ a) (fun i => fdctVal (c b) (2 ^ b) (fun j => f i j) x) y) := by
        rw [h2, if_neg (by omega)]
        exact L.block y x hy hx
      obtain ⟨m2, e2, t2, s2⟩ := set2_table h1 (show ppg.1 + y < H by omega) (show ppg.2 + x < W by omega) (lowValue c scale a b f y x)
      refine ⟨m2, ?_, t2, fun j k => ?_⟩
      · rw [at2_sample hold, Res.bind_ok, at2_sample (llfScale_sample scale ha hb ha' hb' hy hx), Res.bind_ok, ← e2]
        rfl
      · rw [s2]
        by_cases hjk : j = ppg.1 + y ∧ k = ppg.2 + x
        · obtain ⟨rfl, rfl⟩ := hjk
          rw [if_pos ⟨rfl, rfl⟩, if_pos (by omega), Nat.add_sub_cancel_left, Nat.add_sub_cancel_left]
        · rw [if_neg hjk, h2]
          by_cases hh : (ppg.1 ≤ j ∧ (j < ppg.1 + y ∨ j = ppg.1 + y ∧ k < ppg.2 + x)) ∧ (ppg.2 ≤ k ∧ k < ppg.2 + 2 ^ b)
          · rw [if_pos hh, if_pos (by omega)]
          · rw [if_neg hh, if_neg (by omega)])
    (by
      rintro y m1 hy ⟨h1, h2⟩
      refine ⟨h1, fun j k => ?_⟩
      rw [h2]
      by_cases hh : (ppg.1 ≤ j ∧ (j < ppg.1 + y ∨ j = ppg.1 + y ∧ k < ppg.2 + 2 ^ b)) ∧ (ppg.2 ≤ k ∧ k < ppg.2 + 2 ^ b)
      · rw [if_pos hh, if_pos (by omega)]
      · rw [if_neg hh, if_neg (by omega)])
  refine ⟨m', s0', s1', by rw [e2, Res.bind_ok], q0, q1, k1, fun j k => ?_⟩
  rw [k2, L.2]
  by_cases hh : (ppg.1 ≤ j ∧ j < ppg.1 + 2 ^ a) ∧ (ppg.2 ≤ k ∧ k < ppg.2 + 2 ^ b)
  · rw [if_pos (by omega), if_pos hh]
  · rw [if_neg (by omega), if_neg hh, if_neg hh]

end

end Jxl
