import Verif.Spec.LFCoefficients
import Verif.Proofs.Cfl

/-! # Loops over the cells of tables, and the low frequencies -/
namespace Jxl

theorem forFrom_congr {σ : Type} {f g : Nat → σ → Res σ} : ∀ (n i : Nat) (s : σ), (∀ k s, i ≤ k → k < i + n → f k s = g k s) → forFrom f n i s = forFrom g n i s
  | 0, _, _, _ => rfl
  | n + 1, i, s, h => by
    rw [forFrom, forFrom, h i s (Nat.le_refl _) (by omega)]
    cases g i s with
    | ok s' => exact forFrom_congr n (i + 1) s' (fun k s h1 h2 => h k s (by omega) (by omega))
    | err => rfl
    | panic => rfl

/-- A loop over the cells of a rectangle in which each step changes its own cell only. `R g s`: the cells of the state are `g`. -/
theorem cell_loop {σ β : Type} {f : Nat → Nat → σ → Res σ} (R : (Nat → Nat → β) → σ → Prop) {old new : Nat → Nat → β} (y0 x0 nh nw : Nat) (s : σ) (h0 : R old s)
    (hs : ∀ g y x s, (y0 ≤ y ∧ y < y0 + nh) → (x0 ≤ x ∧ x < x0 + nw) → g y x = old y x → R g s →
      ∃ s', f y x s = .ok s' ∧ R (fun j k => if j = y ∧ k = x then new y x else g j k) s') :
    ∃ s', forFrom (fun y s => forFrom (fun x s => f y x s) nw x0 s) nh y0 s = .ok s' ∧
      R (fun j k => if (y0 ≤ j ∧ j < y0 + nh) ∧ (x0 ≤ k ∧ k < x0 + nw) then new j k else old j k) s' := by
  refine forFrom_inv (f := fun y s => forFrom (fun x s => f y x s) nw x0 s)
    (fun y s => R (fun j k => if (y0 ≤ j ∧ j < y) ∧ (x0 ≤ k ∧ k < x0 + nw) then new j k else old j k) s) nh y0 s ?_ ?_
  · have e : (fun j k => if (y0 ≤ j ∧ j < y0) ∧ (x0 ≤ k ∧ k < x0 + nw) then new j k else old j k) = old := by
      funext j k
      exact if_neg (by omega)
    rw [e]
    exact h0
  · intro y s hy1 hy2 hR
    obtain ⟨s', e, h'⟩ := forFrom_inv (f := fun x s => f y x s)
      (fun x s => R (fun j k => if (y0 ≤ j ∧ j < y) ∧ (x0 ≤ k ∧ k < x0 + nw) ∨ j = y ∧ (x0 ≤ k ∧ k < x) then new j k else old j k) s) nw x0 s (by
        have e : (fun j k => if (y0 ≤ j ∧ j < y) ∧ (x0 ≤ k ∧ k < x0 + nw) ∨ j = y ∧ (x0 ≤ k ∧ k < x0) then new j k else old j k) =
            fun j k => if (y0 ≤ j ∧ j < y) ∧ (x0 ≤ k ∧ k < x0 + nw) then new j k else old j k := by
          funext j k
          by_cases h : (y0 ≤ j ∧ j < y) ∧ (x0 ≤ k ∧ k < x0 + nw)
          · rw [if_pos h, if_pos (Or.inl h)]
          · rw [if_neg h, if_neg (by omega)]
        rw [e]
        exact hR) (by
        intro x s hx1 hx2 hP
        obtain ⟨s', e, r⟩ := hs _ y x s ⟨hy1, hy2⟩ ⟨hx1, hx2⟩ (if_neg (by omega)) hP
        refine ⟨s', e, ?_⟩
        have e : (fun j k => if (y0 ≤ j ∧ j < y) ∧ (x0 ≤ k ∧ k < x0 + nw) ∨ j = y ∧ (x0 ≤ k ∧ k < x + 1) then new j k else old j k) =
            fun j k => if j = y ∧ k = x then new y x else if (y0 ≤ j ∧ j < y) ∧ (x0 ≤ k ∧ k < x0 + nw) ∨ j = y ∧ (x0 ≤ k ∧ k < x) then new j k else old j k := by
          funext j k
          by_cases hjk : j = y ∧ k = x
          · rw [if_pos hjk, if_pos (by omega), hjk.1, hjk.2]
          · rw [if_neg hjk]
            by_cases h : (y0 ≤ j ∧ j < y) ∧ (x0 ≤ k ∧ k < x0 + nw) ∨ j = y ∧ (x0 ≤ k ∧ k < x)
            · rw [if_pos h, if_pos (by omega)]
            · rw [if_neg h, if_neg (by omega)]
        rw [e]
        exact r)
    refine ⟨s', e, ?_⟩
    have e : (fun j k => if (y0 ≤ j ∧ j < y + 1) ∧ (x0 ≤ k ∧ k < x0 + nw) then new j k else old j k) =
        fun j k => if (y0 ≤ j ∧ j < y) ∧ (x0 ≤ k ∧ k < x0 + nw) ∨ j = y ∧ (x0 ≤ k ∧ k < x0 + nw) then new j k else old j k := by
      funext j k
      by_cases h : (y0 ≤ j ∧ j < y + 1) ∧ (x0 ≤ k ∧ k < x0 + nw)
      · rw [if_pos h, if_pos (by omega)]
      · rw [if_neg h, if_neg (by omega)]
    rw [e]
    exact h'

theorem HoldsMat.row {α : Type} {H W : Nat} {f : Nat → Nat → α} {m : List (List α)} (h : HoldsMat H W f m) {y : Nat} (hy : y < H) :
    ∃ r, idx m (y : Int) = .ok r ∧ r.length = W ∧ ∀ x, x < W → idx r (x : Int) = .ok (f y x) := by
  obtain ⟨r, hr, hl⟩ := h.1.row hy
  refine ⟨r, by simp [idx, hr], hl, fun x hx => ?_⟩
  have hs := h.2 y x hy hx
  unfold sample at hs
  rw [hr] at hs
  simp only [Option.bind_some] at hs
  simp [idx, hs]

section
variable {α : Type} [Arith α]

theorem dequantLFPlane_ok {h w : Nat} (sd : α) {q : Nat → Nat → Int} {qs : List (List Int)} (hq : HoldsMat h w q qs) {g : Nat → Nat → α} {m : List (List α)} (hm : HoldsMat h w g m) :
    ∃ m', dequantLFPlane sd qs m = .ok m' ∧ HoldsMat h w (fun y x => Arith.lit (q y x : Rat) * sd) m' := by
  unfold dequantLFPlane
  rw [forFrom_congr (g := fun y m => forFrom (fun x m => do
      let v ← at2 qs (y : Int) (x : Int)
      set2 m (y : Int) (x : Int) (Arith.lit (v : Rat) * sd)) w 0 m)]
  · rw [hq.1.1]
    obtain ⟨m', e, h'⟩ := cell_loop (f := fun y x m => do
      let v ← at2 qs (y : Int) (x : Int)
      set2 m (y : Int) (x : Int) (Arith.lit (v : Rat) * sd)) (fun g m => HoldsMat h w g m) (new := fun y x => Arith.lit (q y x : Rat) * sd) 0 0 h w m hm (by
        intro g y x m hy hx _ hm
        obtain ⟨m', e, h'⟩ := hm.set (show y < h by omega) (show x < w by omega) (Arith.lit (q y x : Rat) * sd)
        refine ⟨m', ?_, h'⟩
        rw [hq.at2 (by omega) (by omega), Res.bind_ok, e])
    exact ⟨m', e, h'.congr (fun j k hj hk => if_pos (by omega))⟩
  · intro y s _ hy
    rw [hq.1.1] at hy
    obtain ⟨r, e, hl, hv⟩ := hq.row (show y < h by omega)
    rw [e, Res.bind_ok, hl]
    refine forFrom_congr _ _ _ (fun x s _ hx => ?_)
    rw [hv x (by omega), hq.at2 (by omega) (by omega)]

/-- Three planes. -/
def Holds3 {β : Type} (H W : Nat → Nat) (f : Nat → Nat → Nat → β) (ps : List (List (List β))) : Prop :=
  ∃ a b c, ps = [a, b, c] ∧ HoldsMat (H 0) (W 0) (f 0) a ∧ HoldsMat (H 1) (W 1) (f 1) b ∧ HoldsMat (H 2) (W 2) (f 2) c

theorem dequantLF_ok {H W : Nat → Nat} {I : Spec.LFGroup α} {steps : List α} (hst : ∀ c, c < 3 → steps[c]? = some (I.step c)) {qs : List (List (List Int))}
    (hq : Holds3 (fun k => H (Spec.lfChannel k)) (fun k => W (Spec.lfChannel k)) (fun k => I.q (Spec.lfChannel k)) qs)
    {g : Nat → Nat → Nat → α} {ps : List (List (List α))} (hp : Holds3 H W g ps) :
    ∃ ps', dequantLF I.extra steps qs ps = .ok ps' ∧ Holds3 H W I.value ps' := by
  obtain ⟨a, b, c, rfl, ha, hb, hc⟩ := hp
  obtain ⟨qa, qb, qc, rfl, hqa, hqb, hqc⟩ := hq
  obtain ⟨a', ea, ha'⟩ := dequantLFPlane_ok (I.step 0 / Arith.lit ((2 ^ I.extra : Nat) : Rat)) (h := H 0) (w := W 0) (q := I.q 0) hqb ha
  obtain ⟨b', eb, hb'⟩ := dequantLFPlane_ok (I.step 1 / Arith.lit ((2 ^ I.extra : Nat) : Rat)) (h := H 1) (w := W 1) (q := I.q 1) hqa hb
  obtain ⟨c', ec, hc'⟩ := dequantLFPlane_ok (I.step 2 / Arith.lit ((2 ^ I.extra : Nat) : Rat)) (h := H 2) (w := W 2) (q := I.q 2) hqc hc
  have s0 : idx steps ((0 : Nat) : Int) = .ok (I.step 0) := by simp [idx, hst 0 (by omega)]
  have s1 : idx steps ((1 : Nat) : Int) = .ok (I.step 1) := by simp [idx, hst 1 (by omega)]
  have s2 : idx steps ((2 : Nat) : Int) = .ok (I.step 2) := by simp [idx, hst 2 (by omega)]
  refine ⟨[a', b', c'], ?_, a', b', c', rfl, ha', hb', hc'⟩
  unfold dequantLF
  simp only [forFrom]
  rw [s0, s1, s2]
  show ((dequantLFPlane (I.step 0 / Arith.lit ((2 ^ I.extra : Nat) : Rat)) qb a >>= fun m => setAt [a, b, c] ((0 : Nat) : Int) m) >>= _) = _
  rw [ea, Res.bind_ok]
  show ((dequantLFPlane (I.step 1 / Arith.lit ((2 ^ I.extra : Nat) : Rat)) qa b >>= fun m => setAt [a', b, c] ((1 : Nat) : Int) m) >>= _) = _
  rw [eb, Res.bind_ok]
  show ((dequantLFPlane (I.step 2 / Arith.lit ((2 ^ I.extra : Nat) : Rat)) qc c >>= fun m => setAt [a', b', c] ((2 : Nat) : Int) m) >>= _) = _
  rw [ec, Res.bind_ok]
  rfl

theorem correlateLF_ok {h w : Nat} (kX kB : α) {f : Nat → Nat → Nat → α} {ps : List (List (List α))} (hp : Holds3 (fun _ => h) (fun _ => w) f ps) :
    ∃ ps', correlateLF kX kB ps = .ok ps' ∧
      Holds3 (fun _ => h) (fun _ => w) (fun c y x => if c = 0 then f 0 y x + kX * f 1 y x else if c = 2 then f 2 y x + kB * f 1 y x else f c y x) ps' := by
  obtain ⟨a, b, c, rfl, ha, hb, hc⟩ := hp
  change HoldsMat h w (f 0) a at ha
  change HoldsMat h w (f 1) b at hb
  change HoldsMat h w (f 2) c at hc
  unfold correlateLF
  have i0 : idx [a, b, c] 0 = .ok a := rfl
  have i1 : idx [a, b, c] 1 = .ok b := rfl
  have i2 : idx [a, b, c] 2 = .ok c := rfl
  rw [i0, i1, i2]
  simp only [Res.bind_ok]
  rw [forFrom_congr (g := fun y (s : List (List α) × List (List α)) => forFrom (fun x s => do
      let v ← at2 b (y : Int) (x : Int)
      let vx ← at2 s.1 (y : Int) (x : Int)
      let px ← set2 s.1 (y : Int) (x : Int) (vx + kX * v)
      let vb ← at2 s.2 (y : Int) (x : Int)
      let pb ← set2 s.2 (y : Int) (x : Int) (vb + kB * v)
      .ok (px, pb)) w 0 s)]
  · rw [hb.1.1]
    obtain ⟨s', e, r1, r2⟩ := cell_loop (β := α × α) (f := fun y x (s : List (List α) × List (List α)) => do
      let v ← at2 b (y : Int) (x : Int)
      let vx ← at2 s.1 (y : Int) (x : Int)
      let px ← set2 s.1 (y : Int) (x : Int) (vx + kX * v)
      let vb ← at2 s.2 (y : Int) (x : Int)
      let pb ← set2 s.2 (y : Int) (x : Int) (vb + kB * v)
      .ok (px, pb)) (fun g s => HoldsMat h w (fun j k => (g j k).1) s.1 ∧ HoldsMat h w (fun j k => (g j k).2) s.2) (old := fun y x => (f 0 y x, f 2 y x))
      (new := fun y x => (f 0 y x + kX * f 1 y x, f 2 y x + kB * f 1 y x)) 0 0 h w (a, c) ⟨ha, hc⟩ (by
        rintro g y x s hy hx hg ⟨h1, h2⟩
        obtain ⟨m1, e1, g1⟩ := h1.set (show y < h by omega) (show x < w by omega) (f 0 y x + kX * f 1 y x)
        obtain ⟨m2, e2, g2⟩ := h2.set (show y < h by omega) (show x < w by omega) (f 2 y x + kB * f 1 y x)
        refine ⟨(m1, m2), ?_, g1.congr (fun j k _ _ => ?_), g2.congr (fun j k _ _ => ?_)⟩
        · rw [hb.at2 (by omega) (by omega), Res.bind_ok, h1.at2 (by omega) (by omega), Res.bind_ok, hg, e1, Res.bind_ok, h2.at2 (by omega) (by omega), Res.bind_ok, hg, e2]
          rfl
        all_goals
          beta_reduce
          by_cases hjk : j = y ∧ k = x
          · rw [if_pos hjk, if_pos hjk]
          · rw [if_neg hjk, if_neg hjk])
    refine ⟨[s'.1, b, s'.2], by rw [e]; rfl, s'.1, b, s'.2, rfl, ?_, hb, ?_⟩
    · refine r1.congr (fun j k hj hk => ?_)
      beta_reduce at hj hk ⊢
      rw [if_pos (by omega)]
      rfl
    · refine r2.congr (fun j k hj hk => ?_)
      beta_reduce at hj hk ⊢
      rw [if_pos (by omega)]
      rfl
  · intro y s _ hy
    rw [hb.1.1] at hy
    obtain ⟨r, e, hl, hv⟩ := hb.row (show y < h by omega)
    rw [e, Res.bind_ok, hl]
    refine forFrom_congr _ _ _ (fun x s _ hx => ?_)
    rw [hv x (by omega), hb.at2 (by omega) (by omega)]

omit [Arith α] in
/-- Copying an LF frame succeeds if it is large enough. -/
theorem copyLFFrame_ok {H W : Nat → Nat} {LH LW : Nat → Nat} {lfF : Nat → Nat → Nat → α} {lf : List (List (List α))} (hlf : Holds3 LH LW lfF lf) {pY pX : Nat}
    (hH : ∀ c, c < 3 → pY + H c ≤ LH c) (hW : ∀ c, c < 3 → pX + W c ≤ LW c) {g : Nat → Nat → Nat → α} {ps : List (List (List α))} (hp : Holds3 H W g ps) :
    ∃ ps', copyLFFrame pY pX lf ps = .ok ps' ∧ Holds3 H W (fun c y x => lfF c (pY + y) (pX + x)) ps' := by
  have one : ∀ {h w lh lw : Nat} {l g : Nat → Nat → α} {b m : List (List α)}, HoldsMat lh lw l b → HoldsMat h w g m → pY + h ≤ lh → pX + w ≤ lw →
      ∃ m', forFrom (fun y m => do
        let row ← idx m (y : Int)
        forFrom (fun x m => do
          let v ← at2 b ((pY + y : Nat) : Int) ((pX + x : Nat) : Int)
          set2 m (y : Int) (x : Int) v) row.length 0 m) m.length 0 m = .ok m' ∧ HoldsMat h w (fun y x => l (pY + y) (pX + x)) m' := by
    intro h w lh lw l g b m hb hm hh hw
    rw [hm.1.1]
    obtain ⟨m', e, h'⟩ := forFrom_inv (f := fun y m => do
        let row ← idx m (y : Int)
        forFrom (fun x m => do
          let v ← at2 b ((pY + y : Nat) : Int) ((pX + x : Nat) : Int)
          set2 m (y : Int) (x : Int) v) row.length 0 m) (fun y m => HoldsMat h w (fun j k => if j < y then l (pY + j) (pX + k) else g j k) m) h 0 m
      (hm.congr (fun y x _ _ => by rw [if_neg (by omega)])) (by
        intro y m _ hy hm
        obtain ⟨r, er, hl, _⟩ := hm.row (show y < h by omega)
        rw [er, Res.bind_ok, hl]
        obtain ⟨m', e, h'⟩ := forFrom_inv (f := fun x m => do
          let v ← at2 b ((pY + y : Nat) : Int) ((pX + x : Nat) : Int)
          set2 m (y : Int) (x : Int) v) (fun x m => HoldsMat h w (fun j k => if j < y ∨ (j = y ∧ k < x) then l (pY + j) (pX + k) else g j k) m) w 0 m
          (hm.congr (fun j k _ _ => by
            by_cases hj : j < y
            · rw [if_pos hj, if_pos (Or.inl hj)]
            · rw [if_neg hj, if_neg (by omega)])) (by
            intro x m _ hx hm
            obtain ⟨m', e, h'⟩ := hm.set (show y < h by omega) (show x < w by omega) (l (pY + y) (pX + x))
            refine ⟨m', ?_, h'.congr (fun j k _ _ => ?_)⟩
            · rw [hb.at2 (by omega) (by omega), Res.bind_ok, e]
            · by_cases hjk : j = y ∧ k = x
              · rw [if_pos hjk, if_pos (by omega), hjk.1, hjk.2]
              · rw [if_neg hjk]
                by_cases hA' : j < y ∨ (j = y ∧ k < x)
                · rw [if_pos hA', if_pos (by omega)]
                · rw [if_neg hA', if_neg (by omega)])
        refine ⟨m', e, h'.congr (fun j k _ hk => ?_)⟩
        by_cases hj : j < y + 1
        · rw [if_pos hj, if_pos (by omega)]
        · rw [if_neg hj, if_neg (by omega)])
    exact ⟨m', e, h'.congr (fun j k hj _ => if_pos (by omega))⟩
  obtain ⟨a, b, c, rfl, ha, hb, hc⟩ := hp
  obtain ⟨la, lb, lc, rfl, hla, hlb, hlc⟩ := hlf
  obtain ⟨a', ea, ha'⟩ := one hla ha (hH 0 (by omega)) (hW 0 (by omega))
  obtain ⟨b', eb, hb'⟩ := one hlb hb (hH 1 (by omega)) (hW 1 (by omega))
  obtain ⟨c', ec, hc'⟩ := one hlc hc (hH 2 (by omega)) (hW 2 (by omega))
  refine ⟨[a', b', c'], ?_, a', b', c', rfl, ha', hb', hc'⟩
  unfold copyLFFrame
  rw [forFrom]
  have i0 : idx [la, lb, lc] ((0 : Nat) : Int) = .ok la := rfl
  have i1 : idx [la, lb, lc] ((0 + 1 : Nat) : Int) = .ok lb := rfl
  have i2 : idx [la, lb, lc] ((0 + 1 + 1 : Nat) : Int) = .ok lc := rfl
  have p0 : idx [a, b, c] ((0 : Nat) : Int) = .ok a := rfl
  have p1 : idx [a', b, c] ((0 + 1 : Nat) : Int) = .ok b := rfl
  have p2 : idx [a', b', c] ((0 + 1 + 1 : Nat) : Int) = .ok c := rfl
  have q0 : setAt [a, b, c] ((0 : Nat) : Int) a' = .ok [a', b, c] := rfl
  have q1 : setAt [a', b, c] ((0 + 1 : Nat) : Int) b' = .ok [a', b', c] := rfl
  have q2 : setAt [a', b', c] ((0 + 1 + 1 : Nat) : Int) c' = .ok [a', b', c'] := rfl
  rw [i0, Res.bind_ok, p0, Res.bind_ok, ea, Res.bind_ok, q0, Res.bind_ok, forFrom, i1, Res.bind_ok, p1, Res.bind_ok, eb, Res.bind_ok, q1, Res.bind_ok, forFrom, i2, Res.bind_ok, p2,
    Res.bind_ok, ec, Res.bind_ok, q2, Res.bind_ok]
  rfl

end

end Jxl
