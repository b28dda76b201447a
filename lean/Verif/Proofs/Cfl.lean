import Verif.Proofs.Dequant

/-! # Lemmas: chroma from luma -/
namespace Jxl

/-- A plane that holds the samples `f`. -/
def HoldsMat {α : Type} (H W : Nat) (f : Nat → Nat → α) (m : List (List α)) : Prop := Table H W m ∧ ∀ y x, y < H → x < W → sample m y x = some (f y x)

theorem HoldsMat.congr {α : Type} {H W : Nat} {f g : Nat → Nat → α} {m : List (List α)} (h : HoldsMat H W f m) (e : ∀ y x, y < H → x < W → f y x = g y x) : HoldsMat H W g m :=
  ⟨h.1, fun y x hy hx => by rw [h.2 y x hy hx, e y x hy hx]⟩

theorem HoldsMat.set {α : Type} {H W : Nat} {f : Nat → Nat → α} {m : List (List α)} (h : HoldsMat H W f m) {y x : Nat} (hy : y < H) (hx : x < W) (v : α) :
    ∃ m', set2 m (y : Int) (x : Int) v = .ok m' ∧ HoldsMat H W (fun j k => if j = y ∧ k = x then v else f j k) m' := by
  obtain ⟨m', e, t, s⟩ := set2_table h.1 hy hx v
  refine ⟨m', e, t, fun j k hj hk => ?_⟩
  rw [s]
  dsimp only
  split
  · rfl
  · exact h.2 j k hj hk

theorem HoldsMat.at2 {α : Type} {H W : Nat} {f : Nat → Nat → α} {m : List (List α)} (h : HoldsMat H W f m) {y x : Nat} (hy : y < H) (hx : x < W) :
    at2 m (y : Int) (x : Int) = .ok (f y x) := at2_sample (h.2 y x hy hx)

section
variable {α : Type} [Arith α]

/-- The factors of the tiles whose first pixel has been visited, and 0. -/
def tileTable (V : Nat → Nat → Bool) (base inv : α) (hf : Nat → Nat → Int) (fy fx : Nat) : α := if V (fy * 64) (fx * 64) then base + Arith.lit (hf fy fx : Rat) * inv else Arith.lit 0

/-- The state of the loops. -/
structure CflInv (p : CflParams α) (th tw H W : Nat) (hx hb : Nat → Nat → Int) (V : Nat → Nat → Bool) (f0 f2 : Nat → Nat → α) (s : CflState α) : Prop where
  xF : HoldsMat th tw (tileTable V p.baseX p.inv hx) s.xF
  bF : HoldsMat th tw (tileTable V p.baseB p.inv hb) s.bF
  p0 : HoldsMat H W f0 s.p0
  p2 : HoldsMat H W f2 s.p2

theorem CflInv.congr {p : CflParams α} {th tw H W : Nat} {hx hb : Nat → Nat → Int} {V V' : Nat → Nat → Bool} {f0 f2 g0 g2 : Nat → Nat → α} {s : CflState α}
    (h : CflInv p th tw H W hx hb V f0 f2 s) (hV : ∀ Y X, V (Y * 64) (X * 64) = V' (Y * 64) (X * 64)) (h0 : ∀ y x, y < H → x < W → f0 y x = g0 y x) (h2 : ∀ y x, y < H → x < W → f2 y x = g2 y x) :
    CflInv p th tw H W hx hb V' g0 g2 s :=
  ⟨h.xF.congr fun y x _ _ => by unfold tileTable; rw [hV], h.bF.congr fun y x _ _ => by unfold tileTable; rw [hV], h.p0.congr h0, h.p2.congr h2⟩

variable {p : CflParams α} {th tw H W : Nat} {hx hb : Nat → Nat → Int}

theorem cflPixel_ok (hhx : ∀ y x, y < th → x < tw → sample p.hfX y x = some (hx y x)) (hhb : ∀ y x, y < th → x < tw → sample p.hfB y x = some (hb y x))
    {luma : List (List α)} {fl f0 f2 : Nat → Nat → α} (hl : HoldsMat H W fl luma) {V : Nat → Nat → Bool} {s : CflState α} (hs : CflInv p th tw H W hx hb V f0 f2 s)
    {y x : Nat} (hty : y / 64 < th) (htx : x / 64 < tw) (hy : y % 256 < H) (hxx : x % 256 < W) (V' : Nat → Nat → Bool)
    (hV' : ∀ Y X, V' (Y * 64) (X * 64) = (V (Y * 64) (X * 64) || decide (Y * 64 = y ∧ X * 64 = x))) :
    ∃ s', cflPixel p luma y x s = .ok s' ∧ CflInv p th tw H W hx hb V'
      (fun j k => if j = y % 256 ∧ k = x % 256 then f0 j k + tileTable V' p.baseX p.inv hx (y / 64) (x / 64) * fl j k else f0 j k)
      (fun j k => if j = y % 256 ∧ k = x % 256 then f2 j k + tileTable V' p.baseB p.inv hb (y / 64) (x / 64) * fl j k else f2 j k) s' := by
  have e255 : ∀ z : Nat, z &&& 255 = z % 256 := fun z => Nat.and_two_pow_sub_one_eq_mod z 8
  have e6 : ∀ z : Nat, z >>> 6 = z / 64 := fun z => Nat.shiftRight_eq_div_pow z 6
  have e6' : ∀ z : Nat, z <<< 6 = z * 64 := fun z => Nat.shiftLeft_eq z 6
  obtain ⟨s1, e1, i1⟩ : ∃ s1, cflFactors p y x s = .ok s1 ∧ CflInv p th tw H W hx hb V' f0 f2 s1 := by
    unfold cflFactors
    simp only [e6, e6']
    by_cases ho : y / 64 * 64 = y ∧ x / 64 * 64 = x
    · rw [if_pos (by simp [ho.1, ho.2]), at2_sample (hhx _ _ hty htx), Res.bind_ok, at2_sample (hhb _ _ hty htx), Res.bind_ok]
      obtain ⟨m1, e1, k1⟩ := hs.xF.set hty htx (p.baseX + Arith.lit (hx (y / 64) (x / 64) : Rat) * p.inv)
      obtain ⟨m2, e2, k2⟩ := hs.bF.set hty htx (p.baseB + Arith.lit (hb (y / 64) (x / 64) : Rat) * p.inv)
      refine ⟨{ s with xF := m1, bF := m2 }, by rw [e1, Res.bind_ok, e2, Res.bind_ok], k1.congr fun j k _ _ => ?_, k2.congr fun j k _ _ => ?_, hs.p0, hs.p2⟩
      all_goals
        unfold tileTable
        rw [hV']
        by_cases hjk : j = y / 64 ∧ k = x / 64
        · obtain ⟨rfl, rfl⟩ := hjk
          rw [if_pos ⟨rfl, rfl⟩, decide_eq_true ho, Bool.or_true, if_pos rfl]
        · rw [if_neg hjk, decide_eq_false (by omega), Bool.or_false]
    · rw [if_neg (by simp only [Bool.and_eq_true, beq_iff_eq]; exact ho)]
      refine ⟨s, rfl, hs.congr (fun Y X => ?_) (fun _ _ _ _ => rfl) (fun _ _ _ _ => rfl)⟩
      rw [hV', decide_eq_false, Bool.or_false]
      omega
  unfold cflPixel
  rw [e1, Res.bind_ok]
  simp only [e255, e6]
  rw [i1.xF.at2 hty htx, Res.bind_ok, i1.bF.at2 hty htx, Res.bind_ok, hl.at2 hy hxx, Res.bind_ok, i1.p0.at2 hy hxx, Res.bind_ok]
  obtain ⟨m1, e1, k1⟩ := i1.p0.set hy hxx (f0 (y % 256) (x % 256) + tileTable V' p.baseX p.inv hx (y / 64) (x / 64) * fl (y % 256) (x % 256))
  obtain ⟨m2, e2, k2⟩ := i1.p2.set hy hxx (f2 (y % 256) (x % 256) + tileTable V' p.baseB p.inv hb (y / 64) (x / 64) * fl (y % 256) (x % 256))
  refine ⟨{ s1 with p0 := m1, p2 := m2 }, by rw [e1, Res.bind_ok, i1.p2.at2 hy hxx, Res.bind_ok, e2, Res.bind_ok], i1.xF, i1.bF, k1.congr fun j k _ _ => ?_, k2.congr fun j k _ _ => ?_⟩
  all_goals
    by_cases hjk : j = y % 256 ∧ k = x % 256
    · rw [if_pos hjk, if_pos hjk, hjk.1, hjk.2]
    · rw [if_neg hjk, if_neg hjk]

/-- One block of `h` rows and `w` columns, at (`y0`, `x0`) in its group and (`Y0`, `X0`) in the LF group. -/
theorem cflBlock_ok (hhx : ∀ y x, y < th → x < tw → sample p.hfX y x = some (hx y x)) (hhb : ∀ y x, y < th → x < tw → sample p.hfB y x = some (hb y x))
    {luma : List (List α)} {fl f0 f2 : Nat → Nat → α} (hl : HoldsMat H W fl luma) {V : Nat → Nat → Bool} {s : CflState α} (hs : CflInv p th tw H W hx hb V f0 f2 s)
    {Y0 X0 y0 x0 h w : Nat} (hY : Y0 % 256 = y0) (hX : X0 % 256 = x0) (h256 : y0 + h ≤ 256) (w256 : x0 + w ≤ 256) (hH : y0 + h ≤ H) (hW : x0 + w ≤ W)
    (hth : Y0 + h ≤ th * 64) (htw : X0 + w ≤ tw * 64) (V' : Nat → Nat → Bool)
    (hV' : ∀ Y X, V' Y X = (V Y X || decide ((Y0 ≤ Y ∧ Y < Y0 + h) ∧ (X0 ≤ X ∧ X < X0 + w)))) :
    ∃ s', forFrom (fun iy s => forFrom (fun ix s => cflPixel p luma (Y0 + iy) (X0 + ix) s) w 0 s) h 0 s = .ok s' ∧ CflInv p th tw H W hx hb V'
      (fun j k => if (y0 ≤ j ∧ j < y0 + h) ∧ (x0 ≤ k ∧ k < x0 + w) then f0 j k + tileTable V' p.baseX p.inv hx ((Y0 + (j - y0)) / 64) ((X0 + (k - x0)) / 64) * fl j k else f0 j k)
      (fun j k => if (y0 ≤ j ∧ j < y0 + h) ∧ (x0 ≤ k ∧ k < x0 + w) then f2 j k + tileTable V' p.baseB p.inv hb ((Y0 + (j - y0)) / 64) ((X0 + (k - x0)) / 64) * fl j k else f2 j k) s' := by
  let Vi : Nat → Nat → Nat → Nat → Bool := fun iy ix Y X => V Y X || decide ((Y0 ≤ Y ∧ (Y < Y0 + iy ∨ Y = Y0 + iy ∧ X < X0 + ix)) ∧ (X0 ≤ X ∧ X < X0 + w))
  let G : α → (Nat → Nat → Int) → (Nat → Nat → α) → Nat → Nat → Nat → Nat → α := fun base hf f iy ix j k =>
    if (y0 ≤ j ∧ (j < y0 + iy ∨ j = y0 + iy ∧ k < x0 + ix)) ∧ (x0 ≤ k ∧ k < x0 + w) then f j k + tileTable V' base p.inv hf ((Y0 + (j - y0)) / 64) ((X0 + (k - x0)) / 64) * fl j k else f j k
  obtain ⟨s', e, i⟩ := fill_loop (f := fun iy ix s => cflPixel p luma (Y0 + iy) (X0 + ix) s)
    (fun iy ix s => CflInv p th tw H W hx hb (Vi iy ix) (G p.baseX hx f0 iy ix) (G p.baseB hb f2 iy ix) s) h w s
    (hs.congr (fun Y X => by
        simp only [Vi]
        rw [decide_eq_false (by omega), Bool.or_false]) (fun j k _ _ => by simp only [G]; rw [if_neg (by omega)]) (fun j k _ _ => by simp only [G]; rw [if_neg (by omega)]))
    (by
      intro iy ix s hiy hix hi
      have m1 : (Y0 + iy) % 256 = y0 + iy := by omega
      have m2 : (X0 + ix) % 256 = x0 + ix := by omega
      obtain ⟨s', e, i⟩ := cflPixel_ok hhx hhb hl hi (y := Y0 + iy) (x := X0 + ix) (by omega) (by omega) (by omega) (by omega) (Vi iy (ix + 1)) (by
        intro Y X
        simp only [Vi]
        rw [Bool.or_assoc, ← Bool.decide_or]
        congr 1
        rw [decide_eq_decide]
        omega)
      have hK : ∀ base hf, tileTable (Vi iy (ix + 1)) base p.inv hf ((Y0 + iy) / 64) ((X0 + ix) / 64) = tileTable V' base p.inv hf ((Y0 + iy) / 64) ((X0 + ix) / 64) := by
        intro base hf
        have : Vi iy (ix + 1) ((Y0 + iy) / 64 * 64) ((X0 + ix) / 64 * 64) = V' ((Y0 + iy) / 64 * 64) ((X0 + ix) / 64 * 64) := by
          rw [hV']
          simp only [Vi]
          congr 1
          rw [decide_eq_decide]
          omega
        unfold tileTable
        rw [this]
      refine ⟨s', e, i.congr (fun _ _ => rfl) ?_ ?_⟩
      all_goals
        intro j k _ _
        rw [m1, m2, hK]
        simp only [G]
        by_cases hjk : j = y0 + iy ∧ k = x0 + ix
        · obtain ⟨rfl, rfl⟩ := hjk
          rw [if_pos ⟨rfl, rfl⟩, if_neg (by omega), if_pos (by omega), Nat.add_sub_cancel_left, Nat.add_sub_cancel_left]
        · rw [if_neg hjk]
          by_cases hh : (y0 ≤ j ∧ (j < y0 + iy ∨ j = y0 + iy ∧ k < x0 + ix)) ∧ (x0 ≤ k ∧ k < x0 + w)
          · rw [if_pos hh, if_pos (by omega)]
          · rw [if_neg hh, if_neg (by omega)])
    (by
      intro iy s hiy hi
      refine hi.congr (fun Y X => ?_) ?_ ?_
      · simp only [Vi]
        congr 1
        rw [decide_eq_decide]
        omega
      all_goals
        intro j k _ _
        simp only [G]
        by_cases hh : (y0 ≤ j ∧ (j < y0 + iy ∨ j = y0 + iy ∧ k < x0 + w)) ∧ (x0 ≤ k ∧ k < x0 + w)
        · rw [if_pos hh, if_pos (by omega)]
        · rw [if_neg hh, if_neg (by omega)])
  refine ⟨s', e, i.congr (fun Y X => ?_) ?_ ?_⟩
  · simp only [Vi]
    rw [hV']
    congr 1
    rw [decide_eq_decide]
    omega
  all_goals
    intro j k _ _
    simp only [G]
    by_cases hh : (y0 ≤ j ∧ j < y0 + h) ∧ (x0 ≤ k ∧ k < x0 + w)
    · rw [if_pos hh, if_pos (by omega)]
    · rw [if_neg hh, if_neg (by omega)]

/-- The block covers the sample at (`j`, `k`) of its group. -/
def QBlock.Has (b : QBlock) (j k : Nat) : Prop := (8 * b.groupY ≤ j ∧ j < 8 * b.groupY + b.tt.tt.pixelHeight.toNat) ∧ (8 * b.groupX ≤ k ∧ k < 8 * b.groupX + b.tt.tt.pixelWidth.toNat)

theorem cflBlocks_ok (hhx : ∀ y x, y < th → x < tw → sample p.hfX y x = some (hx y x)) (hhb : ∀ y x, y < th → x < tw → sample p.hfB y x = some (hb y x))
    {luma : List (List α)} {fl : Nat → Nat → α} (hl : HoldsMat H W fl luma) {g : Nat × Nat} :
    ∀ (blocks seen : List QBlock) (f0 f2 : Nat → Nat → α) (s : CflState α),
      CflInv p th tw H W hx hb (fun Y X => seen.any fun b => b.covers (32 * g.1, 32 * g.2) Y X) f0 f2 s →
      (∀ b ∈ blocks, 8 * b.groupY + b.tt.tt.pixelHeight.toNat ≤ 256 ∧ 8 * b.groupX + b.tt.tt.pixelWidth.toNat ≤ 256 ∧
        8 * b.groupY + b.tt.tt.pixelHeight.toNat ≤ H ∧ 8 * b.groupX + b.tt.tt.pixelWidth.toNat ≤ W ∧
        256 * g.1 + 8 * b.groupY + b.tt.tt.pixelHeight.toNat ≤ th * 64 ∧ 256 * g.2 + 8 * b.groupX + b.tt.tt.pixelWidth.toNat ≤ tw * 64 ∧ 0 < b.tt.tt.pixelHeight.toNat ∧ 0 < b.tt.tt.pixelWidth.toNat) →
      (blocks.Pairwise fun b b' => ∀ j k, b.Has j k → ¬ b'.Has j k) →
      ∃ s' g0 g2, cflBlocks p (32 * g.1, 32 * g.2) luma blocks s = .ok s' ∧ HoldsMat H W g0 s'.p0 ∧ HoldsMat H W g2 s'.p2 ∧
        (∀ l1 b l2, blocks = l1 ++ b :: l2 → ∀ j k, b.Has j k →
          g0 j k = f0 j k + usedFactor (32 * g.1, 32 * g.2) (seen ++ l1 ++ [b]) p.baseX p.inv hx (256 * g.1 + j) (256 * g.2 + k) * fl j k ∧
          g2 j k = f2 j k + usedFactor (32 * g.1, 32 * g.2) (seen ++ l1 ++ [b]) p.baseB p.inv hb (256 * g.1 + j) (256 * g.2 + k) * fl j k) ∧
        ∀ j k, (∀ b ∈ blocks, ¬ b.Has j k) → g0 j k = f0 j k ∧ g2 j k = f2 j k
  | [], seen, f0, f2, s, hs, _, _ => ⟨s, f0, f2, rfl, hs.p0, hs.p2, fun l1 b l2 h => by simp at h, fun _ _ _ => ⟨rfl, rfl⟩⟩
  | b :: bs, seen, f0, f2, s, hs, hin, hap => by
    obtain ⟨i1, i2, i3, i4, i5, i6, i7, i8⟩ := hin b List.mem_cons_self
    obtain ⟨s1, e1, inv1⟩ := cflBlock_ok hhx hhb hl hs (Y0 := 8 * (32 * g.1 + b.groupY)) (X0 := 8 * (32 * g.2 + b.groupX)) (y0 := 8 * b.groupY) (x0 := 8 * b.groupX)
      (h := b.tt.tt.pixelHeight.toNat) (w := b.tt.tt.pixelWidth.toNat) (by omega) (by omega) i1 i2 i3 i4 (by omega) (by omega)
      (fun Y X => (seen ++ [b]).any fun b => b.covers (32 * g.1, 32 * g.2) Y X) (by
        intro Y X
        rw [List.any_append]
        congr 1
        rw [List.any_cons, List.any_nil, Bool.or_false]
        rfl)
    have hp := List.pairwise_cons.1 hap
    obtain ⟨s2, g0, g2, e2, q0, q2, r1, r2⟩ := cflBlocks_ok hhx hhb hl bs (seen ++ [b]) _ _ s1 inv1 (fun x hx => hin x (List.mem_cons_of_mem _ hx)) hp.2
    have e8 : ∀ z : Nat, z <<< 3 = 8 * z := fun z => by rw [Nat.shiftLeft_eq, Nat.mul_comm]
    refine ⟨s2, g0, g2, ?_, q0, q2, fun l1 x l2 hl12 j k hx => ?_, fun j k hno => ?_⟩
    · rw [cflBlocks]
      simp only [e8]
      rw [e1, Res.bind_ok, e2]
    · rcases l1 with _ | ⟨b1, l1⟩
      · simp only [List.nil_append, List.cons.injEq] at hl12
        obtain ⟨rfl, rfl⟩ := hl12
        obtain ⟨a0, a2⟩ := r2 j k (fun b' hb' => hp.1 b' hb' j k hx)
        have hx' := hx
        unfold QBlock.Has at hx'
        rw [a0, a2, if_pos hx', if_pos hx', List.append_nil, show 8 * (32 * g.1 + b.groupY) + (j - 8 * b.groupY) = 256 * g.1 + j by omega,
          show 8 * (32 * g.2 + b.groupX) + (k - 8 * b.groupX) = 256 * g.2 + k by omega]
        exact ⟨rfl, rfl⟩
      · rw [List.cons_append, List.cons.injEq] at hl12
        obtain ⟨rfl, rfl⟩ := hl12
        have hno : ¬ ((8 * b.groupY ≤ j ∧ j < 8 * b.groupY + b.tt.tt.pixelHeight.toNat) ∧ (8 * b.groupX ≤ k ∧ k < 8 * b.groupX + b.tt.tt.pixelWidth.toNat)) :=
          fun h => hp.1 x (by simp) j k h hx
        obtain ⟨a0, a2⟩ := r1 l1 x l2 rfl j k hx
        rw [a0, a2, if_neg hno, if_neg hno, List.append_assoc seen [b] l1]
        exact ⟨rfl, rfl⟩
    · obtain ⟨a0, a2⟩ := r2 j k (fun b' hb' => hno b' (List.mem_cons_of_mem _ hb'))
      have := hno b List.mem_cons_self
      unfold QBlock.Has at this
      rw [a0, a2, if_neg this, if_neg this]
      exact ⟨rfl, rfl⟩

end

end Jxl
