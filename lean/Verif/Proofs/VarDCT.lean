import Verif.Proofs.DCT
import Verif.Model.VarDCT
import Verif.Spec.VarDCT

/-! # Blocks: what the loops compute -/
namespace Jxl

theorem at2_block {α : Type} {y0 x0 h w : Nat} {f : Nat → Nat → α} {m : List (List α)} (hb : HasBlock y0 x0 h w f m) {y x : Nat} (hy : y < h) (hx : x < w) :
    at2 m ((y0 + y : Nat) : Int) ((x0 + x : Nat) : Int) = .ok (f y x) := at2_sample (hb y x hy hx)

/-- A double loop that fills a rectangle. -/
theorem fillBlock_ok {α : Type} {H W : Nat} {m : List (List α)} (hT : Table H W m) {y0 x0 h w : Nat} (hH : y0 + h ≤ H) (hW : x0 + w ≤ W) {g : Nat → Nat → α}
    {body : Nat → Nat → List (List α) → Res (List (List α))}
    (hb : ∀ y x m', y < h → x < w → body y x m' = set2 m' ((y0 + y : Nat) : Int) ((x0 + x : Nat) : Int) (g y x)) :
    ∃ m', forFrom (fun y m => forFrom (fun x m => body y x m) w 0 m) h 0 m = .ok m' ∧ Laid H W y0 x0 h w g m m' := by
  obtain ⟨m', e, h1, h2⟩ := fill_loop (f := body) (fun y x m' => Table H W m' ∧ ∀ j k, sample m' j k =
      if (y0 ≤ j ∧ (j < y0 + y ∨ j = y0 + y ∧ k < x0 + x)) ∧ (x0 ≤ k ∧ k < x0 + w) then some (g (j - y0) (k - x0)) else sample m j k) h w m
    ⟨hT, fun j k => by rw [if_neg (by omega)]⟩
    (by
      rintro y x m1 hy hx ⟨h1, h2⟩
      obtain ⟨m2, e2, t2, s2⟩ := set2_table h1 (y := y0 + y) (x := x0 + x) (by omega) (by omega) (g y x)
      refine ⟨m2, by rw [hb y x m1 hy hx, e2], t2, fun j k => ?_⟩
      rw [s2 j k, h2 j k]
      by_cases hjk : j = y0 + y ∧ k = x0 + x
      · obtain ⟨rfl, rfl⟩ := hjk
        rw [if_pos ⟨rfl, rfl⟩, if_pos (by omega), show y0 + y - y0 = y by omega, show x0 + x - x0 = x by omega]
      · rw [if_neg hjk]
        by_cases hin : (y0 ≤ j ∧ (j < y0 + y ∨ j = y0 + y ∧ k < x0 + x)) ∧ (x0 ≤ k ∧ k < x0 + w)
        · rw [if_pos hin, if_pos (by omega)]
        · rw [if_neg hin, if_neg (by omega)])
    (by
      rintro y m1 hy ⟨h1, h2⟩
      refine ⟨h1, fun j k => ?_⟩
      rw [h2 j k]
      by_cases hin : (y0 ≤ j ∧ (j < y0 + y ∨ j = y0 + y ∧ k < x0 + w)) ∧ (x0 ≤ k ∧ k < x0 + w)
      · rw [if_pos hin, if_pos (by omega)]
      · rw [if_neg hin, if_neg (by omega)])
  refine ⟨m', e, h1, fun j k => ?_⟩
  rw [h2 j k]
  by_cases hin : (y0 ≤ j ∧ j < y0 + h) ∧ (x0 ≤ k ∧ k < x0 + w)
  · rw [if_pos hin, if_pos (by omega)]
  · rw [if_neg hin, if_neg (by omega)]

theorem copySpan_ok {α : Type} {dst src : List α} {xo xi w : Nat} (h1 : xo + w ≤ dst.length) {s : Nat → α} (hw : 0 < w) (hs : ∀ x, x < w → src[xi + x]? = some (s x)) :
    ∃ d', copySpan dst src xo xi w = .ok d' ∧ RowLaid xo w s dst d' := by
  have h2 : xi + w ≤ src.length := by
    have := hs (w - 1) (by omega)
    obtain ⟨h, _⟩ := List.getElem?_eq_some_iff.1 this
    omega
  unfold copySpan
  rw [if_pos ⟨h1, h2⟩]
  have l1 : (List.take xo dst).length = xo := by rw [List.length_take]; omega
  have l2 : (List.take w (List.drop xi src)).length = w := by rw [List.length_take, List.length_drop]; omega
  refine ⟨_, rfl, ?_, fun j => ?_⟩
  · rw [List.length_append, List.length_append, l1, l2, List.length_drop]
    omega
  · by_cases ha : j < xo
    · rw [if_neg (by omega), List.append_assoc, List.getElem?_append_left (by omega), List.getElem?_take_of_lt ha]
    · by_cases hb : j < xo + w
      · rw [if_pos ⟨by omega, hb⟩, List.append_assoc, List.getElem?_append_right (by omega), l1, List.getElem?_append_left (by omega),
          List.getElem?_take_of_lt (by omega), List.getElem?_drop, hs _ (by omega)]
      · rw [if_neg (by omega), List.getElem?_append_right (by rw [List.length_append]; omega), List.length_append, l1, l2, List.getElem?_drop]
        congr 1
        omega

theorem layBlock_ok {α : Type} {H W : Nat} {block buffer : List (List α)} (hT : Table H W buffer) {yi xi yo xo h w : Nat} (hw : 0 < w) (hH : yo + h ≤ H) (hW : xo + w ≤ W)
    {f : Nat → Nat → α} (hb : HasBlock yi xi h w f block) :
    ∃ b', layBlock block buffer (yi, xi) (yo, xo) (h, w) = .ok b' ∧ Laid H W yo xo h w f buffer b' := by
  unfold layBlock
  refine dctRows_ok hT hH (fun y hy => ?_)
  obtain ⟨r, hr, hv⟩ := hb.row hw hy
  exact ⟨r, hr, fun d hd => copySpan_ok (by omega) hw hv⟩

section
variable {α : Type} [Arith α]

theorem auxDCT2_ok {H W : Nat} {coeffs result : List (List α)} (hT : Table H W result) {py px sy sx num : Nat} {f : Nat → Nat → α} (hf : HasBlock py px 8 8 f coeffs)
    (hn : num ≤ 4) (hH : sy + 8 ≤ H) (hW : sx + 8 ≤ W) :
    ∃ r', auxDCT2 coeffs result (py, px) (sy, sx) (2 * num) = .ok r' ∧ Laid H W sy sx 8 8 (haarStep num f) result r' := by
  unfold auxDCT2
  obtain ⟨r0, e0, t0, L0⟩ := layBlock_ok hT (by decide) hH hW hf
  rw [e0, Res.bind_ok]
  have en : 2 * num / 2 = num := by omega
  simp only [en]
  obtain ⟨m', e, h1, h2⟩ := fill_loop (f := fun iy ix result => do
    let c00 ← at2 coeffs ((py + iy : Nat) : Int) ((px + ix : Nat) : Int)
    let c01 ← at2 coeffs ((py + iy : Nat) : Int) ((px + ix + num : Nat) : Int)
    let c10 ← at2 coeffs ((py + iy + num : Nat) : Int) ((px + ix : Nat) : Int)
    let c11 ← at2 coeffs ((py + iy + num : Nat) : Int) ((px + ix + num : Nat) : Int)
    let result ← set2 result ((sy + iy * 2 : Nat) : Int) ((sx + ix * 2 : Nat) : Int) (c00 + c01 + c10 + c11)
    let result ← set2 result ((sy + iy * 2 : Nat) : Int) ((sx + ix * 2 + 1 : Nat) : Int) (c00 + c01 - c10 - c11)
    let result ← set2 result ((sy + iy * 2 + 1 : Nat) : Int) ((sx + ix * 2 : Nat) : Int) (c00 - c01 + c10 - c11)
    set2 result ((sy + iy * 2 + 1 : Nat) : Int) ((sx + ix * 2 + 1 : Nat) : Int) (c00 - c01 - c10 + c11))
    (fun y x m' => Table H W m' ∧ ∀ j k, sample m' j k =
      if (sy ≤ j ∧ (j < sy + y * 2 ∨ j < sy + y * 2 + 2 ∧ k < sx + x * 2)) ∧ (sx ≤ k ∧ k < sx + 2 * num) then some (haarStep num f (j - sy) (k - sx)) else sample r0 j k)
    num num r0 ⟨t0, fun j k => by rw [if_neg (by omega)]⟩
    (by
      rintro y x m1 hy hx ⟨h1, h2⟩
      have c00 := at2_block hf (y := y) (x := x) (by omega) (by omega)
      have c01 := at2_block hf (y := y) (x := x + num) (by omega) (by omega)
      have c10 := at2_block hf (y := y + num) (x := x) (by omega) (by omega)
      have c11 := at2_block hf (y := y + num) (x := x + num) (by omega) (by omega)
      rw [← Nat.add_assoc] at c01 c10
      rw [← Nat.add_assoc, ← Nat.add_assoc] at c11
      obtain ⟨m2, e2, t2, s2⟩ := set2_table h1 (y := sy + y * 2) (x := sx + x * 2) (by omega) (by omega) (f y x + f y (x + num) + f (y + num) x + f (y + num) (x + num))
      obtain ⟨m3, e3, t3, s3⟩ := set2_table t2 (y := sy + y * 2) (x := sx + x * 2 + 1) (by omega) (by omega) (f y x + f y (x + num) - f (y + num) x - f (y + num) (x + num))
      obtain ⟨m4, e4, t4, s4⟩ := set2_table t3 (y := sy + y * 2 + 1) (x := sx + x * 2) (by omega) (by omega) (f y x - f y (x + num) + f (y + num) x - f (y + num) (x + num))
      obtain ⟨m5, e5, t5, s5⟩ := set2_table t4 (y := sy + y * 2 + 1) (x := sx + x * 2 + 1) (by omega) (by omega) (f y x - f y (x + num) - f (y + num) x + f (y + num) (x + num))
      refine ⟨m5, by rw [c00, Res.bind_ok, c01, Res.bind_ok, c10, Res.bind_ok, c11, Res.bind_ok, e2, Res.bind_ok, e3, Res.bind_ok, e4, Res.bind_ok, e5], t5, fun j k => ?_⟩
      rw [s5 j k, s4 j k, s3 j k, s2 j k, h2 j k]
      by_cases hin : (sy + y * 2 ≤ j ∧ j < sy + y * 2 + 2) ∧ (sx + x * 2 ≤ k ∧ k < sx + x * 2 + 2)
      · rw [if_pos (show (sy ≤ j ∧ (j < sy + y * 2 ∨ j < sy + y * 2 + 2 ∧ k < sx + (x + 1) * 2)) ∧ (sx ≤ k ∧ k < sx + 2 * num) by omega)]
        obtain ⟨p, hp, rfl⟩ : ∃ p, p < 2 ∧ j = sy + y * 2 + p := ⟨j - (sy + y * 2), by omega, by omega⟩
        obtain ⟨q, hq, rfl⟩ : ∃ q, q < 2 ∧ k = sx + x * 2 + q := ⟨k - (sx + x * 2), by omega, by omega⟩
        unfold haarStep
        rw [if_pos (show sy + y * 2 + p - sy < 2 * num ∧ sx + x * 2 + q - sx < 2 * num by omega)]
        simp only [show (sy + y * 2 + p - sy) / 2 = y by omega, show (sx + x * 2 + q - sx) / 2 = x by omega,
          show (sy + y * 2 + p - sy) % 2 = p by omega, show (sx + x * 2 + q - sx) % 2 = q by omega]
        obtain rfl | rfl : p = 0 ∨ p = 1 := by omega
        · obtain rfl | rfl : q = 0 ∨ q = 1 := by omega
          · rw [if_neg (by omega), if_neg (by omega), if_neg (by omega), if_pos (by omega), if_pos rfl, if_pos rfl]
          · rw [if_neg (by omega), if_neg (by omega), if_pos (by omega), if_pos rfl, if_neg (by decide)]
        · obtain rfl | rfl : q = 0 ∨ q = 1 := by omega
          · rw [if_neg (by omega), if_pos (by omega), if_neg (by decide), if_pos rfl]
          · rw [if_pos (by omega), if_neg (by decide), if_neg (by decide)]
      · rw [if_neg (by omega), if_neg (by omega), if_neg (by omega), if_neg (by omega)]
        by_cases hb : (sy ≤ j ∧ (j < sy + y * 2 ∨ j < sy + y * 2 + 2 ∧ k < sx + x * 2)) ∧ (sx ≤ k ∧ k < sx + 2 * num)
        · rw [if_pos hb, if_pos (by omega)]
        · rw [if_neg hb, if_neg (by omega)])
    (by
      rintro y m1 hy ⟨h1, h2⟩
      refine ⟨h1, fun j k => ?_⟩
      rw [h2 j k]
      by_cases hb : (sy ≤ j ∧ (j < sy + y * 2 ∨ j < sy + y * 2 + 2 ∧ k < sx + num * 2)) ∧ (sx ≤ k ∧ k < sx + 2 * num)
      · rw [if_pos hb, if_pos (by omega)]
      · rw [if_neg hb, if_neg (by omega)])
  refine ⟨m', e, h1, fun j k => ?_⟩
  rw [h2 j k, L0 j k]
  by_cases hin : (sy ≤ j ∧ (j < sy + num * 2 ∨ j < sy + num * 2 + 2 ∧ k < sx + 0 * 2)) ∧ (sx ≤ k ∧ k < sx + 2 * num)
  · rw [if_pos hin, if_pos (by omega)]
  · rw [if_neg hin]
    by_cases hb : (sy ≤ j ∧ j < sy + 8) ∧ (sx ≤ k ∧ k < sx + 8)
    · rw [if_pos hb, if_pos hb]
      unfold haarStep
      rw [if_neg (by omega)]
    · rw [if_neg hb, if_neg hb]

/-- Gathering coefficients. -/
theorem gatherRows_ok {S : Nat} {coeffs s0 : List (List α)} (t0 : Table S S s0) (hS : 8 ≤ S) {at_ : Nat → Nat → Nat × Nat} {w : Nat} (hw : 0 < w) (hw' : w ≤ 8) {g : Nat → Nat → α}
    (hg : ∀ y x, y < 4 → x < w → at2 coeffs ((at_ y x).1 : Int) ((at_ y x).2 : Int) = .ok (g y x)) {lf : α} (h0 : sample s0 0 0 = some lf) :
    ∃ s', gatherRows coeffs at_ w s0 = .ok s' ∧ Table S S s' ∧ HasBlock 0 0 4 w (fun m n => if m = 0 ∧ n = 0 then lf else g m n) s' := by
  unfold gatherRows
  obtain ⟨s', e, h1, h2⟩ := forFrom_inv (f := fun iy s0 =>
    let startX := if iy = 0 then 1 else 0
    forFrom (fun ix s0 => do
      let v ← at2 coeffs ((at_ iy ix).1 : Int) ((at_ iy ix).2 : Int)
      set2 s0 (iy : Int) (ix : Int) v) (w - startX) startX s0)
    (fun i s => Table S S s ∧ ∀ j k, j < 4 → k < w → (j = 0 ∧ k = 0 → sample s j k = some lf) ∧ (¬ (j = 0 ∧ k = 0) → j < i → sample s j k = some (g j k))) 4 0 s0
    ⟨t0, fun j k _ _ => ⟨fun h => by rw [h.1, h.2, h0], fun _ h => by omega⟩⟩
    (by
      rintro y s _ hy ⟨h1, h2⟩
      obtain ⟨s', e, h3, h4⟩ := forFrom_inv (f := fun ix s0 => do
          let v ← at2 coeffs ((at_ y ix).1 : Int) ((at_ y ix).2 : Int)
          set2 s0 (y : Int) (ix : Int) v)
        (fun i s' => Table S S s' ∧ ∀ j k, sample s' j k = if j = y ∧ (if y = 0 then 1 else 0) ≤ k ∧ k < i then some (g y k) else sample s j k)
        (w - if y = 0 then 1 else 0) (if y = 0 then 1 else 0) s
        ⟨h1, fun j k => by rw [if_neg (by omega)]⟩
        (by
          rintro x s1 ha hb ⟨h3, h4⟩
          have hx : x < w := by split at hb <;> omega
          obtain ⟨s2, e2, t2, v2⟩ := set2_table h3 (y := y) (x := x) (by omega) (by omega) (g y x)
          refine ⟨s2, by rw [hg y x (by omega) hx, Res.bind_ok, e2], t2, fun j k => ?_⟩
          rw [v2 j k, h4 j k]
          by_cases hjk : j = y ∧ k = x
          · obtain ⟨rfl, rfl⟩ := hjk
            rw [if_pos ⟨rfl, rfl⟩, if_pos ⟨rfl, ha, by omega⟩]
          · rw [if_neg hjk]
            by_cases hin : j = y ∧ (if y = 0 then 1 else 0) ≤ k ∧ k < x
            · rw [if_pos hin, if_pos ⟨hin.1, hin.2.1, by omega⟩]
            · rw [if_neg hin, if_neg (fun h => hin ⟨h.1, h.2.1, by omega⟩)])
      refine ⟨s', e, h3, fun j k hj hk => ⟨fun h => ?_, fun h hlt => ?_⟩⟩
      · rw [h4 j k, if_neg (by rintro ⟨rfl, h5, -⟩; rw [if_pos h.1] at h5; omega)]
        exact (h2 j k hj hk).1 h
      · rw [h4 j k]
        by_cases hjy : j = y
        · subst hjy
          rw [if_pos ⟨rfl, by split <;> omega, by split <;> omega⟩]
        · rw [if_neg (fun h => hjy h.1)]
          exact (h2 j k hj hk).2 h (by omega))
  refine ⟨s', e, h1, fun y x hy hx => ?_⟩
  rw [Nat.zero_add, Nat.zero_add]
  beta_reduce
  by_cases h : y = 0 ∧ x = 0
  · rw [if_pos h]
    exact (h2 y x hy hx).1 h
  · rw [if_neg h]
    exact (h2 y x hy hx).2 h (by omega)

end

end Jxl
