import Verif.Proofs.Transforms
import Verif.Proofs.Image
import Verif.Model.DCT
import Verif.Spec.DCT
import Verif.Props.Util

/-! # Cosine transforms: what the loops compute -/
namespace Jxl

theorem idx_nat {α : Type} {l : List α} {i : Nat} {v : α} (h : l[i]? = some v) : idx l (i : Int) = .ok v := by
  unfold idx
  rw [if_neg (by omega), Int.toNat_natCast, h]

theorem setAt_natCast {α : Type} {l : List α} {i : Nat} (h : i < l.length) (v : α) : setAt l (i : Int) v = .ok (l.set i v) := by
  unfold setAt
  rw [if_neg (by omega), Int.toNat_natCast, if_pos h]

/-- A part of a row has been replaced. -/
def RowLaid {α : Type} (x0 w : Nat) (g : Nat → α) (d d' : List α) : Prop :=
  d'.length = d.length ∧ ∀ j, d'[j]? = if x0 ≤ j ∧ j < x0 + w then some (g (j - x0)) else d[j]?

/-! ## Rows -/

section
variable {α : Type} [Arith α]

theorem HasLUT.row {lut : List (List (List α))} {log len : Nat} {c : Nat → Nat → α} {t : List (List α)} (ht : ∀ n k, 1 ≤ n → n < len → k < len → sample t (n - 1) k = some (c n k))
    {n : Nat} (h1 : 1 ≤ n) (h2 : n < len) : ∃ l, idx t ((n : Int) - 1) = .ok l ∧ ∀ k, k < len → l[k]? = some (c n k) := by
  have h0 := ht n 0 h1 h2 (by omega)
  unfold sample at h0
  cases hl : t[n - 1]? with
  | none => rw [hl] at h0; cases h0
  | some l =>
    refine ⟨l, ?_, fun k hk => ?_⟩
    · rw [show (n : Int) - 1 = ((n - 1 : Nat) : Int) by omega]
      exact idx_nat hl
    · have := ht n k h1 h2 hk
      unfold sample at this
      rw [hl] at this
      exact this

theorem foldl_range'_succ {β : Type} (f : β → Nat → β) (n : Nat) (b : β) : (List.range' 1 (n + 1)).foldl f b = f ((List.range' 1 n).foldl f b) (n + 1) := by
  rw [List.range'_1_concat, List.foldl_append]
  simp [Nat.add_comm]

theorem inverseDCTHorizontal_ok {lut : List (List (List α))} {src dest : List α} {xIn xOut log len : Nat} (hl : 0 < len) {c : Nat → Nat → α} {s : Nat → α}
    (hs : ∀ n, n < len → src[xIn + n]? = some (s n)) (hc : HasLUT lut log len c) (hd : xOut + len ≤ dest.length) :
    ∃ d', inverseDCTHorizontal lut src dest xIn xOut log len = .ok d' ∧ RowLaid xOut len (idctVal c len s) dest d' := by
  unfold inverseDCTHorizontal
  obtain ⟨d1, e1, l1, g1⟩ := forFrom_inv (f := fun i dest => do
      let v ← idx src (xIn : Int)
      setAt dest (i : Int) v)
    (fun i d => d.length = dest.length ∧ ∀ j, d[j]? = if xOut ≤ j ∧ j < i then some (s 0) else dest[j]?) len xOut dest
    ⟨rfl, fun j => by rw [if_neg (by omega)]⟩
    (by
      rintro k d h1 h2 ⟨h3, h4⟩
      have h0 := hs 0 hl
      rw [Nat.add_zero] at h0
      refine ⟨d.set k (s 0), by rw [idx_nat h0, Res.bind_ok, setAt_natCast (by omega)], by rw [List.length_set]; exact h3, fun j => ?_⟩
      by_cases hj : j = k
      · subst hj
        rw [List.getElem?_set_self (by omega), if_pos (by omega)]
      · rw [List.getElem?_set_ne (by omega), h4 j]
        by_cases hc : xOut ≤ j ∧ j < k
        · rw [if_pos hc, if_pos (by omega)]
        · rw [if_neg hc, if_neg (by omega)])
  rw [e1, Res.bind_ok]
  obtain ⟨t, ht, hc⟩ := hc
  rw [idx_nat ht, Res.bind_ok]
  obtain ⟨d2, e2, l2, g2⟩ := forFrom_inv (f := fun n dest => do
      let l ← idx t ((n : Int) - 1)
      let s2 ← idx src ((xIn + n : Nat) : Int)
      forFrom (fun k dest => do
        let d ← idx dest ((xOut + k : Nat) : Int)
        let c ← idx l (k : Int)
        setAt dest ((xOut + k : Nat) : Int) (d + s2 * c)) len 0 dest)
    (fun i d => d.length = dest.length ∧ ∀ j, d[j]? = if xOut ≤ j ∧ j < xOut + len then some ((List.range' 1 (i - 1)).foldl (fun t n => t + s n * c n (j - xOut)) (s 0)) else dest[j]?)
    (len - 1) 1 d1 ⟨l1, g1⟩
    (by
      rintro n d h1 h2 ⟨h3, h4⟩
      obtain ⟨l, hl1, hl2⟩ := HasLUT.row (lut := lut) (log := log) hc h1 (by omega)
      rw [hl1, Res.bind_ok, idx_nat (hs n (by omega)), Res.bind_ok]
      have := forFrom_inv (f := fun k dest => do
          let d ← idx dest ((xOut + k : Nat) : Int)
          let c ← idx l (k : Int)
          setAt dest ((xOut + k : Nat) : Int) (d + s n * c))
        (fun i d => d.length = dest.length ∧ ∀ j, d[j]? = if xOut ≤ j ∧ j < xOut + len then
          some (if j < xOut + i then (List.range' 1 (n + 1 - 1)).foldl (fun t n => t + s n * c n (j - xOut)) (s 0) else
            (List.range' 1 (n - 1)).foldl (fun t n => t + s n * c n (j - xOut)) (s 0)) else dest[j]?)
        len 0 d ⟨h3, fun j => by
          rw [h4 j]
          by_cases hj : xOut ≤ j ∧ j < xOut + len
          · rw [if_pos hj, if_pos hj, if_neg (by omega)]
          · rw [if_neg hj, if_neg hj]⟩
        (by
          rintro k d h5 h6 ⟨h7, h8⟩
          have hv := h8 (xOut + k)
          rw [if_pos (by omega), if_neg (by omega)] at hv
          refine ⟨_, by rw [idx_nat hv, Res.bind_ok, idx_nat (hl2 k (by omega)), Res.bind_ok, setAt_natCast (by omega)], by rw [List.length_set]; exact h7, fun j => ?_⟩
          by_cases hj : j = xOut + k
          · subst hj
            rw [List.getElem?_set_self (by omega), if_pos (by omega), if_pos (by omega), show n + 1 - 1 = n - 1 + 1 by omega, foldl_range'_succ, show n - 1 + 1 = n by omega,
              show xOut + k - xOut = k by omega]
          · rw [List.getElem?_set_ne (by omega), h8 j]
            by_cases hin : xOut ≤ j ∧ j < xOut + len
            · rw [if_pos hin, if_pos hin]
              by_cases hk : j < xOut + k
              · rw [if_pos hk, if_pos (by omega)]
              · rw [if_neg hk, if_neg (by omega)]
            · rw [if_neg hin, if_neg hin])
      obtain ⟨d', e, a1, a2⟩ := this
      refine ⟨d', e, a1, fun j => ?_⟩
      rw [a2 j]
      by_cases hin : xOut ≤ j ∧ j < xOut + len
      · rw [if_pos hin, if_pos hin, if_pos (by omega)]
      · rw [if_neg hin, if_neg hin])
  refine ⟨d2, e2, l2, fun j => ?_⟩
  rw [g2 j, show 1 + (len - 1) - 1 = len - 1 by omega]
  rfl

theorem forwardDCTHorizontal_ok {lut : List (List (List α))} {src dest : List α} {xIn xOut log len : Nat} (hl : 0 < len) {c : Nat → Nat → α} {s : Nat → α}
    (hs : ∀ n, n < len → src[xIn + n]? = some (s n)) (hc : HasLUT lut log len c) (hd : xOut + len ≤ dest.length) :
    ∃ d', forwardDCTHorizontal lut src dest xIn xOut log len = .ok d' ∧ RowLaid xOut len (fdctVal c len s) dest d' := by
  unfold forwardDCTHorizontal
  have h0 := hs 0 hl
  rw [Nat.add_zero] at h0
  have i0 := idx_nat h0
  refine (congrArg (fun z => ∃ d', (z >>= _) = Res.ok d' ∧ RowLaid xOut len (fdctVal c len s) dest d') i0).mpr ?_
  rw [Res.bind_ok]
  obtain ⟨v1, e1, g1⟩ := forFrom_inv (f := fun x d2 => do
      let v ← idx src ((xIn + x : Nat) : Int)
      .ok (d2 + v)) (fun i d => d = (List.range' 1 (i - 1)).foldl (fun t n => t + s n) (s 0)) (len - 1) 1 (s 0) rfl
    (by
      rintro k d h1 h2 rfl
      refine ⟨_, by rw [idx_nat (hs k (by omega)), Res.bind_ok], ?_⟩
      rw [show k + 1 - 1 = k - 1 + 1 by omega, foldl_range'_succ, show k - 1 + 1 = k by omega])
  rw [e1, Res.bind_ok, setAt_natCast (by omega), Res.bind_ok]
  obtain ⟨t, ht, hc⟩ := hc
  obtain ⟨d2, e2, l2, g2⟩ := forFrom_inv (f := fun k dest => do
      let lutX ← idx lut (log : Int)
      let l ← idx lutX ((k : Int) - 1)
      let s ← idx src (xIn : Int)
      let c ← idx l 0
      let d2 ← forFrom (fun n d2 => do
        let v ← idx src ((xIn + n : Nat) : Int)
        let c ← idx l (n : Int)
        .ok (d2 + v * c)) (len - 1) 1 (s * c)
      setAt dest ((xOut + k : Nat) : Int) (d2 * (Arith.lit 1 / Arith.lit (len : Rat))))
    (fun i d => d.length = dest.length ∧ ∀ j, d[j]? = if xOut ≤ j ∧ j < xOut + i then some (fdctVal c len s (j - xOut)) else dest[j]?)
    (len - 1) 1 (dest.set xOut (v1 * (Arith.lit 1 / Arith.lit (len : Rat))))
    ⟨by rw [List.length_set], fun j => by
      by_cases hj : j = xOut
      · subst hj
        rw [List.getElem?_set_self (by omega), if_pos (by omega), Nat.sub_self]
        unfold fdctVal
        rw [if_pos rfl, g1, show 1 + (len - 1) - 1 = len - 1 by omega]
      · rw [List.getElem?_set_ne (by omega), if_neg (by omega)]⟩
    (by
      rintro k d h1 h2 ⟨h3, h4⟩
      obtain ⟨l, hl1, hl2⟩ := HasLUT.row (lut := lut) (log := log) hc h1 (by omega)
      have h00 : idx l 0 = .ok (c k 0) := idx_nat (hl2 0 hl)
      rw [idx_nat ht, Res.bind_ok, hl1, Res.bind_ok, idx_nat h0, Res.bind_ok, h00, Res.bind_ok]
      obtain ⟨v2, e3, g3⟩ := forFrom_inv (f := fun n d2 => do
          let v ← idx src ((xIn + n : Nat) : Int)
          let c ← idx l (n : Int)
          .ok (d2 + v * c)) (fun i d => d = (List.range' 1 (i - 1)).foldl (fun t n => t + s n * c k n) (s 0 * c k 0)) (len - 1) 1 (s 0 * c k 0) rfl
        (by
          rintro m d h5 h6 rfl
          refine ⟨_, by rw [idx_nat (hs m (by omega)), Res.bind_ok, idx_nat (hl2 m (by omega)), Res.bind_ok], ?_⟩
          rw [show m + 1 - 1 = m - 1 + 1 by omega, foldl_range'_succ, show m - 1 + 1 = m by omega])
      rw [e3, Res.bind_ok, setAt_natCast (by omega)]
      refine ⟨_, rfl, by rw [List.length_set]; exact h3, fun j => ?_⟩
      by_cases hj : j = xOut + k
      · subst hj
        rw [List.getElem?_set_self (by omega), if_pos (by omega), show xOut + k - xOut = k by omega]
        unfold fdctVal
        rw [if_neg (by omega), g3, show 1 + (len - 1) - 1 = len - 1 by omega]
      · rw [List.getElem?_set_ne (by omega), h4 j]
        by_cases hin : xOut ≤ j ∧ j < xOut + k
        · rw [if_pos hin, if_pos (by omega)]
        · rw [if_neg hin, if_neg (by omega)])
  refine ⟨d2, e2, l2, fun j => ?_⟩
  rw [g2 j, show 1 + (len - 1) = len by omega]

end

/-! ## Matrices -/

theorem HasBlock.row {α : Type} {y0 x0 h w : Nat} {f : Nat → Nat → α} {m : List (List α)} (hb : HasBlock y0 x0 h w f m) (hw : 0 < w) {y : Nat} (hy : y < h) :
    ∃ r, m[y0 + y]? = some r ∧ ∀ x, x < w → r[x0 + x]? = some (f y x) := by
  have h0 := hb y 0 hy hw
  unfold sample at h0
  cases hr : m[y0 + y]? with
  | none => rw [hr] at h0; cases h0
  | some r =>
    refine ⟨r, rfl, fun x hx => ?_⟩
    have := hb y x hy hx
    unfold sample at this
    rw [hr] at this
    exact this

theorem Laid.block {α : Type} {H W y0 x0 h w : Nat} {g : Nat → Nat → α} {m m' : List (List α)} (hl : Laid H W y0 x0 h w g m m') : HasBlock y0 x0 h w g m' := by
  intro y x hy hx
  rw [hl.2, if_pos (by omega), show y0 + y - y0 = y by omega, show x0 + x - x0 = x by omega]

/-- One row. -/
theorem dctRow_ok {α : Type} {H W : Nat} {src dest : List (List α)} (hT : Table H W dest) {ySrc yDest : Nat} (hy : yDest < H) {s : List α} (hs : src[ySrc]? = some s)
    {f : List α → List α → Res (List α)} {x0 w : Nat} {g : Nat → α} (hf : ∀ d, d.length = W → ∃ d', f s d = .ok d' ∧ RowLaid x0 w g d d') :
    ∃ dest', dctRow f src dest ySrc yDest = .ok dest' ∧ Table H W dest' ∧
      ∀ j k, sample dest' j k = if j = yDest ∧ (x0 ≤ k ∧ k < x0 + w) then some (g (k - x0)) else sample dest j k := by
  obtain ⟨d, hd, hdl⟩ := hT.row hy
  obtain ⟨d', e, h1, h2⟩ := hf d hdl
  have hlen : yDest < dest.length := by rw [hT.1]; exact hy
  refine ⟨dest.set yDest d', ?_, ⟨by rw [List.length_set]; exact hT.1, fun r hr => ?_⟩, fun j k => ?_⟩
  · unfold dctRow
    rw [idx_nat hs, Res.bind_ok, idx_nat hd, Res.bind_ok, e, Res.bind_ok, setAt_natCast hlen]
  · rcases List.mem_or_eq_of_mem_set hr with hr | rfl
    · exact hT.2 r hr
    · rw [h1, hdl]
  · unfold sample
    by_cases hj : j = yDest
    · subst hj
      rw [List.getElem?_set_self hlen, Option.bind_some, h2 k, hd, Option.bind_some]
      by_cases hk : x0 ≤ k ∧ k < x0 + w
      · rw [if_pos hk, if_pos ⟨rfl, hk⟩]
      · rw [if_neg hk, if_neg (fun h => hk h.2)]
    · rw [List.getElem?_set_ne (by omega), if_neg (fun h => hj h.1)]

/-- All rows of a block. -/
theorem dctRows_ok {α : Type} {H W : Nat} {src dest : List (List α)} (hT : Table H W dest) {yIn yOut h x0 w : Nat} (hH : yOut + h ≤ H)
    {f : List α → List α → Res (List α)} {g : Nat → Nat → α}
    (hf : ∀ y, y < h → ∃ s, src[yIn + y]? = some s ∧ ∀ d, d.length = W → ∃ d', f s d = .ok d' ∧ RowLaid x0 w (g y) d d') :
    ∃ dest', forFrom (fun y dest => dctRow f src dest (yIn + y) (yOut + y)) h 0 dest = .ok dest' ∧ Laid H W yOut x0 h w g dest dest' := by
  obtain ⟨d', e, h1, h2⟩ := forFrom_inv (f := fun y dest => dctRow f src dest (yIn + y) (yOut + y))
    (fun i d => Laid H W yOut x0 i w g dest d) h 0 dest ⟨hT, fun j k => by rw [if_neg (by omega)]⟩
    (by
      rintro y d _ hy ⟨h1, h2⟩
      obtain ⟨s, hs, hrow⟩ := hf y (by omega)
      obtain ⟨d', e, t, v⟩ := dctRow_ok h1 (yDest := yOut + y) (by omega) hs hrow
      refine ⟨d', e, t, fun j k => ?_⟩
      rw [v j k, h2 j k]
      by_cases hj : j = yOut + y
      · subst hj
        rw [show yOut + y - yOut = y by omega]
        by_cases hk : x0 ≤ k ∧ k < x0 + w
        · rw [if_pos ⟨rfl, hk⟩, if_pos (by omega)]
        · rw [if_neg (fun h => hk h.2), if_neg (by omega), if_neg (by omega)]
      · rw [if_neg (fun h => hj h.1)]
        by_cases hin : (yOut ≤ j ∧ j < yOut + y) ∧ (x0 ≤ k ∧ k < x0 + w)
        · rw [if_pos hin, if_pos (by omega)]
        · rw [if_neg hin, if_neg (by omega)])
  refine ⟨d', e, h1, ?_⟩
  rw [Nat.zero_add] at h2
  exact h2

/-- Transposition. -/
theorem transpose_ok {α : Type} {H W : Nat} {src dest : List (List α)} (hT : Table H W dest) {y0 x0 yd xd h w : Nat} {f : Nat → Nat → α} (hb : HasBlock y0 x0 h w f src)
    (hw : 0 < w) (hH : yd + w ≤ H) (hW : xd + h ≤ W) :
    ∃ dest', transposeMatrixInto src dest (y0, x0) (yd, xd) (h, w) = .ok dest' ∧ Laid H W yd xd w h (fun x y => f y x) dest dest' := by
  unfold transposeMatrixInto
  obtain ⟨d', e, h1, h2⟩ := forFrom_inv (f := fun y dest => do
      let srcY ← idx src ((y + y0 : Nat) : Int)
      forFrom (fun x dest => do
        let v ← idx srcY ((x0 + x : Nat) : Int)
        set2 dest ((yd + x : Nat) : Int) ((xd + y : Nat) : Int) v) w 0 dest)
    (fun i d => Laid H W yd xd w i (fun x y => f y x) dest d) h 0 dest ⟨hT, fun j k => by rw [if_neg (by omega)]⟩
    (by
      rintro y d _ hy ⟨h1, h2⟩
      obtain ⟨r, hr, hrow⟩ := hb.row hw (y := y) (by omega)
      rw [show ((y + y0 : Nat) : Int) = ((y0 + y : Nat) : Int) by rw [Nat.add_comm], idx_nat hr, Res.bind_ok]
      obtain ⟨d', e, t, v⟩ := forFrom_inv (f := fun x dest => do
          let v ← idx r ((x0 + x : Nat) : Int)
          set2 dest ((yd + x : Nat) : Int) ((xd + y : Nat) : Int) v)
        (fun i d' => Table H W d' ∧ ∀ j k, sample d' j k = if k = xd + y ∧ (yd ≤ j ∧ j < yd + i) then some (f y (j - yd)) else sample d j k) w 0 d
        ⟨h1, fun j k => by rw [if_neg (by omega)]⟩
        (by
          rintro x d1 _ hx ⟨h3, h4⟩
          obtain ⟨d2, e2, t2, s2⟩ := set2_table h3 (y := yd + x) (x := xd + y) (by omega) (by omega) (f y x)
          refine ⟨d2, by rw [idx_nat (hrow x (by omega)), Res.bind_ok, e2], t2, fun j k => ?_⟩
          rw [s2 j k, h4 j k]
          by_cases hjk : j = yd + x ∧ k = xd + y
          · obtain ⟨rfl, rfl⟩ := hjk
            rw [if_pos ⟨rfl, rfl⟩, if_pos (by omega), show yd + x - yd = x by omega]
          · rw [if_neg hjk]
            by_cases hin : k = xd + y ∧ (yd ≤ j ∧ j < yd + x)
            · rw [if_pos hin, if_pos (by omega)]
            · rw [if_neg hin, if_neg (by omega)])
      refine ⟨d', e, t, fun j k => ?_⟩
      rw [v j k, h2 j k]
      by_cases hk : k = xd + y ∧ (yd ≤ j ∧ j < yd + (0 + w))
      · obtain ⟨rfl, hk⟩ := hk
        rw [if_pos ⟨rfl, hk⟩, if_pos (by omega), show xd + y - xd = y by omega]
      · rw [if_neg hk]
        by_cases hin : (yd ≤ j ∧ j < yd + w) ∧ (xd ≤ k ∧ k < xd + y)
        · rw [if_pos hin, if_pos (by omega)]
        · rw [if_neg hin, if_neg (by omega)])
  refine ⟨d', e, h1, ?_⟩
  rw [Nat.zero_add] at h2
  exact h2

/-- Two replacements of the same rectangle. -/
theorem Laid.trans {α : Type} {H W y0 x0 h w : Nat} {g g' : Nat → Nat → α} {m m' m'' : List (List α)} (h1 : Laid H W y0 x0 h w g m m') (h2 : Laid H W y0 x0 h w g' m' m'') :
    Laid H W y0 x0 h w g' m m'' := by
  refine ⟨h2.1, fun j k => ?_⟩
  rw [h2.2, h1.2]
  split <;> rfl

theorem ceilLog2_pow (a : Nat) (h : a ≤ 31) : ceilLog2 32 (2 ^ a) = a := by
  unfold ceilLog2
  have h1 : 0 < 2 ^ a := Nat.two_pow_pos a
  have h2 : 2 ^ a ≤ 2 ^ 31 := Nat.pow_le_pow_right (by decide) h
  have e : (2 ^ a + (2 ^ 32 - 1)) % 2 ^ 32 = 2 ^ a - 1 := by omega
  rw [e]
  apply Nat.le_antisymm
  · exact (C41_ceilLog1p _ _).2 (by omega)
  · by_contra hlt
    have h3 := (C41_ceilLog1p (2 ^ a - 1) (a - 1)).1 (by omega)
    have h4 : a ≠ 0 := by rintro rfl; omega
    obtain ⟨b, rfl⟩ : ∃ b, a = b + 1 := ⟨a - 1, by omega⟩
    rw [Nat.add_sub_cancel] at h3
    have : 2 ^ (b + 1) = 2 * 2 ^ b := Nat.pow_succ'
    omega

section
variable {α : Type} [Arith α] {lut : List (List (List α))} {a b : Nat} (ha : a ≤ 31) (hb : b ≤ 31) {ca cb : Nat → Nat → α}
  (la : HasLUT lut a (2 ^ a) ca) (lb : HasLUT lut b (2 ^ b) cb)
include ha hb la lb

theorem inverseDCT2D_ok {H W S : Nat} {src dest s0 s1 : List (List α)} {y0 x0 yd xd : Nat} {f : Nat → Nat → α} (hf : HasBlock y0 x0 (2 ^ a) (2 ^ b) f src)
    (hT : Table H W dest) (hH : yd + 2 ^ a ≤ H) (hW : xd + 2 ^ b ≤ W) (t0 : Table S S s0) (t1 : Table S S s1) (hS : 2 ^ a ≤ S) (hS' : 2 ^ b ≤ S) :
    ∃ dest' s0' s1', inverseDCT2D lut src dest (y0, x0) (yd, xd) (2 ^ a, 2 ^ b) s0 s1 false = .ok (dest', s0', s1') ∧ Table S S s0' ∧ Table S S s1' ∧
      Laid H W yd xd (2 ^ a) (2 ^ b) (fun y x => idctVal cb (2 ^ b) (fun n => idctVal ca (2 ^ a) (fun m => f m n) y) x) dest dest' := by
  have pa : 0 < 2 ^ a := Nat.two_pow_pos a
  have pb : 0 < 2 ^ b := Nat.two_pow_pos b
  unfold inverseDCT2D
  simp only [ceilLog2_pow a ha, ceilLog2_pow b hb]
  rw [if_neg (by decide)]
  obtain ⟨u0, e0, L0⟩ := transpose_ok t0 (yd := 0) (xd := 0) hf pb (by omega) (by omega)
  rw [e0, Res.bind_ok]
  obtain ⟨u1, e1, L1⟩ := dctRows_ok t1 (src := u0) (yIn := 0) (yOut := 0) (h := 2 ^ b) (x0 := 0) (w := 2 ^ a) (by omega)
    (f := fun s d => inverseDCTHorizontal lut s d 0 0 a (2 ^ a)) (g := fun n => idctVal ca (2 ^ a) (fun m => f m n)) (by
      intro n hn
      obtain ⟨r, hr, hv⟩ := L0.block.row pa hn
      refine ⟨r, hr, fun d hd => inverseDCTHorizontal_ok pa hv la (by omega)⟩)
  simp only [Nat.zero_add] at e1
  rw [e1, Res.bind_ok]
  obtain ⟨u2, e2, L2⟩ := transpose_ok L0.1 (yd := 0) (xd := 0) L1.block pa (by omega) (by omega)
  rw [e2, Res.bind_ok]
  obtain ⟨u3, e3, L3⟩ := dctRows_ok hT (src := u2) (yIn := 0) (yOut := yd) (h := 2 ^ a) (x0 := xd) (w := 2 ^ b) hH
    (f := fun s d => inverseDCTHorizontal lut s d 0 xd b (2 ^ b)) (g := fun y x => idctVal cb (2 ^ b) (fun n => idctVal ca (2 ^ a) (fun m => f m n) y) x) (by
      intro y hy
      obtain ⟨r, hr, hv⟩ := L2.block.row pb hy
      refine ⟨r, hr, fun d hd => inverseDCTHorizontal_ok pb hv lb (by omega)⟩)
  simp only [Nat.zero_add] at e3
  rw [e3, Res.bind_ok]
  exact ⟨u3, u2, u1, rfl, L2.1, L1.1, L3⟩

theorem inverseDCT2D_transposed_ok {H W S : Nat} {src dest s0 s1 : List (List α)} {y0 x0 yd xd : Nat} {f : Nat → Nat → α} (hf : HasBlock y0 x0 (2 ^ a) (2 ^ b) f src)
    (hT : Table H W dest) (hH : yd + 2 ^ b ≤ H) (hW : xd + 2 ^ a ≤ W) (t0 : Table S S s0) (t1 : Table S S s1) (hS : 2 ^ a ≤ S) (hS' : 2 ^ b ≤ S) :
    ∃ dest' s0' s1', inverseDCT2D lut src dest (y0, x0) (yd, xd) (2 ^ a, 2 ^ b) s0 s1 true = .ok (dest', s0', s1') ∧ Table S S s0' ∧ Table S S s1' ∧
      Laid H W yd xd (2 ^ b) (2 ^ a) (fun x y => idctVal ca (2 ^ a) (fun m => idctVal cb (2 ^ b) (fun n => f m n) x) y) dest dest' := by
  have pa : 0 < 2 ^ a := Nat.two_pow_pos a
  have pb : 0 < 2 ^ b := Nat.two_pow_pos b
  unfold inverseDCT2D
  simp only [ceilLog2_pow a ha, ceilLog2_pow b hb]
  rw [if_pos trivial]
  obtain ⟨u1, e1, L1⟩ := dctRows_ok t1 (src := src) (yIn := y0) (yOut := 0) (h := 2 ^ a) (x0 := 0) (w := 2 ^ b) (by omega)
    (f := fun s d => inverseDCTHorizontal lut s d x0 0 b (2 ^ b)) (g := fun m => idctVal cb (2 ^ b) (fun n => f m n)) (by
      intro m hm
      obtain ⟨r, hr, hv⟩ := hf.row pb hm
      refine ⟨r, hr, fun d hd => inverseDCTHorizontal_ok pb hv lb (by omega)⟩)
  simp only [Nat.zero_add] at e1
  rw [e1, Res.bind_ok]
  obtain ⟨u2, e2, L2⟩ := transpose_ok t0 (yd := 0) (xd := 0) L1.block pb (by omega) (by omega)
  rw [e2, Res.bind_ok]
  obtain ⟨u3, e3, L3⟩ := dctRows_ok hT (src := u2) (yIn := 0) (yOut := yd) (h := 2 ^ b) (x0 := xd) (w := 2 ^ a) hH
    (f := fun s d => inverseDCTHorizontal lut s d 0 xd a (2 ^ a)) (g := fun x y => idctVal ca (2 ^ a) (fun m => idctVal cb (2 ^ b) (fun n => f m n) x) y) (by
      intro y hy
      obtain ⟨r, hr, hv⟩ := L2.block.row pa hy
      refine ⟨r, hr, fun d hd => inverseDCTHorizontal_ok pa hv la (by omega)⟩)
  simp only [Nat.zero_add] at e3
  rw [e3, Res.bind_ok]
  exact ⟨u3, u2, u1, rfl, L2.1, L1.1, L3⟩

theorem forwardDCT2D_ok {H W S : Nat} {src dest s0 s1 : List (List α)} {y0 x0 yd xd : Nat} {f : Nat → Nat → α} (hf : HasBlock y0 x0 (2 ^ a) (2 ^ b) f src)
    (hT : Table H W dest) (hH : yd + 2 ^ a ≤ H) (hW : xd + 2 ^ b ≤ W) (t0 : Table S S s0) (t1 : Table S S s1) (hS : 2 ^ a ≤ S) (hS' : 2 ^ b ≤ S) :
    ∃ dest' s0' s1', forwardDCT2D lut src dest (y0, x0) (yd, xd) (2 ^ a, 2 ^ b) s0 s1 = .ok (dest', s0', s1') ∧ Table S S s0' ∧ Table S S s1' ∧
      Laid H W yd xd (2 ^ a) (2 ^ b) (fun m n => fdctVal ca (2 ^ a) (fun y => fdctVal cb (2 ^ b) (fun x => f y x) n) m) dest dest' := by
  have pa : 0 < 2 ^ a := Nat.two_pow_pos a
  have pb : 0 < 2 ^ b := Nat.two_pow_pos b
  unfold forwardDCT2D
  simp only [ceilLog2_pow a ha, ceilLog2_pow b hb]
  obtain ⟨u0, e0, L0⟩ := dctRows_ok t0 (src := src) (yIn := y0) (yOut := 0) (h := 2 ^ a) (x0 := 0) (w := 2 ^ b) (by omega)
    (f := fun s d => forwardDCTHorizontal lut s d x0 0 b (2 ^ b)) (g := fun y => fdctVal cb (2 ^ b) (fun x => f y x)) (by
      intro m hm
      obtain ⟨r, hr, hv⟩ := hf.row pb hm
      refine ⟨r, hr, fun d hd => forwardDCTHorizontal_ok pb hv lb (by omega)⟩)
  simp only [Nat.zero_add, Nat.add_comm y0] at e0
  rw [e0, Res.bind_ok]
  obtain ⟨u1, e1, L1⟩ := transpose_ok t1 (yd := 0) (xd := 0) L0.block pb (by omega) (by omega)
  rw [e1, Res.bind_ok]
  obtain ⟨u2, e2, L2⟩ := dctRows_ok L0.1 (src := u1) (yIn := 0) (yOut := 0) (h := 2 ^ b) (x0 := 0) (w := 2 ^ a) (by omega)
    (f := fun s d => forwardDCTHorizontal lut s d 0 0 a (2 ^ a)) (g := fun n m => fdctVal ca (2 ^ a) (fun y => fdctVal cb (2 ^ b) (fun x => f y x) n) m) (by
      intro y hy
      obtain ⟨r, hr, hv⟩ := L1.block.row pa hy
      refine ⟨r, hr, fun d hd => forwardDCTHorizontal_ok pa hv la (by omega)⟩)
  simp only [Nat.zero_add] at e2
  rw [e2, Res.bind_ok]
  obtain ⟨u3, e3, L3⟩ := transpose_ok hT (yd := yd) (xd := xd) L2.block pa hH hW
  rw [e3, Res.bind_ok]
  exact ⟨u3, u2, u1, rfl, L2.1, L1.1, L3⟩

end

end Jxl
