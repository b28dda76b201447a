import Verif.Model.Util
import Mathlib.Data.Nat.Bitwise
/-!
# Properties C25, C41, C43, C44: helpers in `util`
-/
namespace Jxl

/-! ## C25: slice insertion -/

/-- Specification: insertion into a list. -/
def insertAt {α : Type} (l : List α) (i : Nat) (x : α) : List α := l.take i ++ x :: l.drop i

/-- C25. `AddToSlice` inserts, at every position of every slice, whatever its capacity. -/
theorem C25_addToSlice {α : Type} (s : Slice α) (h : s.len ≤ s.arr.length) (pos : Nat) (hp : pos ≤ s.len) (x : α) :
    addToSlice s pos x = .ok (insertAt s.elems pos x) := by
  have hl : s.elems.length = s.len := by simp [Slice.elems]; omega
  unfold addToSlice insertAt
  by_cases h0 : s.len = 0
  · have : pos = 0 := by omega
    have : s.elems = [] := List.length_eq_zero_iff.1 (by omega)
    simp [*]
  · simp only [h0, if_false]
    by_cases he : pos = s.len
    · subst he
      simp only [if_true]
      rw [List.take_of_length_le (by omega), List.drop_eq_nil_of_le (by omega)]
    · have : ¬ ((pos : Int) = s.len) := by omega
      have h2 : ¬ ((pos : Int) < 0 ∨ (s.len : Int) < pos) := by omega
      simp only [this, if_false, h2]
      simp

example : (⟨[1, 2, 3, 9], 3⟩ : Slice Nat).len ≤ 4 ∧ 1 ≤ (⟨[1, 2, 3, 9], 3⟩ : Slice Nat).len := by decide

/-- C25, what holds of `Add`: appending at the end inserts. Missing: every other index, see `C25_add_wrong`. -/
theorem C25_add_partial {α : Type} (s : Slice α) (h : s.len ≤ s.arr.length) (x : α) :
    ∃ old, goAdd s s.len x = .ok (insertAt s.elems s.len x, old) := by
  have hl : s.elems.length = s.len := by simp [Slice.elems]; omega
  unfold goAdd
  have h1 : ¬ ((s.len : Int) < 0 ∨ (s.arr.length : Int) < s.len) := by omega
  simp only [h1, if_false, Int.toNat_natCast, Nat.lt_irrefl]
  have hins : insertAt s.elems s.len x = s.arr.take s.len ++ [x] := by
    unfold insertAt
    rw [List.drop_eq_nil_of_le (as := s.elems) (by omega), List.take_of_length_le (l := s.elems) (by omega)]
    rfl
  have hd : ∀ a : List α, (a.take s.len).drop s.len = [] := by
    intro a; exact List.drop_eq_nil_of_le (by simp; omega)
  simp only [hd, List.append_nil, hins]
  exact ⟨_, rfl⟩

example : (⟨[1, 2, 3], 3⟩ : Slice Nat).len ≤ (⟨[1, 2, 3], 3⟩ : Slice Nat).arr.length := by decide

/-- C25 fails for `Add` at every index inside the slice: the new element is stored twice, the element that was there is
lost, and the caller's own slice is overwritten too. -/
theorem C25_add_wrong {α : Type} (s : Slice α) (h : s.len ≤ s.arr.length) (i : Nat) (hi : i < s.len) (x : α) :
    ∃ old, goAdd s i x = .ok (s.elems.take i ++ x :: x :: s.elems.drop (i + 1), old) ∧ old[i]? = some x := by
  unfold goAdd
  have h1 : ¬ ((i : Int) < 0 ∨ (s.arr.length : Int) < i) := by omega
  have h2 : i < s.arr.length := by omega
  simp only [h1, if_false, Int.toNat_natCast, h2, if_true, show ¬ s.len < i by omega, true_and]
  have htail : ((s.arr.set i x).take s.len).drop i = x :: (s.arr.take s.len).drop (i + 1) := by
    rw [List.take_set, List.drop_eq_getElem_cons (by simp; omega)]
    simp only [List.getElem_set_self]
    rw [List.drop_set_of_lt (by omega)]
  rw [htail]
  have hres : s.arr.take i ++ [x] ++ x :: (s.arr.take s.len).drop (i + 1) =
      s.elems.take i ++ x :: x :: s.elems.drop (i + 1) := by
    simp only [Slice.elems, List.take_take, Nat.min_eq_left (Nat.le_of_lt hi), List.append_assoc, List.cons_append,
      List.nil_append]
  refine ⟨_, by rw [hres], ?_⟩
  split
  · have hl : s.elems.length = s.len := by simp [Slice.elems]; omega
    rw [List.getElem?_take, if_pos hi, List.getElem?_append_left (by simp; omega),
      List.getElem?_append_right (by simp; omega)]
    have : i - (s.elems.take i).length = 0 := by simp; omega
    rw [this]; rfl
  · rw [List.getElem?_take, if_pos hi, List.getElem?_set_self h2]

example : (⟨[1, 2, 3], 3⟩ : Slice Nat).len ≤ 3 ∧ 1 < (⟨[1, 2, 3], 3⟩ : Slice Nat).len := by decide

/-- C25. Concretely: inserting 9 into [1,2,3] at 1 gives [1,9,9,3]. -/
theorem C25_add_witness : goAdd (⟨[1, 2, 3], 3⟩ : Slice Nat) 1 9 = .ok ([1, 9, 9, 3], [1, 9, 3]) ∧
    insertAt [1, 2, 3] 1 9 = [1, 9, 2, 3] := by decide

/-! ## C41: integer helpers -/

/-- C41. `CeilLog1p(x)` is the least `k` with `x + 1 ≤ 2^k`. -/
theorem C41_ceilLog1p (x k : Nat) : ceilLog1p x ≤ k ↔ x + 1 ≤ 2 ^ k := by
  unfold ceilLog1p bitLen
  by_cases h : x = 0
  · subst h; simp [Nat.one_le_two_pow]
  · simp only [h, if_false]
    have := Nat.log2_lt h (k := k)
    omega

/-- C41. `CeilLog1p` of a negative number is 64 (the conversion to `uint64` wraps): contexts computed from it saturate. -/
theorem C41_ceilLog1p_negative (x : Int) (h1 : -9223372036854775808 ≤ x) (h2 : x < 0) : ceilLog1pInt x = 64 := by
  unfold ceilLog1pInt
  have a := (C41_ceilLog1p (x % 18446744073709551616).toNat 64).2 (by omega)
  have b := mt (C41_ceilLog1p (x % 18446744073709551616).toNat 63).1 (by omega)
  unfold ceilLog1p at a b
  omega

example : (-9223372036854775808 : Int) ≤ -1 ∧ (-1 : Int) < 0 := by decide

theorem pow2_and (k : Nat) : (2 ^ k) &&& (2 ^ k - 1) = 0 := by
  rw [Nat.and_two_pow_sub_one_eq_mod, Nat.mod_self]

/-- If `2^k < y < 2^(k+1)` then `y` and `y - 1` share the top bit. -/
theorem and_pred_ne_zero (y k : Nat) (h1 : 2 ^ k < y) (h2 : y < 2 ^ (k + 1)) : y &&& (y - 1) ≠ 0 := by
  intro h
  have a : y.testBit k = true := by
    rw [Nat.testBit_eq_decide_div_mod_eq]
    have : y / 2 ^ k = 1 := Nat.div_eq_of_lt_le (by omega) (by rw [Nat.pow_succ] at h2; omega)
    simp [this]
  have b : (y - 1).testBit k = true := by
    rw [Nat.testBit_eq_decide_div_mod_eq]
    have : (y - 1) / 2 ^ k = 1 := Nat.div_eq_of_lt_le (by omega) (by rw [Nat.pow_succ] at h2; omega)
    simp [this]
  have := congrArg (fun z => Nat.testBit z k) h
  simp [a, b] at this

/-- C41. `FloorLog1p(x)` is the greatest `k` with `2^k ≤ x + 1`, for every value of a `w`-bit type. -/
theorem C41_floorLog1p (w x : Nat) (hx : x < 2 ^ w) :
    2 ^ floorLog1p w x ≤ x + 1 ∧ x + 1 < 2 ^ (floorLog1p w x + 1) := by
  have hc : ceilLog1p x ≤ ceilLog1p x := Nat.le_refl _
  have h1 := (C41_ceilLog1p x _).1 hc
  unfold floorLog1p
  simp only
  by_cases h0 : x = 0
  · subst h0
    simp [ceilLog1p, bitLen]
  · have hcpos : 0 < ceilLog1p x := by simp [ceilLog1p, bitLen, h0]
    have h2 : 2 ^ (ceilLog1p x - 1) < x + 1 := by
      have := mt (C41_ceilLog1p x (ceilLog1p x - 1)).2 (by omega)
      omega
    have hsucc : ceilLog1p x - 1 + 1 = ceilLog1p x := by omega
    by_cases he : x + 1 = 2 ^ ceilLog1p x
    · -- a power of two: the test is false
      have hz : ((x + 1) % 2 ^ w) &&& x = 0 := by
        by_cases hw : x + 1 < 2 ^ w
        · rw [Nat.mod_eq_of_lt hw]
          have : x = 2 ^ ceilLog1p x - 1 := by omega
          have := pow2_and (ceilLog1p x)
          rw [← he] at this
          simpa using this
        · have : x + 1 = 2 ^ w := by omega
          rw [this, Nat.mod_self, Nat.zero_and]
      simp only [hz, ne_eq, not_true_eq_false, if_false]
      rw [Nat.pow_succ]; omega
    · have hlt : x + 1 < 2 ^ ceilLog1p x := by omega
      have hw : x + 1 < 2 ^ w := by
        rcases Nat.lt_or_ge (x + 1) (2 ^ w) with h | h
        · exact h
        · exfalso
          have : ceilLog1p x ≤ w := (C41_ceilLog1p x w).2 (by omega)
          have := Nat.pow_le_pow_right (show 0 < 2 by decide) this
          omega
      have hne : ((x + 1) % 2 ^ w) &&& x ≠ 0 := by
        rw [Nat.mod_eq_of_lt hw]
        have := and_pred_ne_zero (x + 1) (ceilLog1p x - 1) h2 (by rw [hsucc]; exact hlt)
        simpa using this
      simp only [hne, ne_eq, not_false_eq_true, if_true]
      rw [hsucc]
      exact ⟨by omega, hlt⟩

example : (4294967295 : Nat) < 2 ^ 32 := by decide

/-- C41. `CeilLog2(x)` is the least `k` with `x ≤ 2^k`, for every positive value of a `w`-bit type. -/
theorem C41_ceilLog2 (w x k : Nat) (h0 : 0 < x) (hx : x < 2 ^ w) : ceilLog2 w x ≤ k ↔ x ≤ 2 ^ k := by
  unfold ceilLog2
  have : (x + (2 ^ w - 1)) % 2 ^ w = x - 1 := by
    have : x + (2 ^ w - 1) = x - 1 + 2 ^ w := by omega
    rw [this, Nat.add_mod_right, Nat.mod_eq_of_lt (by omega)]
  rw [this, C41_ceilLog1p]
  omega

example : 0 < 200 ∧ 200 < 2 ^ 32 := by decide

/-- C41. `CeilDiv(n, d)` is the quotient rounded up, for every positive `n` and `d`. -/
theorem C41_ceilDiv_partial (n d : Nat) (hn : 0 < n) (hn2 : n < 2 ^ 32) (hd : 0 < d) :
    ∃ q, ceilDiv n d = .ok q ∧ n ≤ q * d ∧ (q - 1) * d < n := by
  unfold ceilDiv
  simp only [show ¬ d = 0 by omega, if_false]
  have h1 : u32 (n + 4294967295) = n - 1 := by simp only [u32]; omega
  rw [h1]
  have hq : (n - 1) / d ≤ n - 1 := Nat.div_le_self _ _
  have h2 : u32 ((n - 1) / d + 1) = (n - 1) / d + 1 := by
    simp only [u32]; exact Nat.mod_eq_of_lt (by omega)
  rw [h2]
  refine ⟨_, rfl, ?_, ?_⟩
  · have := Nat.lt_div_mul_add hd (a := n - 1)
    rw [Nat.add_mul]; omega
  · have := Nat.div_mul_le_self (n - 1) d
    simp only [Nat.add_sub_cancel]; omega

example : 0 < 1025 ∧ 1025 < 2 ^ 32 ∧ 0 < 256 := by decide

/-- C41 fails for `CeilDiv(0, d)` with `1 < d`: the result is not 0 because `0 - 1` wraps. -/
theorem C41_ceilDiv_zero_wrong (d : Nat) (hd : 1 < d) : ∃ q, ceilDiv 0 d = .ok q ∧ q ≠ 0 := by
  unfold ceilDiv
  simp only [show ¬ d = 0 by omega, if_false]
  refine ⟨_, rfl, ?_⟩
  have h1 : u32 (0 + 4294967295) = 4294967295 := by decide
  rw [h1]
  have hq : 4294967295 / d ≤ 4294967295 / 2 := Nat.div_le_div_left (by omega) (by decide)
  simp only [u32]
  generalize 4294967295 / d = q at hq
  have : 4294967295 / 2 = 2147483647 := by decide
  omega

example : ceilDiv 0 256 = .ok 16777216 := by decide

/-- C41. `Clamp3(v, a, b)` is `v` limited to the interval spanned by `a` and `b`. -/
theorem C41_clamp3 (v a b : BitVec 32) :
    (clamp3 v a b).toInt = max (min a.toInt b.toInt) (min v.toInt (max a.toInt b.toInt)) := by
  have hx : ∀ x y : BitVec 32, x ^^^ x ^^^ y = y := by
    intro x y; rw [BitVec.xor_self, BitVec.zero_xor]
  have hy : ∀ x y : BitVec 32, y ^^^ x ^^^ y = x := by
    intro x y; rw [BitVec.xor_comm, ← BitVec.xor_assoc, BitVec.xor_self, BitVec.zero_xor]
  unfold clamp3
  simp only [BitVec.slt, decide_eq_true_eq]
  by_cases h : a.toInt < b.toInt
  · simp only [h, if_true, hx]
    split
    · omega
    · split <;> omega
  · simp only [h, if_false, hy]
    split
    · omega
    · split <;> omega

/-- C41. `Clamp(v, a, b, c)` is `v` limited to the interval spanned by `a`, `b` and `c`. -/
theorem C41_clamp4 (v a b c : BitVec 32) :
    (clamp4 v a b c).toInt =
      max (min (min a.toInt b.toInt) c.toInt) (min v.toInt (max (max a.toInt b.toInt) c.toInt)) := by
  have hx : ∀ x y : BitVec 32, x ^^^ x ^^^ y = y := by
    intro x y; rw [BitVec.xor_self, BitVec.zero_xor]
  have hy : ∀ x y : BitVec 32, y ^^^ x ^^^ y = x := by
    intro x y; rw [BitVec.xor_comm, ← BitVec.xor_assoc, BitVec.xor_self, BitVec.zero_xor]
  unfold clamp4
  simp only [BitVec.slt, BitVec.sle, decide_eq_true_eq]
  by_cases h : a.toInt < b.toInt
  · simp only [h, if_true, hx]
    (repeat' split) <;> omega
  · simp only [h, if_false, hy]
    (repeat' split) <;> omega

/-- C41. `Abs` is the absolute value, except for the smallest number, which stays negative. -/
theorem C41_abs_partial (a : Int) (h1 : -2 ^ 31 < a) (h2 : a < 2 ^ 31) : abs32 a = a.natAbs := by
  unfold abs32 i32; split <;> omega
example : (-2 ^ 31 : Int) < -7 ∧ (-7 : Int) < 2 ^ 31 := by decide
theorem C41_abs_min_wrong : abs32 (-2147483648) = -2147483648 := by decide

/-- The mirrored (even, periodic) extension of 0..size-1 to all integers. -/
def mirrorSpec (c size : Int) : Int :=
  let r := c % (2 * size)
  if r < size then r else 2 * size - 1 - r

/-- C41. `MirrorCoordinate` terminates for every coordinate when `size > 0` and computes the mirrored extension. -/
theorem C41_mirror (c size : Int) (hs : 0 < size) :
    mirrorCoordinate c size = some (mirrorSpec c size) := by
  fun_induction mirrorCoordinate c size with
  | case1 => omega
  | case2 c h hc ih =>
    rw [ih]
    congr 1
    unfold mirrorSpec
    have e : (-c - 1) % (2 * size) = 2 * size - 1 - c % (2 * size) := by
      have h1 := Int.emod_add_mul_ediv c (2 * size)
      have h2 := Int.emod_nonneg c (show 2 * size ≠ 0 by omega)
      have h3 := Int.emod_lt_of_pos c (show 0 < 2 * size by omega)
      have : -c - 1 = (2 * size - 1 - c % (2 * size)) + 2 * size * (-(c / (2 * size)) - 1) := by
        rw [Int.mul_sub, Int.mul_neg]; omega
      rw [this, Int.add_mul_emod_self_left, Int.emod_eq_of_lt (by omega) (by omega)]
    simp only [e]
    split <;> split <;> omega
  | case3 c h hc hc2 ih =>
    rw [ih]
    congr 1
    unfold mirrorSpec
    have e : (2 * size + (-c - 1)) % (2 * size) = 2 * size - 1 - c % (2 * size) := by
      have h1 := Int.emod_add_mul_ediv c (2 * size)
      have h2 := Int.emod_nonneg c (show 2 * size ≠ 0 by omega)
      have h3 := Int.emod_lt_of_pos c (show 0 < 2 * size by omega)
      have : 2 * size + (-c - 1) = (2 * size - 1 - c % (2 * size)) + 2 * size * (-(c / (2 * size))) := by
        rw [Int.mul_neg]; omega
      rw [this, Int.add_mul_emod_self_left, Int.emod_eq_of_lt (by omega) (by omega)]
    simp only [e]
    split <;> split <;> omega
  | case4 c h hc hc2 =>
    unfold mirrorSpec
    rw [Int.emod_eq_of_lt (by omega) (by omega)]
    simp; omega

example : (0 : Int) < 5 := by decide

/-- C41. The result always lies in the image; coordinates inside are unchanged. -/
theorem C41_mirror_range (c size : Int) (hs : 0 < size) : 0 ≤ mirrorSpec c size ∧ mirrorSpec c size < size ∧
    (0 ≤ c → c < size → mirrorSpec c size = c) := by
  unfold mirrorSpec
  have h2 := Int.emod_nonneg c (show 2 * size ≠ 0 by omega)
  have h3 := Int.emod_lt_of_pos c (show 0 < 2 * size by omega)
  refine ⟨by simp only; split <;> omega, by simp only; split <;> omega, ?_⟩
  intro a b
  rw [Int.emod_eq_of_lt (by omega) (by omega)]; simp; omega

/-! ## C43: deque -/

/-- Specification of a double-ended queue on a mathematical sequence. -/
def dequeSpec {α : Type} (d : List α) : DequeOp α → List α × DequeOut α
  | .addFirst x => (x :: d, .unit)
  | .addLast x => (d ++ [x], .unit)
  | .removeFirst => (d.drop 1, .item d.head?)
  | .removeLast => (d.dropLast, .item d.getLast?)
  | .isEmpty => (d, .bool d.isEmpty)

/-- Run a sequence of operations, collecting the results. -/
def runOps {σ op out : Type} (step : σ → op → σ × out) (s : σ) : List op → σ × List out
  | [] => (s, [])
  | o :: os =>
    let r := step s o
    let rest := runOps step r.1 os
    (rest.1, r.2 :: rest.2)

/-- C43. Every sequence of operations gives the same results and the same contents as on a mathematical sequence. -/
theorem C43_deque {α : Type} (ops : List (DequeOp α)) (d : List α) :
    runOps dequeStep d ops = runOps dequeSpec d ops := by
  have hstep : ∀ (d : List α) (o : DequeOp α), dequeStep d o = dequeSpec d o := by
    intro d o
    cases o with
    | addFirst x => rfl
    | addLast x => rfl
    | removeFirst => cases d <;> rfl
    | removeLast =>
      simp only [dequeStep, dequeSpec]
      cases h : d.getLast? with
      | none => simp [List.getLast?_eq_none_iff.1 h]
      | some x => simp [List.dropLast_eq_take]
    | isEmpty => cases d <;> rfl
  induction ops generalizing d with
  | nil => rfl
  | cons o os ih => simp only [runOps, hstep, ih]

example : (runOps dequeStep ([] : List Nat) [.addLast 1, .addLast 2, .addFirst 0, .removeLast, .removeFirst]).1 = [1] := by
  decide

/-! ## C44: range iterator -/

/-- The points `(x0.., y0..)` of a rectangle with `w` columns and `h` rows, row by row. -/
def rectPoints (x0 y0 w h : Nat) : List (Nat × Nat) :=
  (List.range h).flatMap fun j => (List.range w).map fun i => (x0 + i, y0 + j)

theorem rangeIter_row (startX endX endY y : Nat) (hy : y ≤ endY) : ∀ (k n x : Nat), x + k = endX + 1 → k ≤ n →
    rangeIterRun startX endX endY n x y =
      ((List.range k).map fun i => (x + 1 + i, y)) ++ rangeIterRun startX endX endY (n - k) (endX + 1) y := by
  intro k
  induction k with
  | zero => intro n x hx _; simp at hx; simp [hx]
  | succ k ih =>
    intro n x hx hn
    obtain ⟨m, rfl⟩ : ∃ m, n = m + 1 := ⟨n - 1, by omega⟩
    rw [rangeIterRun]
    have hstep : rangeIterStep startX endX endY x y = ((x + 1, y), some (x + 1, y)) := by
      simp [rangeIterStep, show ¬ endX < x by omega, show ¬ endY < y by omega]
    rw [hstep]
    simp only
    rw [ih m (x + 1) (by omega) (by omega), List.range_succ_eq_map]
    simp only [List.map_cons, List.map_map, List.cons_append, Nat.add_zero, Nat.add_sub_add_right]
    congr 2
    apply List.map_congr_left
    intro a _
    simp; omega

/-- C44 fails: the iterator yields the rectangle shifted by one column: it never yields a point of column `startX`, and
it yields column `endX + 1` instead. Full description of what it yields, for all rectangles. -/
theorem C44_range_shifted_partial (startX startY endX endY n : Nat) (hx : startX ≤ endX) (hy : startY ≤ endY)
    (hn : (endX - startX + 1) * (endY - startY + 1) < n) :
    rangeIterRun startX endX endY n startX startY =
      rectPoints (startX + 1) startY (endX - startX + 1) (endY - startY + 1) := by
  -- generalise over the number of remaining rows, starting at the beginning of a row
  have key : ∀ (r n y : Nat), y + r = endY + 1 → 0 < r → (endX - startX + 1) * r < n →
      rangeIterRun startX endX endY n startX y = rectPoints (startX + 1) y (endX - startX + 1) r := by
    intro r
    induction r with
    | zero => intro n y _ h; omega
    | succ r ih =>
      intro n y h1 _ h3
      have hmul : (endX - startX + 1) * (r + 1) = (endX - startX + 1) * r + (endX - startX + 1) := Nat.mul_succ _ _
      rw [rangeIter_row startX endX endY y (by omega) (endX - startX + 1) n startX (by omega) (by omega)]
      have hrow : rectPoints (startX + 1) y (endX - startX + 1) (r + 1) =
          ((List.range (endX - startX + 1)).map fun i => (startX + 1 + i, y)) ++
            rectPoints (startX + 1) (y + 1) (endX - startX + 1) r := by
        unfold rectPoints
        rw [List.range_succ_eq_map (n := r)]
        rw [List.flatMap_cons, List.flatMap_map]
        simp only [Nat.add_zero]
        congr 1
        congr 1
        funext a
        apply List.map_congr_left
        intro b _
        simp only [Nat.succ_eq_add_one, Prod.mk.injEq, true_and]; omega
      rw [hrow]
      congr 1
      -- the first call of the next row moves to (startX, y+1)
      obtain ⟨m, hm⟩ : ∃ m, n - (endX - startX + 1) = m + 1 := ⟨n - (endX - startX + 1) - 1, by omega⟩
      rw [hm]
      by_cases hr : r = 0
      · subst hr
        rw [rangeIterRun]
        simp [rangeIterStep, show endY < y + 1 by omega, rectPoints]
      · have e : rangeIterRun startX endX endY (m + 1) (endX + 1) y =
            rangeIterRun startX endX endY (m + 1) startX (y + 1) := by
          rw [rangeIterRun, rangeIterRun]
          simp [rangeIterStep, show ¬ endX < startX by omega]
        rw [e]
        exact ih (m + 1) (y + 1) (by omega) (by omega) (by omega)
  exact key (endY - startY + 1) n startY (by omega) (by omega) hn

example : (0 : Nat) ≤ 1 ∧ (0 : Nat) ≤ 1 ∧ (1 - 0 + 1) * (1 - 0 + 1) < 9 := by decide

/-- C44 fails: witness on the 2×2 rectangle (0,0)..(1,1). -/
theorem C44_range_wrong : rangeIterRun 0 1 1 9 0 0 = [(1, 0), (2, 0), (1, 1), (2, 1)] ∧
    rectPoints 0 0 2 2 = [(0, 0), (1, 0), (0, 1), (1, 1)] := by decide

end Jxl
