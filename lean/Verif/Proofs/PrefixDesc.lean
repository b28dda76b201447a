import Verif.Proofs.Prefix
import Verif.Proofs.Ints
/-! The reader of complex prefix codes builds the table of the described lengths (C10). -/
namespace Jxl
open Spec

/-! ### A full code with a word of length `l` has more than `l` words -/

/-- Number of ones in binary. -/
def ones (n : Nat) : Nat := if n = 0 then 0 else n % 2 + ones (n / 2)
termination_by n
decreasing_by omega

theorem ones_rec (n : Nat) : ones n = n % 2 + ones (n / 2) := by
  by_cases h : n = 0
  · subst h; simp [ones]
  · rw [ones, if_neg h]

theorem ones_add_pow (e n : Nat) : ones (n + 2 ^ e) ≤ ones n + 1 := by
  induction e generalizing n with
  | zero =>
    induction n using Nat.strongRecOn with
    | _ n ih =>
      rw [ones_rec (n + 2 ^ 0), ones_rec n]
      by_cases h : n % 2 = 0
      · have : (n + 2 ^ 0) / 2 = n / 2 := by omega
        rw [this]; omega
      · have h1 : (n + 2 ^ 0) / 2 = n / 2 + 2 ^ 0 := by omega
        have h2 := ih (n / 2) (by omega)
        rw [h1]; omega
  | succ e ih =>
    rw [ones_rec (n + 2 ^ (e + 1)), ones_rec n]
    have h1 : (n + 2 ^ (e + 1)) / 2 = n / 2 + 2 ^ e := by rw [Nat.pow_succ]; omega
    have h2 : (n + 2 ^ (e + 1)) % 2 = n % 2 := by rw [Nat.pow_succ]; omega
    have := ih (n / 2)
    rw [h1, h2]; omega

theorem ones_sum (es : List Nat) : ones ((es.map fun e => 2 ^ e).sum) ≤ es.length := by
  induction es with
  | nil => simp [ones]
  | cons e es ih =>
    simp only [List.map_cons, List.sum_cons, List.length_cons]
    have := ones_add_pow e ((es.map fun e => 2 ^ e).sum)
    rw [Nat.add_comm]; omega

theorem ones_mul_pow (n k : Nat) : ones (n * 2 ^ k) = ones n := by
  induction k with
  | zero => simp
  | succ k ih =>
    rw [ones_rec, Nat.pow_succ, ← Nat.mul_assoc]
    rw [Nat.mul_div_cancel _ (by decide), ih, Nat.mul_mod_left, Nat.zero_add]

theorem ones_pred_pow (l : Nat) : ones (2 ^ l - 1) = l := by
  induction l with
  | zero => simp [ones]
  | succ l ih =>
    have hp := Nat.two_pow_pos l
    rw [ones_rec]
    have h1 : (2 ^ (l + 1) - 1) / 2 = 2 ^ l - 1 := by rw [Nat.pow_succ]; omega
    have h2 : (2 ^ (l + 1) - 1) % 2 = 1 := by rw [Nat.pow_succ]; omega
    rw [h1, h2, ih]; omega

theorem space_eq_filter (b : Nat) (L : List Nat) : space b L = (((L.filter (· ≠ 0)).map fun l => b - l).map fun e => 2 ^ e).sum := by
  unfold space
  induction L with
  | nil => rfl
  | cons x L ih =>
    rw [List.map_cons, List.sum_cons, ih, List.filter_cons]
    by_cases hx : x = 0
    · simp [hx, share]
    · simp [hx, share]

theorem long_code (b : Nat) (L : List Nat) (hle : ∀ l ∈ L, l ≤ b) (hfull : space b L = 2 ^ b) (l : Nat) (hl : l ∈ L) :
    l < L.length ∨ l = 0 := by
  by_cases h0 : l = 0
  · exact Or.inr h0
  left
  obtain ⟨l1, l2, rfl⟩ := List.append_of_mem hl
  have hlb := hle l hl
  have hsp : space b (l1 ++ l :: l2) = space b (l1 ++ l2) + 2 ^ (b - l) := by
    simp [space, share, h0]; omega
  have hrest : space b (l1 ++ l2) = (2 ^ l - 1) * 2 ^ (b - l) := by
    have : 2 ^ l * 2 ^ (b - l) = 2 ^ b := by rw [← Nat.pow_add]; congr 1; omega
    rw [Nat.sub_mul, this, Nat.one_mul]; omega
  have h1 := ones_sum (((l1 ++ l2).filter (· ≠ 0)).map fun l => b - l)
  rw [← space_eq_filter, hrest, ones_mul_pow, ones_pred_pow] at h1
  have h2 := List.length_filter_le (fun x => decide (x ≠ 0)) (l1 ++ l2)
  simp only [List.length_map] at h1
  simp only [List.length_append, List.length_cons] at h2 ⊢
  omega

theorem space_append (b : Nat) (A B : List Nat) : space b (A ++ B) = space b A + space b B := by
  simp [space]

theorem space_zeros (b k : Nat) : space b (List.replicate k 0) = 0 := by
  simp [space, share]

/-! ### Level 0 -/

theorem level0_has (c : Nat) (hc : c ≤ 5) : level0Table.Has (level0Word c) c := by
  have : ∀ c : Fin 6, (level0Word c).length ≤ 4 ∧ ∀ v : Fin 16, level0Word c <+: bitsOf 4 v → level0Table.table[v.val]? = some (((c.val : Nat) : Int), (level0Word c).length) := by
    decide
  obtain ⟨h1, h2⟩ := this ⟨c, by omega⟩
  refine ⟨h1, by decide, ?_⟩
  intro v hv hp
  exact h2 ⟨v, hv⟩ hp

theorem level0_read (c : Nat) (hc : c ≤ 5) : ReadsPad 15 (getVLC level0Table) (level0Word c) c :=
  getVLC_has (level0_has c hc) 15 (by show 4 ≤ _; omega)

/-! ### Level 1 -/

theorem codelenMap_get (i : Nat) (hi : i < 18) : ∃ c, codeLengthOrder[i]? = some c ∧ codelenMap[i]? = some (c : Int) ∧ c < 18 := by
  have : ∀ i : Fin 18, ∃ c : Fin 18, codeLengthOrder[i.val]? = some c.val ∧ codelenMap[i.val]? = some ((c.val : Nat) : Int) := by decide
  obtain ⟨c, h1, h2⟩ := this ⟨i, hi⟩
  exact ⟨c, h1, h2, c.isLt⟩

theorem codeLengthOrder_inj (i j c : Nat) (hi : codeLengthOrder[i]? = some c) (hj : codeLengthOrder[j]? = some c) : i = j := by
  have h : ∀ i j : Fin 18, codeLengthOrder[i.val]? = codeLengthOrder[j.val]? → i = j := by decide
  obtain ⟨h1, _⟩ := List.getElem?_eq_some_iff.1 hi
  obtain ⟨h3, _⟩ := List.getElem?_eq_some_iff.1 hj
  have := h ⟨i, h1⟩ ⟨j, h3⟩ (by simp only; rw [hi, hj])
  exact congrArg Fin.val this

/-- The lengths in listing order. -/
def listed (l1 : List Nat) : List Nat := codeLengthOrder.map fun c => l1[c]?.getD 0

theorem listed_length (l1 : List Nat) : (listed l1).length = 18 := by simp [listed, codeLengthOrder]

theorem listed_get (l1 : List Nat) (hl : l1.length = 18) (i c : Nat) (hi : codeLengthOrder[i]? = some c) : (listed l1)[i]? = l1[c]? := by
  unfold listed
  have hc : c < 18 := by
    have : ∀ c ∈ codeLengthOrder, c < 18 := by decide
    exact this c (List.mem_of_getElem? hi)
  rw [List.getElem?_map, hi]
  simp [List.getElem?_eq_getElem (l := l1) (i := c) (by omega)]

theorem listed_perm (l1 : List Nat) (hl : l1.length = 18) : (listed l1).Perm l1 := by
  have h : codeLengthOrder.Perm (List.range 18) := by decide
  have h2 := h.map (fun c => l1[c]?.getD 0)
  have h3 : (List.range 18).map (fun c => l1[c]?.getD 0) = l1 := by
    apply List.ext_getElem
    · simp [hl]
    · intro i h1 h2; simp [h2]
  rw [h3] at h2
  exact h2

theorem listed_count (l1 : List Nat) (hl : l1.length = 18) (x : Nat) : (listed l1).count x = l1.count x :=
  (listed_perm l1 hl).count_eq x

theorem listed_space (b : Nat) (l1 : List Nat) (hl : l1.length = 18) : space b (listed l1) = space b l1 :=
  ((listed_perm l1 hl).map (share b)).sum_nat

theorem numCodes_eq (l1 : List Nat) (hl : l1.length = 18) : ((listed l1).filter (· ≠ 0)).length = (l1.filter (· ≠ 0)).length := by
  have h : ∀ l : List Nat, (l.filter (· ≠ 0)).length + l.count 0 = l.length := by
    intro l
    induction l with
    | nil => rfl
    | cons a l ih => by_cases ha : a = 0 <;> simp_all <;> omega
  have h1 := h (listed l1)
  have h2 := h l1
  rw [listed_count l1 hl, listed_length] at h1
  omega

/-- What the level-1 loop has at position `i` of the listing. -/
structure L1Inv (l1 : List Nat) (hskip i : Nat) (st : L1) : Prop where
  len : st.lengths.length = 18
  clen : st.counts.length = 19
  lengths : ∀ j c, codeLengthOrder[j]? = some c → st.lengths[c]? = some (if hskip ≤ j ∧ j < i then ((l1[c]?.getD 0 : Nat) : Int) else 0)
  counts : ∀ x, x < 6 → st.counts[x]? = some (((((listed l1).drop hskip).take (i - hskip)).count x + (if x = 0 then hskip else 0) : Nat) : Int)
  total : st.totalCode = space 5 (((listed l1).drop hskip).take (i - hskip))
  num : st.numCodes = ((((listed l1).drop hskip).take (i - hskip)).filter (· ≠ 0)).length

theorem share5 (v : Nat) (hv : v ≤ 5) : (if (v : Int) ≠ 0 then 32 / 2 ^ ((v : Int)).toNat else 0) = share 5 v := by
  have : ∀ v : Fin 6, (if ((v.val : Nat) : Int) ≠ 0 then 32 / 2 ^ (((v.val : Nat) : Int)).toNat else 0) = share 5 v.val := by decide
  exact this ⟨v, by omega⟩

/-- Final facts about level 1, whichever way the loop ends. -/
structure L1Done (l1 : List Nat) (st : L1) : Prop where
  lengths : st.lengths = l1.map Int.ofNat
  clen : st.counts.length = 19
  counts : ∀ x, x < 6 → st.counts[x]? = some ((l1.count x : Nat) : Int)
  total : st.totalCode = space 5 l1
  num : st.numCodes = (l1.filter (· ≠ 0)).length

theorem share_pos (b l : Nat) (h : l ≠ 0) : 0 < share b l := by
  unfold share; rw [if_neg h]; exact Nat.two_pow_pos _

theorem all_zero_of_space (b : Nat) (L : List Nat) (h : space b L = 0) : ∀ l ∈ L, l = 0 := by
  intro l hl
  by_cases h0 : l = 0
  · exact h0
  obtain ⟨A, B, rfl⟩ := List.append_of_mem hl
  have := share_pos b l h0
  simp [space] at h
  omega

theorem l1_done (l1 : List Nat) (hl : l1.length = 18) (hskip i : Nat) (st : L1) (hi : hskip ≤ i) (hi18 : i ≤ 18)
    (hskipped : ∀ j, j < hskip → (listed l1)[j]? = some 0) (hinv : L1Inv l1 hskip i st)
    (hrest : (listed l1).drop i = List.replicate (18 - i) 0) (cnts : List Int) (hclen : cnts.length = 19)
    (hcnts : ∀ x, x < 6 → cnts[x]? = some ((((((listed l1).drop hskip).take (i - hskip)).count x + (if x = 0 then hskip else 0)) + (if x = 0 then 18 - i else 0) : Nat) : Int)) :
    L1Done l1 { st with counts := cnts } := by
  have hll := listed_length l1
  have hspl : listed l1 = List.replicate hskip 0 ++ ((listed l1).drop hskip).take (i - hskip) ++ (listed l1).drop i := by
    have h1 : (listed l1).take hskip = List.replicate hskip 0 := by
      apply List.ext_getElem?
      intro j
      by_cases hj : j < hskip
      · rw [List.getElem?_take_of_lt hj, hskipped j hj]; simp [hj]
      · rw [List.getElem?_eq_none (by simp; omega), List.getElem?_eq_none (by simp; omega)]
    rw [← h1, List.append_assoc]
    have h2 : (listed l1).drop i = ((listed l1).drop hskip).drop (i - hskip) := by
      rw [List.drop_drop]; congr 1; omega
    rw [h2, List.take_append_drop (i - hskip) ((listed l1).drop hskip), List.take_append_drop hskip (listed l1)]
  obtain ⟨j1, j2, j3, j4, j5, j6⟩ := hinv
  refine ⟨?_, hclen, ?_, ?_, ?_⟩
  · apply List.ext_getElem?
    intro d
    by_cases hd : d < 18
    · have : ∀ c : Fin 18, ∃ j : Fin 18, codeLengthOrder[j.val]? = some c.val := by decide
      obtain ⟨⟨j, hj18⟩, hj⟩ := this ⟨d, hd⟩
      simp only at hj
      simp only
      rw [j3 j d hj]
      have hcl := List.getElem?_eq_getElem (l := l1) (i := d) (by omega)
      have hlg := listed_get l1 hl j d hj
      by_cases hjs : hskip ≤ j ∧ j < i
      · rw [if_pos hjs, List.getElem?_map, hcl]; simp
      · rw [if_neg hjs, List.getElem?_map, ← hlg]
        by_cases hlt' : j < hskip
        · rw [hskipped j hlt']; simp
        · have hm : (listed l1)[j]? = some 0 := by
            have h1 : (listed l1)[j]? = ((listed l1).drop i)[j - i]? := by
              rw [List.getElem?_drop]; congr 1; omega
            rw [h1, hrest, List.getElem?_replicate, if_pos (by omega)]
          rw [hm]; simp
    · simp only
      rw [List.getElem?_eq_none (by omega), List.getElem?_eq_none (by simp; omega)]
  · intro x hx
    simp only
    rw [hcnts x hx, ← listed_count l1 hl x]
    conv => rhs; rw [hspl, hrest, List.count_append, List.count_append, List.count_replicate, List.count_replicate]
    by_cases h0 : x = 0
    · subst h0; simp; omega
    · simp [h0, Ne.symm h0]
  · simp only
    rw [j5, ← listed_space 5 l1 hl]
    conv => rhs; rw [hspl, hrest, space_append, space_append, space_zeros, space_zeros]
    omega
  · simp only
    rw [j6, ← numCodes_eq l1 hl]
    conv => rhs; rw [hspl, hrest]
    simp

theorem level1Loop_spec (l1 : List Nat) (hl : l1.length = 18) (hle : ∀ l ∈ l1, l ≤ 5) (hskip : Nat) (hh : hskip ≤ 3)
    (hsp : space 5 l1 ≤ 32) (hskipped : ∀ j, j < hskip → (listed l1)[j]? = some 0) :
    ∀ (n : Nat) (st : L1), n + hskip ≤ 18 → L1Inv l1 hskip (18 - n) st → st.totalCode < 32 →
    ∃ st', ReadsPad 15 (level1Loop n st) (encLevel1 st.totalCode ((listed l1).drop (18 - n))) st' ∧ L1Done l1 st' := by
  have hll := listed_length l1
  intro n
  induction n with
  | zero =>
    intro st hn hinv hlt
    refine ⟨st, ?_, ?_⟩
    · have : (listed l1).drop 18 = [] := List.drop_eq_nil_of_le (by omega)
      rw [this]
      exact ReadsPad.pure 15 st
    · have hcn := hinv.counts
      have := l1_done l1 hl hskip (18 - 0) st (by omega) (by omega) hskipped hinv
        (by rw [List.drop_eq_nil_of_le (by omega)]; simp) st.counts hinv.clen (by intro x hx; rw [hcn x hx]; simp)
      exact this
  | succ n ih =>
    intro st hn hinv hlt
    obtain ⟨i1, i2, i3, i4, i5, i6⟩ := hinv
    -- the listed value at position i = 17 - n
    have hi : 18 - (n + 1) = 17 - n := by omega
    rw [hi] at i3 i4 i5 i6 ⊢
    obtain ⟨c, hc1, hc2, hc3⟩ := codelenMap_get (17 - n) (by omega)
    have hv := List.getElem?_eq_getElem (l := l1) (i := c) (by omega)
    obtain ⟨v, hvdef⟩ : ∃ v, v = l1[c]'(by omega) := ⟨_, rfl⟩
    rw [← hvdef] at hv
    have hv5 : v ≤ 5 := hle v (List.mem_of_getElem? hv)
    have hlv : (listed l1)[17 - n]? = some v := by rw [listed_get l1 hl _ c hc1, hv]
    have hdrop : (listed l1).drop (17 - n) = v :: (listed l1).drop (18 - n) := by
      obtain ⟨h1, h2⟩ := List.getElem?_eq_some_iff.1 hlv
      rw [List.drop_eq_getElem_cons h1, h2]
      congr 2; omega
    have htk : ((listed l1).drop hskip).take (18 - n - hskip) = ((listed l1).drop hskip).take (17 - n - hskip) ++ [v] := by
      have : 18 - n - hskip = (17 - n - hskip) + 1 := by omega
      rw [this]
      have hg : ((listed l1).drop hskip)[17 - n - hskip]? = some v := by
        rw [List.getElem?_drop, ← hlv]; congr 1; omega
      obtain ⟨h1, h2⟩ := List.getElem?_eq_some_iff.1 hg
      rw [List.take_succ_eq_append_getElem h1, h2]
    -- next state
    have hvi : ((17 : Int) - n) = ((17 - n : Nat) : Int) := by omega
    generalize hlens : st.lengths.set c (v : Int) = lens'
    have hcv := i4 v (by omega)
    generalize hcnts : st.counts.set v (((((listed l1).drop hskip).take (17 - n - hskip)).count v + (if v = 0 then hskip else 0) : Nat) + 1 : Int) = cnts'
    have htot : (if (v : Int) ≠ 0 then st.totalCode + 32 / 2 ^ ((v : Int)).toNat else st.totalCode) = st.totalCode + share 5 v := by
      rw [← share5 v hv5]; split <;> simp
    have hnum : (if (v : Int) ≠ 0 then st.numCodes + 1 else st.numCodes) = st.numCodes + (if v = 0 then 0 else 1) := by
      by_cases h0 : v = 0 <;> simp [h0]
    have hinv' : L1Inv l1 hskip (18 - n) { lengths := lens', counts := cnts', totalCode := st.totalCode + share 5 v, numCodes := st.numCodes + (if v = 0 then 0 else 1) } := by
      refine ⟨by simp [← hlens, i1], by simp [← hcnts, i2], ?_, ?_, ?_, ?_⟩
      · intro j d hjd
        simp only [← hlens]
        by_cases hcd : c = d
        · subst hcd
          have hj := codeLengthOrder_inj j (17 - n) c hjd hc1
          rw [List.getElem?_set_self (by omega), if_pos (by omega), hv]
          simp
        · rw [List.getElem?_set_ne hcd, i3 j d hjd]
          have hjne : j ≠ 17 - n := by
            intro h; rw [h, hc1] at hjd; exact hcd (Option.some.inj hjd)
          by_cases hcond : hskip ≤ j ∧ j < 17 - n
          · rw [if_pos hcond, if_pos (by omega)]
          · rw [if_neg hcond, if_neg (by omega)]
      · intro x hx
        simp only [← hcnts, htk, List.count_append, List.count_singleton, beq_iff_eq]
        by_cases hvx : v = x
        · subst hvx
          rw [List.getElem?_set_self (by omega)]
          simp; omega
        · rw [List.getElem?_set_ne hvx, i4 x hx]
          simp [hvx]
      · simp only [htk, space_append, ← i5]
        simp [space]
      · simp only [htk, List.filter_append, List.length_append, ← i6]
        by_cases h0 : v = 0 <;> simp [h0]
    -- run the body
    have hbody : ∀ (e : List Bool) (st' : L1), ReadsPad 15 (if 32 ≤ st.totalCode + share 5 v then do
          let c0 ← Rd.lift (idx cnts' 0)
          let counts ← Rd.lift (setAt cnts' 0 (c0 + (17 - ((17 : Int) - n))))
          pure { lengths := lens', counts := counts, totalCode := st.totalCode + share 5 v, numCodes := st.numCodes + (if v = 0 then 0 else 1) }
        else level1Loop n { lengths := lens', counts := cnts', totalCode := st.totalCode + share 5 v, numCodes := st.numCodes + (if v = 0 then 0 else 1) }) e st' →
        ReadsPad 15 (level1Loop (n + 1) st) (level0Word v ++ e) st' := by
      intro e st' h
      unfold level1Loop
      apply ReadsPad.bind (level0_read v hv5)
      apply ReadsPad.bind_lift (a := (c : Int)) (by rw [hvi]; exact idx_nat _ _ _ hc2)
      apply ReadsPad.bind_lift (setAt_nat _ _ _ (by omega))
      apply ReadsPad.bind_lift (idx_nat _ _ _ hcv)
      apply ReadsPad.bind_lift (setAt_nat _ _ _ (by omega))
      simp only
      rw [htot, hnum, hlens, hcnts]
      exact h
    rw [hdrop]
    by_cases hfull : 32 ≤ st.totalCode + share 5 v
    · have henc : encLevel1 st.totalCode (v :: (listed l1).drop (18 - n)) = level0Word v ++ [] := by
        simp [encLevel1, hfull]
      rw [henc]
      have hc0 := hinv'.counts 0 (by omega)
      have hcl := hinv'.clen
      have htt := hinv'.total
      simp only at hc0 hcl htt
      have hdz : (listed l1).drop (18 - n) = List.replicate n 0 := by
        have hlen : ((listed l1).drop (18 - n)).length = n := by simp; omega
        rw [List.eq_replicate_iff]
        refine ⟨hlen, ?_⟩
        apply all_zero_of_space 5
        have hsp' := listed_space 5 l1 hl
        have h2 : listed l1 = (listed l1).take hskip ++ (((listed l1).drop hskip).take (18 - n - hskip) ++ (listed l1).drop (18 - n)) := by
          have h3 : (listed l1).drop (18 - n) = ((listed l1).drop hskip).drop (18 - n - hskip) := by
            rw [List.drop_drop, show hskip + (18 - n - hskip) = 18 - n by omega]
          rw [h3, List.take_append_drop (18 - n - hskip) ((listed l1).drop hskip), List.take_append_drop hskip (listed l1)]
        rw [h2, space_append, space_append] at hsp'
        omega
      refine ⟨{ lengths := lens', counts := cnts'.set 0 (((((listed l1).drop hskip).take (18 - n - hskip)).count 0 + (if (0 : Nat) = 0 then hskip else 0) : Nat) + (17 - ((17 : Int) - n))), totalCode := st.totalCode + share 5 v, numCodes := st.numCodes + (if v = 0 then 0 else 1) }, ?_, ?_⟩
      · apply hbody
        rw [if_pos hfull]
        apply ReadsPad.bind_lift (idx_nat cnts' 0 _ hc0)
        apply ReadsPad.bind_lift (setAt_nat cnts' 0 _ (by omega))
        exact ReadsPad.pure 15 _
      · have hcn := hinv'.counts
        simp only at hcn
        exact l1_done l1 hl hskip (18 - n) _ (by omega) (by omega) hskipped hinv'
          (by rw [hdz, show 18 - (18 - n) = n by omega]) _ (by simpa using hcl) (by
            intro x hx
            by_cases h0 : x = 0
            · subst h0
              rw [List.getElem?_set_self (by omega)]
              simp; omega
            · rw [List.getElem?_set_ne (Ne.symm h0), hcn x hx]
              simp [h0])
    · have henc : encLevel1 st.totalCode (v :: (listed l1).drop (18 - n)) = level0Word v ++ encLevel1 (st.totalCode + share 5 v) ((listed l1).drop (18 - n)) := by
        simp [encLevel1, hfull]
      rw [henc]
      obtain ⟨st', h1, h2⟩ := ih _ (by omega) hinv' (by simp only; omega)
      refine ⟨st', ?_, h2⟩
      apply hbody
      rw [if_neg hfull]
      exact h1


theorem byLength_length (m : Nat) (L : List Nat) (hL : ∀ l ∈ L, l < m) : (byLength m L).length = L.length := by
  have h := blocks_length L 0 (Nat.zero_le _) m
  rw [shorter_total L m hL] at h
  rw [← h]
  simp [byLength, blockAt, idxFrom, List.length_flatMap, List.range_eq_range']

theorem byLength_mono (m k : Nat) (L : List Nat) (hL : ∀ l ∈ L, l < m) : byLength (m + k) L = byLength m L := by
  induction k with
  | zero => rfl
  | succ k ih =>
    rw [← ih]
    unfold byLength
    rw [← Nat.add_assoc, List.range_succ, List.flatMap_append]
    have : (List.range L.length).filter (fun j => decide (L[j]? = some (m + k))) = [] := by
      rw [List.filter_eq_nil_iff]
      intro j _ h
      have := hL (m + k) (List.mem_of_getElem? (of_decide_eq_true h))
      omega
    simp [this]

theorem mem_le_sum (L : List Nat) (x : Nat) (h : x ∈ L) : x ≤ L.sum := by
  induction L with
  | nil => simp at h
  | cons a L ih =>
    simp only [List.sum_cons]
    rcases List.mem_cons.1 h with rfl | h
    · omega
    · have := ih h; omega

theorem single_last (l1 : List Nat) (hl : l1.length = 18) (hle : ∀ l ∈ l1, l ≤ 5) (h1 : (l1.filter (· ≠ 0)).length = 1)
    (c : Nat) (hc : l1[c]?.getD 0 ≠ 0) : (byLength 6 l1)[17]? = some c := by
  have hL : ∀ l ∈ l1, l < 6 := fun l hl => by have := hle l hl; omega
  have hlen := byLength_length 6 l1 hL
  have hsort := byLength_sorted 6 l1
  have hsum := sum_byLength 6 l1 hL (fun x => x)
  have hg := List.getElem?_eq_getElem (l := byLength 6 l1) (i := 17) (by omega)
  generalize hc' : (byLength 6 l1)[17]'(by omega) = c' at hg
  rw [hg]
  congr 1
  have hcs : ∃ x, l1[c]? = some x ∧ x ≠ 0 := by
    cases h : l1[c]? with
    | none => rw [h] at hc; simp at hc
    | some x => rw [h] at hc; exact ⟨x, rfl, by simpa using hc⟩
  obtain ⟨x, hx1, hx2⟩ := hcs
  have hne : l1[c']?.getD 0 ≠ 0 := by
    intro h0
    have hall : ∀ y ∈ (byLength 6 l1).map (fun j => l1[j]?.getD 0), y ≤ 0 := by
      intro y hy
      obtain ⟨k, hk⟩ := List.mem_iff_getElem?.1 hy
      obtain ⟨hkl, hky⟩ := List.getElem?_eq_some_iff.1 hk
      have hlast : ((byLength 6 l1).map (fun j => l1[j]?.getD 0))[17]'(by simp; omega) = 0 := by simp [hc', h0]
      rw [← hky]
      have hkl' := hkl
      simp only [List.length_map] at hkl'
      by_cases hk17 : k = 17
      · subst hk17; exact Nat.le_of_eq hlast
      · exact Nat.le_trans ((List.pairwise_iff_getElem.1 hsort) k 17 hkl (by simp; omega) (by omega)) (Nat.le_of_eq hlast)
    have hz : ((byLength 6 l1).map (fun j => l1[j]?.getD 0)).sum = 0 := by
      have : ∀ l : List Nat, (∀ y ∈ l, y ≤ 0) → l.sum = 0 := by
        intro l
        induction l with
        | nil => intro _; rfl
        | cons a l ih => intro h; rw [List.sum_cons, ih (fun y hy => h y (by simp [hy]))]; have := h a (by simp); omega
      exact this _ hall
    rw [hz] at hsum
    have := mem_le_sum l1 x (List.mem_of_getElem? hx1)
    simp at hsum
    omega
  have hcs' : ∃ x, l1[c']? = some x ∧ x ≠ 0 := by
    cases h : l1[c']? with
    | none => rw [h] at hne; simp at hne
    | some x => rw [h] at hne; exact ⟨x, rfl, by simpa using hne⟩
  obtain ⟨y, hy1, hy2⟩ := hcs'
  -- two different positions would give two elements of the filter
  have key : ∀ (l : List Nat) (i j a b : Nat), i < j → l[i]? = some a → l[j]? = some b → a ≠ 0 → b ≠ 0 → 2 ≤ (l.filter (· ≠ 0)).length := by
    intro l
    induction l with
    | nil => intro i j a b _ h; simp at h
    | cons z l ih =>
      intro i j a b hij hi hj ha hb
      cases i with
      | zero =>
        obtain ⟨j', rfl⟩ : ∃ j', j = j' + 1 := ⟨j - 1, by omega⟩
        simp only [List.getElem?_cons_zero, Option.some.injEq, List.getElem?_cons_succ] at hi hj
        subst hi
        have : b ∈ l.filter (· ≠ 0) := by simp [List.mem_of_getElem? hj, hb]
        have := List.length_pos_of_mem this
        simp only [List.filter_cons, ha, ne_eq, not_false_eq_true, decide_true, if_true, List.length_cons]
        simp only [ne_eq] at this
        omega
      | succ i =>
        obtain ⟨j', rfl⟩ : ∃ j', j = j' + 1 := ⟨j - 1, by omega⟩
        simp only [List.getElem?_cons_succ] at hi hj
        have := ih i j' a b (by omega) hi hj ha hb
        rw [List.filter_cons]
        split
        · simp only [List.length_cons]; omega
        · exact this
  by_cases heq : c' = c
  · exact heq
  · rcases Nat.lt_or_gt_of_ne heq with h | h
    · have := key l1 c' c y x h hy1 hx1 hy2 hx2; omega
    · have := key l1 c c' x y h hx1 hy1 hx2 hy2; omega

theorem readLevel1_spec (l1 : List Nat) (hl : l1.length = 18) (hle : ∀ l ∈ l1, l ≤ 5) (hskip : Nat) (hh : hskip ≤ 3)
    (hskipped : ∀ c ∈ codeLengthOrder.take hskip, l1[c]? = some 0)
    (hfull : space 5 l1 = 32 ∨ (l1.filter (· ≠ 0)).length = 1) :
    ∃ t, ReadsPad 15 (readLevel1 hskip) (encLevel1 0 ((codeLengthOrder.drop hskip).map fun c => l1[c]?.getD 0)) t ∧
      t.bits ≤ 5 ∧ ∀ c w, level1Word l1 c w → t.Has w c := by
  have hL : ∀ l ∈ l1, l < 6 := fun l hl => by have := hle l hl; omega
  have hskipped' : ∀ j, j < hskip → (listed l1)[j]? = some 0 := by
    intro j hj
    obtain ⟨c, hc, _, _⟩ := codelenMap_get j (by omega)
    rw [listed_get l1 hl j c hc]
    apply hskipped
    rw [List.mem_iff_getElem?]
    exact ⟨j, by rw [List.getElem?_take_of_lt hj, hc]⟩
  have hsp : space 5 l1 ≤ 32 := by
    rcases hfull with h | h
    · omega
    · rw [space_eq_filter]
      obtain ⟨x, hx⟩ := List.length_eq_one_iff.1 h
      rw [hx]
      simp only [List.map_cons, List.map_nil, List.sum_cons, List.sum_nil, Nat.add_zero]
      exact Nat.pow_le_pow_right (by decide) (by omega : 5 - x ≤ 5)
  have hinit : L1Inv l1 hskip (18 - (18 - hskip)) { lengths := List.replicate 18 0, counts := (hskip : Int) :: List.replicate 18 0, totalCode := 0, numCodes := 0 } := by
    rw [show 18 - (18 - hskip) = hskip by omega]
    refine ⟨by simp, by simp, ?_, ?_, ?_, ?_⟩
    · intro j c hc
      have : c < 18 := by
        have : ∀ c ∈ codeLengthOrder, c < 18 := by decide
        exact this c (List.mem_of_getElem? hc)
      rw [if_neg (by omega), List.getElem?_replicate, if_pos this]
    · intro x hx
      cases x with
      | zero => simp
      | succ x =>
        rw [List.getElem?_cons_succ, List.getElem?_replicate, if_pos (by omega)]
        simp
    · simp [space]
    · simp
  obtain ⟨st, hst, hdone⟩ := level1Loop_spec l1 hl hle hskip hh hsp hskipped' (18 - hskip) _ (by omega) hinit (by simp)
  obtain ⟨d1, d2, d3, d4, d5⟩ := hdone
  have henc : (codeLengthOrder.drop hskip).map (fun c => l1[c]?.getD 0) = (listed l1).drop (18 - (18 - hskip)) := by
    rw [show 18 - (18 - hskip) = hskip by omega]
    simp [listed]
  have hcs := countingSort_spec l1 6 hL st.counts (by omega) d3
  by_cases hone : (l1.filter (· ≠ 0)).length = 1
  · -- a single code
    have hrow : (byLength 6 l1)[17]? = some ((byLength 6 l1)[17]'(by rw [byLength_length 6 l1 hL]; omega)) := List.getElem?_eq_getElem _
    obtain ⟨c0, hc0⟩ : ∃ c0, (byLength 6 l1)[17]? = some c0 := ⟨_, hrow⟩
    refine ⟨{ bits := 0, table := [((c0 : Int), 0)] }, ?_, by simp, ?_⟩
    · unfold readLevel1
      rw [henc]
      apply (ReadsPad.bind hst (e2 := []) ?_).congr (by simp) rfl
      rw [if_neg (by omega)]
      apply ReadsPad.bind_lift (by rw [d1]; exact hcs)
      rw [if_pos (by omega)]
      apply ReadsPad.bind_lift (a := rowOf l1 c0) (idx_nat _ 17 _ (by simp [hc0]))
      exact ReadsPad.pure 15 _
    · intro c w hw
      unfold level1Word at hw
      rw [if_pos hone] at hw
      obtain ⟨hw1, rfl⟩ := hw
      have := single_last l1 hl hle hone c hw1
      rw [hc0] at this
      cases this
      refine ⟨by simp, by simp, ?_⟩
      intro v hv _
      have : v = 0 := by simpa using hv
      subst this; rfl
  · have h32 : space 5 l1 = 2 ^ 5 := by exact hfull.resolve_right hone
    obtain ⟨t, ht1, ht2, ht3⟩ := table_of_lengths 5 6 l1 hL (by omega) (by omega) h32
    have hnum : ¬ (l1.filter (· ≠ 0)).length < 1 := by
      intro h
      have : l1.filter (· ≠ 0) = [] := List.length_eq_zero_iff.1 (by omega)
      rw [space_eq_filter, this] at h32
      simp at h32
    refine ⟨t, ?_, by omega, ?_⟩
    · unfold readLevel1
      rw [henc]
      apply (ReadsPad.bind hst (e2 := []) ?_).congr (by simp) rfl
      rw [if_neg (by omega)]
      apply ReadsPad.bind_lift (by rw [d1]; exact hcs)
      rw [if_neg (by omega)]
      exact ReadsPad.lift 15 ht1
    · intro c w hw
      unfold level1Word at hw
      rw [if_neg hone] at hw
      exact (ht3 c w hw).1

/-! ### Level 2 -/

structure L2Inv (A : Nat) (E : List Nat) (rs : RunState) (st : L2) : Prop where
  le : E.length ≤ A
  lengths : st.lengths = E.map Int.ofNat ++ List.replicate (A - E.length) 0
  clen : st.counts.length = A + 1
  counts : ∀ x, x < 16 → x ≤ A → st.counts[x]? = some ((E.count x : Nat) : Int)
  total : st.totalCode = ((space 15 E : Nat) : Int)
  rep : st.prevRepeat = (rs.rep : Int)
  zero : st.prevZero = (rs.zero : Int)
  prev : st.prev = (rs.last : Int)
  last : rs.last ≠ 0 ∧ rs.last ≤ 15
  repOk : rs.rep = 0 ∨ 3 ≤ rs.rep
  zeroOk : rs.zero = 0 ∨ 3 ≤ rs.zero

theorem fillRun_spec (B C : List Int) (prev : Int) (n : Nat) :
    fillRun (B ++ (List.replicate n 0 ++ C)) (B.length : Int) prev n = .ok (B ++ (List.replicate n prev ++ C)) := by
  induction n generalizing B with
  | zero => rfl
  | succ n ih =>
    unfold fillRun
    rw [setAt_nat _ _ _ (by simp; omega)]
    simp only [Res.bind_ok]
    have h1 : (B ++ (List.replicate (n + 1) 0 ++ C)).set B.length prev = (B ++ [prev]) ++ (List.replicate n 0 ++ C) := by
      simp [List.replicate_succ, List.set_append]
    rw [h1]
    have := ih (B ++ [prev])
    simp only [List.length_append, List.length_cons, List.length_nil, Nat.zero_add] at this
    rw [show ((B.length : Int) + 1) = ((B.length + 1 : Nat) : Int) by omega, this]
    simp [List.replicate_succ]

theorem share15 (l : Nat) (hl : l ≤ 15) (h0 : l ≠ 0) : 32768 / 2 ^ l = share 15 l := by
  have : ∀ l : Fin 16, l.val ≠ 0 → 32768 / 2 ^ l.val = share 15 l.val := by decide
  exact this ⟨l, by omega⟩ h0

theorem replicate_split (A n : Nat) (h : n ≤ A) : List.replicate A (0 : Int) = List.replicate n 0 ++ List.replicate (A - n) 0 := by
  rw [List.replicate_append_replicate]; congr 1; omega

theorem exI {α : Type} {p q : α → Prop} {r : Prop} {a : α} (h1 : p a) (h2 : q a) (h3 : r) : ∃ x, p x ∧ q x ∧ r := ⟨a, h1, h2, h3⟩

theorem level2Step_spec (A : Nat) (E : List Nat) (rs : RunState) (st : L2) (hinv : L2Inv A E rs st) (c : LenCmd) (hc : c.Valid)
    (hfit : E.length + (c.run rs).1.length ≤ A) (hsmall : ∀ l ∈ (c.run rs).1, l ≤ A) :
    ∃ st', ReadsPad 15 (level2Step (E.length : Int) (c.symbol : Int) st) c.extraBits
        (((E.length + (c.run rs).1.length : Nat) : Int) - 1, st') ∧
      L2Inv A (E ++ (c.run rs).1) (c.run rs).2 st' ∧ 0 < (c.run rs).1.length := by
  obtain ⟨k0, k1, k2, k3, k4, k5, k6, k7, k8, k9, k10⟩ := hinv
  cases c with
  | lit l =>
    simp only [LenCmd.run, LenCmd.symbol, LenCmd.extraBits, LenCmd.Valid, List.length_cons, List.length_nil] at *
    have hlA : l ≤ A := hsmall l (by simp)
    have hcx := k3 l (by omega) hlA
    apply exI (h3 := by omega)
    · unfold level2Step
      rw [if_neg (by omega), if_neg (by omega)]
      apply ReadsPad.bind_lift (setAt_nat _ _ _ (by rw [k1]; simp; omega))
      apply ReadsPad.bind_lift (idx_nat _ _ _ hcx)
      apply ReadsPad.bind_lift (setAt_nat _ _ _ (by omega))
      exact (ReadsPad.pure 15 _).congr rfl (Prod.ext (by simp) rfl)
    · refine ⟨by simp; omega, ?_, by simpa using k2, ?_, ?_, by simp, by simp, ?_, ?_, Or.inl rfl, Or.inl rfl⟩
      · simp only [k1]
        obtain ⟨r, hr⟩ : ∃ r, A - E.length = r + 1 := ⟨A - E.length - 1, by omega⟩
        rw [hr]
        simp [List.replicate_succ, List.set_append]
        omega
      · intro x hx hxA
        simp only [List.count_append, List.count_singleton, beq_iff_eq]
        by_cases hlx : l = x
        · subst hlx; rw [List.getElem?_set_self (by omega)]; simp
        · rw [List.getElem?_set_ne hlx, k3 x hx hxA]; simp [hlx]
      · simp only [space_append, k4]
        by_cases h0 : l = 0
        · subst h0; simp [space, share]
        · have := share15 l hc h0
          rw [if_pos (by omega)]
          simp only [space, List.map_cons, List.map_nil, List.sum_cons, List.sum_nil, Int.toNat_natCast, this]
          omega
      · simp only [k7]
        by_cases h0 : l = 0 <;> simp [h0]
      · by_cases h0 : l = 0
        · simp [h0, k8]
        · simp [h0, hc]
  | rep e =>
    simp only [LenCmd.run, LenCmd.symbol, LenCmd.extraBits, LenCmd.Valid, List.length_replicate] at *
    generalize htot : (if rs.rep = 0 then 3 + e else 4 * (rs.rep - 2) + 3 + e) = total at *
    have hge : rs.rep + 3 ≤ total := by rw [← htot]; split <;> omega
    have hextra : (if 0 < st.prevRepeat then 4 * (st.prevRepeat - 2) - st.prevRepeat + (3 + (e : Int)) else 3 + (e : Int)) = ((total - rs.rep : Nat) : Int) := by
      rw [k5, ← htot]
      by_cases h0 : rs.rep = 0
      · simp [h0]
      · have : 3 ≤ rs.rep := by omega
        rw [if_pos (by omega), if_neg h0]; omega
    have hlA : rs.last ≤ A := hsmall rs.last (by simp; omega)
    have hcx := k3 rs.last (by omega) hlA
    have hfill : fillRun st.lengths (E.length : Int) st.prev (total - rs.rep) =
        .ok ((E ++ List.replicate (total - rs.rep) rs.last).map Int.ofNat ++ List.replicate (A - (E ++ List.replicate (total - rs.rep) rs.last).length) 0) := by
      rw [k1, k7, replicate_split (A - E.length) (total - rs.rep) (by omega)]
      have := fillRun_spec (E.map Int.ofNat) (List.replicate (A - E.length - (total - rs.rep)) 0) (rs.last : Int) (total - rs.rep)
      rw [List.length_map] at this
      rw [this]
      simp; omega
    apply exI (h3 := by omega)
    · unfold level2Step
      rw [if_pos (show ((16 : Nat) : Int) = 16 from rfl)]
      refine (ReadsPad.bind (e2 := []) ((reads_bitsOf 2 e (by omega) (by omega)).pad 15) ?_).congr (by simp) rfl
      simp only [hextra, Int.toNat_natCast]
      apply ReadsPad.bind_lift hfill
      apply ReadsPad.bind_lift (idx_nat _ _ _ (by exact hcx) |> fun h => by rw [k7]; exact h)
      apply ReadsPad.bind_lift (by rw [k7]; exact setAt_nat _ _ _ (by omega))
      exact (ReadsPad.pure 15 _).congr rfl (Prod.ext (by simp only; omega) rfl)
    · refine ⟨by simp; omega, rfl, by simpa using k2, ?_, ?_, ?_, by simp, k7, k8, Or.inr (by simp only; omega), Or.inl rfl⟩
      · intro x hx hxA
        simp only [List.count_append, List.count_replicate, beq_iff_eq]
        by_cases hlx : rs.last = x
        · rw [← hlx, List.getElem?_set_self (by omega)]; simp
        · rw [List.getElem?_set_ne hlx, k3 x hx hxA]; simp [hlx]
      · simp only [space_append, k4, k7, Int.toNat_natCast]
        rw [share15 rs.last k8.2 k8.1]
        simp [space, List.sum_replicate_nat, Int.mul_comm]
      · simp only [k5]; omega
  | zrun e =>
    simp only [LenCmd.run, LenCmd.symbol, LenCmd.extraBits, LenCmd.Valid, List.length_replicate] at *
    generalize htot : (if rs.zero = 0 then 3 + e else 8 * (rs.zero - 2) + 3 + e) = total at *
    have hge : rs.zero + 3 ≤ total := by rw [← htot]; split <;> omega
    have hextra : (if 0 < st.prevZero then 8 * (st.prevZero - 2) - st.prevZero + (3 + (e : Int)) else 3 + (e : Int)) = ((total - rs.zero : Nat) : Int) := by
      rw [k6, ← htot]
      by_cases h0 : rs.zero = 0
      · simp [h0]
      · have : 3 ≤ rs.zero := by omega
        rw [if_pos (by omega), if_neg h0]; omega
    have hcx := k3 0 (by omega) (by omega)
    apply exI (h3 := by omega)
    · unfold level2Step
      rw [if_neg (by decide), if_pos (show ((17 : Nat) : Int) = 17 from rfl)]
      refine (ReadsPad.bind (e2 := []) ((reads_bitsOf 3 e (by omega) (by omega)).pad 15) ?_).congr (by simp) rfl
      simp only [hextra]
      apply ReadsPad.bind_lift (idx_nat st.counts 0 _ hcx)
      apply ReadsPad.bind_lift (setAt_nat st.counts 0 _ (by omega))
      exact (ReadsPad.pure 15 _).congr rfl (Prod.ext (by simp only; omega) rfl)
    · refine ⟨by simp; omega, ?_, by simpa using k2, ?_, ?_, by simp, ?_, k7, k8, Or.inl rfl, Or.inr (by simp only; omega)⟩
      · simp only [k1]
        rw [replicate_split (A - E.length) (total - rs.zero) (by omega)]
        simp; omega
      · intro x hx hxA
        simp only [List.count_append, List.count_replicate, beq_iff_eq]
        by_cases hlx : 0 = x
        · rw [← hlx, List.getElem?_set_self (by omega)]; simp
        · rw [List.getElem?_set_ne hlx, k3 x hx hxA]; simp [hlx]
      · simp only [space_append, k4, space_zeros, Nat.add_zero]
      · simp only [k6]; omega

/-- Final facts about level 2. -/
structure L2Done (A : Nat) (L : List Nat) (st : L2) : Prop where
  lengths : st.lengths = L.map Int.ofNat
  clen : st.counts.length = A + 1
  counts : ∀ x, x < 16 → x ≤ A → st.counts[x]? = some ((L.count x : Nat) : Int)
  total : st.totalCode = 32768

theorem level2Loop_spec (A : Nat) (t : VLC) (ht : t.bits ≤ 5) (word : Nat → List Bool) : ∀ (cs : List LenCmd) (c : LenCmd) (E : List Nat) (rs : RunState)
    (st : L2) (fuel : Nat),
    L2Inv A E rs st → (∀ d ∈ c :: cs, d.Valid ∧ t.Has (word d.symbol) d.symbol) →
    (∀ n, n < (c :: cs).length → space 15 (E ++ expandCmds rs ((c :: cs).take n)) < 32768) →
    space 15 (E ++ expandCmds rs (c :: cs)) = 32768 →
    (E ++ expandCmds rs (c :: cs)).length ≤ A → (∀ l ∈ expandCmds rs (c :: cs), l ≤ A) → A ≤ fuel + E.length →
    ∃ st', ReadsPad 15 (level2Loop t A fuel (E.length : Int) st) (encCmds word (c :: cs)) st' ∧
      L2Done A (E ++ expandCmds rs (c :: cs) ++ List.replicate (A - (E ++ expandCmds rs (c :: cs)).length) 0) st' := by
  intro cs
  induction cs with
  | nil =>
    intro c E rs st fuel hinv hd hmin hfull hlen hsmall hfuel
    simp only [expandCmds, List.append_nil] at hfull hlen hsmall ⊢
    obtain ⟨hv, hhas⟩ := hd c (by simp)
    obtain ⟨st', hr, hinv', hpos⟩ := level2Step_spec A E rs st hinv c hv (by simpa using hlen) hsmall
    obtain ⟨fuel', rfl⟩ : ∃ f, fuel = f + 1 := ⟨fuel - 1, by rw [List.length_append] at hlen; omega⟩
    obtain ⟨m0, m1, m2, m3, m4, -, -, -, -, -, -⟩ := hinv'
    have hc0 := m3 0 (by omega) (by omega)
    have hA : (E ++ (c.run rs).1).length ≤ A := m0
    refine ⟨{ st' with counts := st'.counts.set 0 ((((E ++ (c.run rs).1).count 0 : Nat) : Int) + (A - (((E.length + (c.run rs).1.length : Nat) : Int) - 1) - 1)) }, ?_, ?_⟩
    · unfold level2Loop
      rw [if_pos (by rw [List.length_append] at hlen; omega)]
      simp only [encCmds, List.append_assoc]
      apply ReadsPad.bind (getVLC_has hhas 15 (by omega))
      refine ReadsPad.bind hr ?_
      simp only
      rw [if_pos (by rw [m4, hfull]; decide)]
      apply ReadsPad.bind_lift (idx_nat st'.counts 0 _ hc0)
      apply ReadsPad.bind_lift (setAt_nat st'.counts 0 _ (by omega))
      exact ReadsPad.pure 15 _
    · refine ⟨by simp only [m1]; simp, by simpa using m2, ?_, by simp only [m4, hfull]; decide⟩
      intro x hx hxA
      simp only
      by_cases h0 : 0 = x
      · subst h0
        rw [List.getElem?_set_self (by omega), List.count_append (l₁ := E ++ (c.run rs).1), List.count_replicate]
        simp only [beq_self_eq_true, if_true, List.length_append] at hA ⊢
        congr 1
        omega
      · rw [List.getElem?_set_ne h0, m3 x hx hxA, List.count_append (l₁ := E ++ (c.run rs).1), List.count_replicate]
        simp [h0]
  | cons c2 cs ih =>
    intro c E rs st fuel hinv hd hmin hfull hlen hsmall hfuel
    obtain ⟨hv, hhas⟩ := hd c (by simp)
    have hexp : expandCmds rs (c :: c2 :: cs) = (c.run rs).1 ++ expandCmds (c.run rs).2 (c2 :: cs) := rfl
    rw [hexp, ← List.append_assoc] at hfull hlen ⊢
    have hlen' := hlen
    rw [List.length_append, List.length_append] at hlen'
    obtain ⟨st', hr, hinv', hpos⟩ := level2Step_spec A E rs st hinv c hv (by omega)
      (fun l hl => hsmall l (by rw [hexp]; simp [hl]))
    obtain ⟨fuel', rfl⟩ : ∃ f, fuel = f + 1 := ⟨fuel - 1, by omega⟩
    have hlt := hmin 1 (by simp)
    simp only [List.take_succ_cons, List.take_zero, expandCmds, List.append_nil] at hlt
    obtain ⟨st2, hr2, hdone⟩ := ih c2 (E ++ (c.run rs).1) (c.run rs).2 st' fuel' hinv' (fun d hd' => hd d (by simp only [List.mem_cons] at hd' ⊢; exact Or.inr hd'))
      (by
        intro n hn
        have := hmin (n + 1) (by simp at hn ⊢; omega)
        simp only [List.take_succ_cons, expandCmds] at this
        rw [List.append_assoc]
        exact this)
      hfull hlen (fun l hl => hsmall l (by rw [hexp]; simp [hl])) (by rw [List.length_append]; omega)
    refine ⟨st2, ?_, hdone⟩
    unfold level2Loop
    rw [if_pos (by omega)]
    have henc : encCmds word (c :: c2 :: cs) = word c.symbol ++ (c.extraBits ++ encCmds word (c2 :: cs)) := by
      simp [encCmds]
    rw [henc]
    apply ReadsPad.bind (getVLC_has hhas 15 (by omega))
    refine ReadsPad.bind hr ?_
    simp only
    rw [if_neg (by rw [hinv'.total]; omega)]
    have hi : (((E.length + (c.run rs).1.length : Nat) : Int) - 1 + 1) = (((E ++ (c.run rs).1).length : Nat) : Int) := by
      rw [List.length_append]; omega
    rw [hi]
    exact hr2

theorem run_le (rs : RunState) (c : LenCmd) (hc : c.Valid) (hl : rs.last ≤ 15) :
    (∀ l ∈ (c.run rs).1, l ≤ 15) ∧ (c.run rs).2.last ≤ 15 := by
  cases c with
  | lit l =>
    simp only [LenCmd.run, LenCmd.Valid] at *
    refine ⟨by simpa using hc, ?_⟩
    split <;> omega
  | rep e =>
    simp only [LenCmd.run]
    refine ⟨?_, hl⟩
    intro l h
    rw [(List.mem_replicate.1 h).2]; exact hl
  | zrun e =>
    simp only [LenCmd.run]
    refine ⟨?_, hl⟩
    intro l h
    rw [(List.mem_replicate.1 h).2]; omega

theorem expand_le (cs : List LenCmd) (rs : RunState) (hc : ∀ c ∈ cs, c.Valid) (hl : rs.last ≤ 15) :
    ∀ l ∈ expandCmds rs cs, l ≤ 15 := by
  induction cs generalizing rs with
  | nil => simp [expandCmds]
  | cons c cs ih =>
    obtain ⟨h1, h2⟩ := run_le rs c (hc c (by simp)) hl
    intro l h
    simp only [expandCmds, List.mem_append] at h
    rcases h with h | h
    · exact h1 l h
    · exact ih _ (fun c hcs => hc c (by simp [hcs])) h2 l h

theorem finishLevel2_spec (L : List Nat) (hle : ∀ l ∈ L, l ≤ 15) (hfull : space 15 L = 32768) (st : L2) (hst : L2Done L.length L st) :
    ∃ t, finishLevel2 L.length st = .ok t ∧ t.bits = 15 ∧ ∀ j w, IsCodeWord 16 L j w → t.Has w j ∧ L[j]? = some w.length := by
  obtain ⟨h1, h2, h3, h4⟩ := hst
  have hlong : ∀ l ∈ L, l < L.length + 1 := by
    intro l hl
    rcases long_code 15 L hle hfull l hl with h | h <;> omega
  obtain ⟨m, hm⟩ : ∃ m, m = min 16 (L.length + 1) := ⟨_, rfl⟩
  have hLm : ∀ l ∈ L, l < m := by
    intro l hl; have := hlong l hl; have := hle l hl; omega
  have hcs := countingSort_spec L m hLm st.counts (by omega) (fun l hl => h3 l (by omega) (by omega))
  obtain ⟨t, t1, t2, t3⟩ := table_of_lengths 15 m L hLm (by omega) (by omega) hfull
  have hby : byLength 16 L = byLength m L := by
    have := byLength_mono m (16 - m) L hLm
    rw [show m + (16 - m) = 16 by omega] at this
    exact this
  refine ⟨t, ?_, t2, ?_⟩
  · unfold finishLevel2
    have hi0 : idx st.counts 0 = .ok _ := idx_nat st.counts 0 _ (h3 0 (by omega) (by omega))
    rw [hi0, Res.bind_ok, if_neg (by rw [h4]; simp), h1, hcs, Res.bind_ok]
    exact t1
  · intro j w hw
    apply t3
    unfold IsCodeWord usedByLength at hw ⊢
    rw [← hby]; exact hw

theorem populateComplex_spec (d : PrefixDesc) (word : Nat → List Bool) (L : List Nat) (hd : d.Valid word L) :
    ∃ t, ReadsPad 15 (populateComplexPrefix L.length d.hskip) (d.bits word) t ∧ t.bits = 15 ∧
      ∀ j w, IsCodeWord 16 L j w → t.Has w j ∧ L[j]? = some w.length := by
  have hh : d.hskip ≤ 3 := by rcases hd.hskip with h | h | h <;> omega
  obtain ⟨t1, hr1, hb1, hw1⟩ := readLevel1_spec d.level1 hd.len1 hd.le1 d.hskip hh hd.skipped hd.full1
  obtain ⟨k, hk⟩ := hd.expand
  have hexp := expand_le d.cmds {} hd.cmds (by decide)
  have hle : ∀ l ∈ L, l ≤ 15 := by
    intro l hl
    rw [hk] at hl
    rcases List.mem_append.1 hl with h | h
    · exact hexp l h
    · rw [(List.mem_replicate.1 h).2]; omega
  have hlong : ∀ l ∈ L, l ≤ L.length := by
    intro l hl
    rcases long_code 15 L hle hd.full2 l hl with h | h <;> omega
  have hsp : space 15 (expandCmds {} d.cmds) = 32768 := by
    have := hd.full2
    rw [hk, space_append, space_zeros] at this
    exact this
  have hlenL : L.length = (expandCmds {} d.cmds).length + k := by rw [hk]; simp
  cases hcm : d.cmds with
  | nil => rw [hcm] at hsp; simp [expandCmds, space] at hsp
  | cons c cs =>
    have hinit : L2Inv L.length [] {} { lengths := List.replicate L.length 0, counts := List.replicate (L.length + 1) 0, totalCode := 0, prevRepeat := 0, prevZero := 0, prev := 8 } := by
      refine ⟨by simp, by simp, by simp, ?_, by simp [space], rfl, rfl, rfl, by decide, Or.inl rfl, Or.inl rfl⟩
      intro x _ hx
      simp [List.getElem?_replicate]; omega
    have hmin := hd.minimal
    have hmem : ∀ l ∈ expandCmds {} d.cmds, l ≤ L.length := fun l hl => hlong l (by rw [hk]; simp [hl])
    rw [hcm] at hsp hlenL hmin hmem
    obtain ⟨st, hr2, hdone⟩ := level2Loop_spec L.length t1 hb1 word cs c [] {} _ L.length hinit
      (fun e he => ⟨hd.cmds e (by rw [hcm]; exact he), hw1 _ _ (hd.words e (by rw [hcm]; exact he))⟩)
      (by simpa using hmin) (by simpa using hsp) (by simp only [List.nil_append]; omega) hmem (by simp)
    have hL : [] ++ expandCmds {} (c :: cs) ++ List.replicate (L.length - ([] ++ expandCmds {} (c :: cs)).length) 0 = L := by
      rw [List.nil_append]
      conv => rhs; rw [hk, hcm]
      congr 2; omega
    rw [hL] at hdone
    obtain ⟨t, ft1, ft2, ft3⟩ := finishLevel2_spec L hle hd.full2 st hdone
    refine ⟨t, ?_, ft2, ft3⟩
    unfold populateComplexPrefix PrefixDesc.bits
    apply ReadsPad.bind hr1
    rw [hcm]
    refine (ReadsPad.bind hr2 (e2 := []) ?_).congr (by simp) rfl
    exact ReadsPad.lift 15 ft1


/-! ### Simple prefix codes -/

theorem readSymbols_spec (bits : Nat) (hb : bits ≤ 64) (syms : List Nat) (h : ∀ x ∈ syms, x < 2 ^ bits) :
    Reads (readSymbols bits syms.length) (syms.flatMap (bitsOf bits)) (syms.map Int.ofNat) := by
  induction syms with
  | nil => exact Reads.pure _
  | cons x syms ih =>
    simp only [List.length_cons, readSymbols, List.flatMap_cons, List.map_cons]
    apply Reads.bind (reads_bitsOf bits x hb (h x (by simp)))
    refine (Reads.bind (ih (fun y hy => h y (by simp [hy]))) (e2 := []) ?_).congr (by simp) rfl
    exact Reads.pure _

/-- From fixed lengths to the words. -/
theorem newVLC_words (b : Nat) (hb : b ≤ 31) (ls : List (Nat × Int)) (hle : ∀ e ∈ ls, e.1 ≤ b)
    (hsort : ((usedEntries ls).map (·.1)).Pairwise (· ≤ ·)) (hfull : KraftFull b ((usedEntries ls).map (·.1))) :
    ∃ t, newVLC b (ls.map fun e => (e.1 : Int)) (ls.map (·.2)) = .ok t ∧ t.bits = b ∧
      ∀ k (hk : k < (usedEntries ls).length), ∀ w, (canonicalWords ((usedEntries ls).map (·.1)))[k]? = some w →
        t.Has w (usedEntries ls)[k].2 := by
  obtain ⟨t, h1, h2⟩ := newVLC_spec b hb ls (ls.map (·.2)) hle (by
    intro k hk
    rw [if_pos (by simp; omega)]
    apply idx_nat
    simp [hk]) hsort hfull
  refine ⟨t, h1, h2.1, ?_⟩
  intro k hk w hw
  apply h2.has hb k hk _ w hw
  have := List.getElem_mem hk
  simp only [usedEntries, List.mem_filter] at this
  exact hle _ this.1

theorem sortInts_perm (l : List Int) : (sortInts l).Perm l ∧ (sortInts l).Pairwise (· ≤ ·) := by
  have hins : ∀ (x : Int) (l : List Int), (insertSorted x l).Perm (x :: l) := by
    intro x l
    induction l with
    | nil => exact List.Perm.refl _
    | cons y l ih =>
      simp only [insertSorted]
      split
      · exact List.Perm.refl _
      · exact (ih.cons y).trans (List.Perm.swap x y l)
  have hsorted : ∀ (x : Int) (l : List Int), l.Pairwise (· ≤ ·) → (insertSorted x l).Pairwise (· ≤ ·) := by
    intro x l
    induction l with
    | nil => intro _; simp [insertSorted]
    | cons y l ih =>
      intro h
      simp only [insertSorted]
      split
      · rename_i hxy
        refine List.pairwise_cons.2 ⟨?_, h⟩
        intro z hz
        rcases List.mem_cons.1 hz with rfl | hz
        · exact hxy
        · exact Int.le_trans hxy ((List.pairwise_cons.1 h).1 z hz)
      · rename_i hxy
        refine List.pairwise_cons.2 ⟨?_, ih (List.pairwise_cons.1 h).2⟩
        intro z hz
        rcases List.mem_cons.1 ((hins x l).mem_iff.1 hz) with rfl | hz
        · omega
        · exact (List.pairwise_cons.1 h).1 z hz
  induction l with
  | nil => exact ⟨List.Perm.refl _, List.Pairwise.nil⟩
  | cons x l ih =>
    simp only [sortInts, List.foldr_cons] at ih ⊢
    exact ⟨(hins x _).trans (ih.1.cons x), hsorted x _ ih.2⟩

end Jxl
