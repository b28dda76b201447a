import Verif.Model.Permutation
import Verif.Spec.Lehmer
import Verif.Proofs.Safe
import Verif.Proofs.Cluster
import Mathlib.Data.Nat.Bitwise
import Mathlib.Tactic.Ring

namespace Jxl

/-! ## The lowest set bit -/

theorem exists_odd_part (i : Nat) (h : 0 < i) : ∃ a m, i = 2 ^ a * (2 * m + 1) := by
  induction i using Nat.strong_induction_on with
  | _ i ih =>
    by_cases ho : i % 2 = 1
    · exact ⟨0, i / 2, by simp; omega⟩
    · obtain ⟨a, m, e⟩ := ih (i / 2) (by omega) (by omega)
      refine ⟨a + 1, m, ?_⟩
      have : i = 2 * (i / 2) := by omega
      rw [this, e, Nat.pow_succ]
      ring

theorem and_compl (n q : Nat) (h : q < 2 ^ n) : q &&& (2 ^ n - (q + 1)) = 0 := by
  apply Nat.eq_of_testBit_eq
  intro j
  rw [Nat.testBit_and, Nat.testBit_two_pow_sub_succ h]
  cases q.testBit j <;> simp

theorem and_mul_two_pow_add (a x y : Nat) : (2 ^ (a + 1) * x + 2 ^ a) &&& (2 ^ (a + 1) * y + 2 ^ a) = 2 ^ (a + 1) * (x &&& y) + 2 ^ a := by
  have hlt : 2 ^ a < 2 ^ (a + 1) := by rw [Nat.pow_succ]; have := Nat.two_pow_pos a; omega
  apply Nat.eq_of_testBit_eq
  intro j
  rw [Nat.testBit_and]
  rw [Nat.testBit_two_pow_mul_add _ hlt, Nat.testBit_two_pow_mul_add _ hlt, Nat.testBit_two_pow_mul_add _ hlt]
  split <;> simp

theorem lowbit_eq (a m : Nat) (h : 2 ^ a * (2 * m + 1) < 2 ^ 63) : lowbit (2 ^ a * (2 * m + 1)) = 2 ^ a := by
  have ha : a ≤ 63 := by
    by_contra hc
    have : 2 ^ 63 ≤ 2 ^ a := Nat.pow_le_pow_right (by omega) (by omega)
    have : 2 ^ a * 1 ≤ 2 ^ a * (2 * m + 1) := Nat.mul_le_mul_left _ (by omega)
    omega
  have e1 : 2 ^ a * (2 * m + 1) = 2 ^ (a + 1) * m + 2 ^ a := by rw [Nat.pow_succ]; ring
  have e64 : (2 : Nat) ^ 64 = 2 ^ (a + 1) * 2 ^ (63 - a) := by
    rw [← Nat.pow_add]; congr 1; omega
  have hm : m < 2 ^ (63 - a) := by
    by_contra hc
    have : 2 ^ (a + 1) * 2 ^ (63 - a) ≤ 2 ^ (a + 1) * m := Nat.mul_le_mul_left _ (by omega)
    rw [← e64] at this
    have := Nat.two_pow_pos a
    rw [e1] at h
    omega
  have hp := Nat.two_pow_pos a
  have e2 : 2 ^ 64 - 2 ^ a * (2 * m + 1) = 2 ^ (a + 1) * (2 ^ (63 - a) - (m + 1)) + 2 ^ a := by
    rw [e1, e64, Nat.mul_sub, Nat.mul_add]
    have h1 : 2 ^ (a + 1) * m + 2 ^ (a + 1) * 1 ≤ 2 ^ (a + 1) * 2 ^ (63 - a) := by
      rw [← Nat.mul_add]; exact Nat.mul_le_mul_left _ (by omega)
    have h2 : 2 ^ (a + 1) = 2 ^ a + 2 ^ a := by rw [Nat.pow_succ]; omega
    omega
  have e3 : u64 (2 ^ 64 - 2 ^ a * (2 * m + 1)) = 2 ^ 64 - 2 ^ a * (2 * m + 1) := by
    unfold u64
    apply Nat.mod_eq_of_lt
    have : 0 < 2 ^ a * (2 * m + 1) := Nat.mul_pos hp (by omega)
    omega
  unfold lowbit
  rw [e3, e2, e1, and_mul_two_pow_add, and_compl _ _ hm]
  simp

theorem lowbit_spec (i : Nat) (h : 0 < i) (h2 : i < 2 ^ 63) : ∃ a m, i = 2 ^ a * (2 * m + 1) ∧ lowbit i = 2 ^ a := by
  obtain ⟨a, m, e⟩ := exists_odd_part i h
  refine ⟨a, m, e, ?_⟩
  rw [e]
  rw [e] at h2
  exact lowbit_eq a m h2

/-- Node `i` of a Fenwick tree covers position `p` (positions are counted from one). -/
def Covers (i p : Nat) : Prop := i - lowbit i < p ∧ p ≤ i

instance (i p : Nat) : Decidable (Covers i p) := by unfold Covers; infer_instance

theorem covers_step (i q : Nat) (hi : 0 < i) (hi2 : i < 2 ^ 63) (hq : 0 < q) (hq2 : q < 2 ^ 63) :
    Covers i q ↔ i = q ∨ Covers i (q + lowbit q) := by
  obtain ⟨a, m, ei, la⟩ := lowbit_spec i hi hi2
  obtain ⟨b, n, eq', lb⟩ := lowbit_spec q hq hq2
  unfold Covers
  rw [la, lb]
  have hpa := Nat.two_pow_pos a
  have hpb := Nat.two_pow_pos b
  have ei' : i = 2 ^ (a + 1) * m + 2 ^ a := by rw [ei, Nat.pow_succ]; ring
  have eq2 : q = 2 ^ (b + 1) * n + 2 ^ b := by rw [eq', Nat.pow_succ]; ring
  have et : i - 2 ^ a = 2 ^ (a + 1) * m := by omega
  rw [et]
  have pa : 2 ^ (a + 1) = 2 ^ a + 2 ^ a := by rw [Nat.pow_succ]; omega
  have pb : 2 ^ (b + 1) = 2 ^ b + 2 ^ b := by rw [Nat.pow_succ]; omega
  have es : q + 2 ^ b = 2 ^ (b + 1) * (n + 1) := by rw [Nat.mul_add]; omega
  rcases Nat.lt_or_ge b a with hba | hab
  · -- b < a: 2^(b+1) divides 2^a
    obtain ⟨c, hc⟩ : ∃ c, 2 ^ a = 2 ^ (b + 1) * c := ⟨2 ^ (a - (b + 1)), by rw [← Nat.pow_add]; congr 1; omega⟩
    have hi3 : i = 2 ^ (b + 1) * (2 * c * m + c) := by
      rw [ei', Nat.pow_succ, hc]; ring
    have ht3 : 2 ^ (a + 1) * m = 2 ^ (b + 1) * (2 * c * m) := by
      rw [Nat.pow_succ, hc]; ring
    rw [ht3, es]
    have hP := Nat.two_pow_pos (b + 1)
    constructor
    · rintro ⟨h1, h2⟩
      right
      constructor
      · have : 2 ^ (b + 1) * (n + 1) = q + 2 ^ b := es.symm
        omega
      · rw [hi3]
        apply Nat.mul_le_mul_left
        have : 2 ^ (b + 1) * n < 2 ^ (b + 1) * (2 * c * m + c) := by rw [← hi3]; omega
        have := Nat.lt_of_mul_lt_mul_left this
        omega
    · rintro (h | ⟨h1, h2⟩)
      · rw [h] at hi3
        have : 2 ^ (b + 1) * n < 2 ^ (b + 1) * (2 * c * m + c) := by rw [← hi3]; omega
        have h4 := Nat.lt_of_mul_lt_mul_left this
        have h5 : 2 ^ (b + 1) * (n + 1) ≤ 2 ^ (b + 1) * (2 * c * m + c) := Nat.mul_le_mul_left _ (by omega)
        rw [← hi3, ← es] at h5
        omega
      · have h4 := Nat.lt_of_mul_lt_mul_left h1
        have h5 : 2 ^ (b + 1) * (2 * c * m) ≤ 2 ^ (b + 1) * n := Nat.mul_le_mul_left _ (by omega)
        constructor
        · omega
        · omega
  · -- a ≤ b
    obtain ⟨c, hc⟩ : ∃ c, 2 ^ b = 2 ^ a * c := ⟨2 ^ (b - a), by rw [← Nat.pow_add]; congr 1; omega⟩
    have hq3 : q = 2 ^ a * (2 * c * n + c) := by
      rw [eq2, Nat.pow_succ, hc]; ring
    have hs3 : q + 2 ^ b = 2 ^ a * (2 * (c * n + c)) := by
      rw [es, Nat.pow_succ, hc]; ring
    have ht3 : 2 ^ (a + 1) * m = 2 ^ a * (2 * m) := by rw [Nat.pow_succ]; ring
    constructor
    · rintro ⟨h1, h2⟩
      left
      rw [ht3, hq3] at h1
      have h4 := Nat.lt_of_mul_lt_mul_left h1
      rw [hq3, ei] at h2
      have h5 := Nat.le_of_mul_le_mul_left h2 hpa
      rw [ei, hq3]
      congr 1
      omega
    · rintro (h | ⟨h1, h2⟩)
      · omega
      · exfalso
        rw [ht3, hs3] at h1
        have h4 := Nat.lt_of_mul_lt_mul_left h1
        rw [hs3, ei] at h2
        have h5 := Nat.le_of_mul_le_mul_left h2 hpa
        omega

/-! ## Counting available elements -/

/-- How many elements of `L` lie in `[a, b)`. -/
def cnt (L : List Nat) (a b : Nat) : Nat := L.countP (fun j => decide (a ≤ j ∧ j < b))

theorem cnt_cons (x : Nat) (L : List Nat) (a b : Nat) : cnt (x :: L) a b = cnt L a b + if a ≤ x ∧ x < b then 1 else 0 := by
  unfold cnt
  rw [List.countP_cons]
  simp

theorem cnt_add (L : List Nat) (a b c : Nat) (h1 : a ≤ b) (h2 : b ≤ c) : cnt L a c = cnt L a b + cnt L b c := by
  induction L with
  | nil => rfl
  | cons x L ih =>
    rw [cnt_cons, cnt_cons, cnt_cons, ih]
    split <;> split <;> split <;> omega

theorem cnt_eraseIdx (L : List Nat) (a b : Nat) : ∀ (k v : Nat), L[k]? = some v →
    cnt L a b = cnt (L.eraseIdx k) a b + if a ≤ v ∧ v < b then 1 else 0 := by
  induction L with
  | nil => intro k v h; simp at h
  | cons x L ih =>
    intro k v h
    cases k with
    | zero =>
      simp at h
      subst h
      rw [cnt_cons]; simp
    | succ k =>
      simp at h
      rw [List.eraseIdx_cons_succ, cnt_cons, cnt_cons, ih k v h]
      omega

theorem cnt_eq_zero (L : List Nat) (a b : Nat) (h : ∀ x ∈ L, b ≤ x) : cnt L a b = 0 := by
  unfold cnt
  rw [List.countP_eq_zero]
  intro x hx
  have := h x hx
  simp; omega

theorem cnt_le_iff (L : List Nat) (hs : L.Pairwise (· < ·)) : ∀ (k v t : Nat), L[k]? = some v → (cnt L 0 t ≤ k ↔ t ≤ v) := by
  induction L with
  | nil => intro k v t h; simp at h
  | cons x L ih =>
    intro k v t h
    obtain ⟨hx, hs'⟩ := List.pairwise_cons.1 hs
    rw [cnt_cons]
    by_cases ht : t ≤ x
    · have h0 : cnt L 0 t = 0 := cnt_eq_zero L 0 t (fun y hy => by have := hx y hy; omega)
      rw [h0]
      have : x ≤ v := by
        have hv := List.mem_of_getElem? h
        rcases List.mem_cons.1 hv with e | e
        · omega
        · have := hx v e; omega
      rw [if_neg (by omega)]
      constructor
      · intro _; omega
      · intro _; omega
    · rw [if_pos (by omega)]
      cases k with
      | zero => simp at h; subst h; omega
      | succ k =>
        simp at h
        have := ih hs' k v t h
        omega

theorem cnt_range (n a b : Nat) (h : b ≤ n) : cnt (List.range n) a b = b - a := by
  induction n with
  | zero => simp [cnt]; omega
  | succ n ih =>
    unfold cnt at *
    rw [List.range_succ, List.countP_append]
    by_cases hb : b ≤ n
    · rw [ih hb]
      simp; omega
    · have : b = n + 1 := by omega
      subst this
      have e : List.countP (fun j => decide (a ≤ j ∧ j < n + 1)) (List.range n) = List.countP (fun j => decide (a ≤ j ∧ j < n)) (List.range n) := by
        apply List.countP_congr
        intro x hx
        have := List.mem_range.1 hx
        simp; omega
      rw [e]
      by_cases ha : a ≤ n
      · have : ∀ m, List.countP (fun j => decide (a ≤ j ∧ j < m)) (List.range m) = m - a := by
          intro m
          induction m with
          | zero => simp
          | succ m ihm =>
            rw [List.range_succ, List.countP_append]
            have e : List.countP (fun j => decide (a ≤ j ∧ j < m + 1)) (List.range m) = List.countP (fun j => decide (a ≤ j ∧ j < m)) (List.range m) := by
              apply List.countP_congr
              intro x hx
              have := List.mem_range.1 hx
              simp; omega
            rw [e, ihm]
            by_cases h : a ≤ m
            · simp [h]; omega
            · simp [h]; omega
        rw [this n]
        simp [ha]; omega
      · have e2 : List.countP (fun j => decide (a ≤ j ∧ j < n)) (List.range n) = 0 := by
          rw [List.countP_eq_zero]
          intro x hx
          have := List.mem_range.1 hx
          simp; omega
        rw [e2]
        simp [ha]; omega

/-! ## The Fenwick tree -/

/-- The tree counts, for every node, the available elements it covers. -/
def Fenwick (size : Nat) (tree : List Int) (L : List Nat) : Prop :=
  tree.length = size + 1 ∧ ∀ (i : Nat), 0 < i → i ≤ size → tree[i]? = some ((cnt L (i - lowbit i) i : Nat) : Int)

theorem lowbit_le (i : Nat) (h : 0 < i) (h2 : i < 2 ^ 63) : lowbit i ≤ i ∧ 0 < lowbit i := by
  obtain ⟨a, m, e, l⟩ := lowbit_spec i h h2
  rw [l]
  have := Nat.two_pow_pos a
  have : 2 ^ a * 1 ≤ 2 ^ a * (2 * m + 1) := Nat.mul_le_mul_left _ (by omega)
  omega

theorem fenwick_init (size : Nat) (h : size < 2 ^ 63) : Fenwick size (fenwickInit size) (List.range size) := by
  constructor
  · simp [fenwickInit]
  · intro i h0 h1
    have := lowbit_le i h0 (by omega)
    rw [cnt_range _ _ _ h1]
    unfold fenwickInit
    rw [List.getElem?_map, List.getElem?_range (by omega)]
    simp
    omega

theorem idx_of_getElem? {α : Type} (l : List α) (i : Nat) (a : α) (h : l[i]? = some a) : idx l (i : Int) = .ok a := by
  unfold idx
  rw [if_neg (by omega)]
  simp [h]

theorem growMask_spec (size : Nat) : ∀ (n j : Nat), size + 1 - 2 ^ j ≤ n → ∃ k, growMask size (2 ^ j) = 2 ^ k ∧ size < 2 ^ k := by
  intro n
  induction n with
  | zero =>
    intro j h
    have hp := Nat.two_pow_pos j
    refine ⟨j, ?_, by omega⟩
    rw [growMask, if_neg (by omega), if_neg (by omega)]
  | succ n ih =>
    intro j h
    have hp := Nat.two_pow_pos j
    rw [growMask, if_neg (by omega)]
    split
    · rw [← Nat.pow_succ]
      apply ih
      rw [Nat.pow_succ]; omega
    · exact ⟨j, rfl, by omega⟩

theorem findKthLoop_spec (size : Nat) (hz : size < 2 ^ 63) (tree : List Int) (L : List Nat) (hf : Fenwick size tree L) (hs : L.Pairwise (· < ·))
    (k v : Nat) (hv : L[k]? = some v) (hvs : v < size) : ∀ (n pos c : Nat), pos = 2 ^ n * c → pos ≤ v → v < pos + 2 ^ n →
    findKthLoop size tree (2 ^ n / 2) pos ((k : Int) + 1 - (cnt L 0 pos : Nat)) = .ok (v + 1) := by
  intro n
  induction n with
  | zero =>
    intro pos c hp h1 h2
    rw [findKthLoop, if_pos (by simp)]
    congr 1
    simp at h2; omega
  | succ n ih =>
    intro pos c hp h1 h2
    have hpn := Nat.two_pow_pos n
    have e : 2 ^ (n + 1) / 2 = 2 ^ n := by rw [Nat.pow_succ]; omega
    rw [Nat.pow_succ] at h2
    have hp2 : pos + 2 ^ n = 2 ^ n * (2 * c + 1) := by rw [hp, Nat.pow_succ]; ring
    have hp3 : pos = 2 ^ n * (2 * c) := by rw [hp, Nat.pow_succ]; ring
    rw [e, findKthLoop, if_neg (by omega)]
    have key := cnt_le_iff L hs k v (pos + 2 ^ n) hv
    have hadd := cnt_add L 0 pos (pos + 2 ^ n) (by omega) (by omega)
    split
    · rename_i hle
      have hlb : lowbit (pos + 2 ^ n) = 2 ^ n := by
        rw [hp2]; apply lowbit_eq; omega
      have ht := hf.2 (pos + 2 ^ n) (by omega) hle
      rw [hlb, Nat.add_sub_cancel] at ht
      rw [idx_of_getElem? _ _ _ ht]
      dsimp only [Res.bind_ok]
      split
      · rename_i hlt
        have hge : pos + 2 ^ n ≤ v := by apply key.1; omega
        have := ih (pos + 2 ^ n) (2 * c + 1) hp2 hge (by omega)
        rw [hadd] at this
        rw [← this]
        congr 1
        push_cast
        omega
      · rename_i hlt
        have hge : ¬ pos + 2 ^ n ≤ v := by intro hh; have := key.2 hh; omega
        exact ih pos (2 * c) hp3 h1 (by omega)
    · exact ih pos (2 * c) hp3 h1 (by omega)

theorem findKth_spec (size : Nat) (hz : size < 2 ^ 63) (tree : List Int) (L : List Nat) (hf : Fenwick size tree L) (hs : L.Pairwise (· < ·))
    (k v : Nat) (hv : L[k]? = some v) (hvs : v < size) : findKth size tree ((k : Int) + 1) = .ok (v + 1) := by
  unfold findKth
  obtain ⟨n, e, hn⟩ := growMask_spec size size 0 (by simp)
  rw [Nat.pow_zero] at e
  rw [e]
  have := findKthLoop_spec size hz tree L hf hs k v hv hvs n 0 0 (by simp) (by omega) (by omega)
  have e0 : cnt L 0 0 = 0 := cnt_eq_zero L 0 0 (by omega)
  rw [e0] at this
  simpa using this

theorem markUsed_spec (size : Nat) (hz : size < 2 ^ 62) : ∀ (fuel : Nat) (tree : List Int) (pos : Nat), tree.length = size + 1 → 0 < pos → pos < 2 ^ 63 → size + 1 - pos ≤ fuel →
    ∃ tree', markUsed size fuel tree pos = .ok tree' ∧ tree'.length = size + 1 ∧
      ∀ (i : Nat) (x : Int), 0 < i → i ≤ size → tree[i]? = some x → tree'[i]? = some (x - if Covers i pos then 1 else 0) := by
  intro fuel
  induction fuel with
  | zero =>
    intro tree pos hl h0 h63 hf
    refine ⟨tree, ?_, hl, ?_⟩
    · rw [markUsed, if_neg (by omega)]
    · intro i x hi his hx
      rw [if_neg (by unfold Covers; omega)]
      simpa using hx
  | succ fuel ih =>
    intro tree pos hl h0 h63 hf
    by_cases hp : pos ≤ size
    · have hlb := lowbit_le pos h0 h63
      obtain ⟨t, ht⟩ : ∃ t, tree[pos]? = some t := ⟨tree[pos]'(by omega), List.getElem?_eq_getElem _⟩
      obtain ⟨tree', h1, h2, h3⟩ := ih (tree.set pos (t - 1)) (pos + lowbit pos) (by simp [hl]) (by omega) (by omega) (by omega)
      refine ⟨tree', ?_, h2, ?_⟩
      · rw [markUsed, if_pos hp]
        rw [idx_of_getElem? _ _ _ ht]
        simp only [Res.bind_ok]
        have : setAt tree (pos : Int) (t - 1) = .ok (tree.set pos (t - 1)) := by
          unfold setAt
          rw [if_neg (by omega), if_pos (by simp; omega)]
          simp
        rw [this]
        exact h1
      · intro i x hi his hx
        have hc := covers_step i pos hi (by omega) h0 h63
        by_cases e : i = pos
        · subst e
          rw [ht] at hx
          cases hx
          have := h3 i (t - 1) hi his (by rw [List.getElem?_set]; simp; omega)
          rw [this]
          have hn : ¬ Covers i (i + lowbit i) := by unfold Covers; omega
          rw [if_neg hn, if_pos (hc.2 (Or.inl rfl))]
          simp
        · have := h3 i x hi his (by rw [List.getElem?_set]; simp [Ne.symm e]; exact hx)
          rw [this]
          congr 2
          simp [hc, e]
    · refine ⟨tree, ?_, hl, ?_⟩
      · rw [markUsed, if_neg hp]
      · intro i x hi his hx
        rw [if_neg (by unfold Covers; omega)]
        simpa using hx

theorem fenwick_mark (size : Nat) (hz : size < 2 ^ 62) (tree : List Int) (L : List Nat) (hf : Fenwick size tree L) (k v : Nat)
    (hv : L[k]? = some v) (hvs : v < size) : ∃ tree', markUsed size (size + 1) tree (v + 1) = .ok tree' ∧ Fenwick size tree' (L.eraseIdx k) := by
  obtain ⟨tree', h1, h2, h3⟩ := markUsed_spec size hz (size + 1) tree (v + 1) hf.1 (by omega) (by omega) (by omega)
  refine ⟨tree', h1, h2, ?_⟩
  intro i hi his
  rw [h3 i _ hi his (hf.2 i hi his), cnt_eraseIdx L _ _ k v hv]
  congr 1
  have : Covers i (v + 1) ↔ i - lowbit i ≤ v ∧ v < i := by unfold Covers; omega
  simp only [this]
  push_cast
  split <;> simp

theorem permLoop_spec (size : Nat) (hz : size < 2 ^ 62) : ∀ (code : List Nat) (tree : List Int) (L : List Nat), Fenwick size tree L → L.Pairwise (· < ·) →
    (∀ x ∈ L, x < size) → (∀ (i k : Nat), code[i]? = some k → k < L.length - i) →
    ∃ p, permLoop size code tree = .ok p ∧ lehmerDecode L code = some p := by
  intro code
  induction code with
  | nil => intro tree L _ _ _ _; exact ⟨[], rfl, rfl⟩
  | cons k ks ih =>
    intro tree L hf hs hb hk
    have h0 := hk 0 k (by simp)
    obtain ⟨v, hv⟩ : ∃ v, L[k]? = some v := ⟨L[k]'(by omega), List.getElem?_eq_getElem _⟩
    have hvs := hb v (List.mem_of_getElem? hv)
    obtain ⟨tree', h1, h2⟩ := fenwick_mark size hz tree L hf k v hv hvs
    obtain ⟨p, e1, e2⟩ := ih tree' (L.eraseIdx k) h2 (hs.sublist (List.eraseIdx_sublist _ _))
      (fun x hx => hb x (List.mem_of_mem_eraseIdx hx))
      (by
        intro i j hj
        have := hk (i + 1) j (by simpa using hj)
        rw [List.length_eraseIdx_of_lt (by omega)]
        omega)
    refine ⟨v :: p, ?_, ?_⟩
    · rw [permLoop, findKth_spec size (by omega) tree L hf hs k v hv hvs]
      simp only [Res.bind_ok]
      rw [h1]
      simp only [Res.bind_ok]
      rw [e1]
      rfl
    · rw [lehmerDecode, hv]
      simp [e2]

/-! ## The Lehmer code read from the stream -/

theorem lehmerLoop_ok (size : Nat) : ∀ (n i prev : Nat) (es : ES), OnOk (lehmerLoop size n i prev es)
    (fun r => r.1.length = n ∧ ∀ (j : Nat) (k : Nat), r.1[j]? = some k → k < size - (i + j)) := by
  intro n
  induction n with
  | zero => intro i prev es; exact OnOk.pure ⟨rfl, by intro j k h; simp at h⟩
  | succ n ih =>
    intro i prev es
    rw [lehmerLoop]
    refine OnOk.bind (OnOk.trivial _) ?_
    intro r _
    split
    · exact OnOk.fail
    · rename_i hlt
      refine OnOk.bind (ih _ _ _) ?_
      rintro ⟨rest, es'⟩ ⟨hl, hr⟩
      apply OnOk.pure
      refine ⟨by simp [hl], ?_⟩
      intro j k hj
      cases j with
      | zero => simp at hj; omega
      | succ j =>
        have := hr j k (by simpa using hj)
        omega

theorem readLehmer_ok (size skip : Nat) (h : skip ≤ size) (es : ES) : OnOk (readLehmer size skip es)
    (fun r => LehmerValid size r.1 ∧ ∀ (i : Nat), i < skip → r.1[i]? = some 0) := by
  unfold readLehmer
  refine OnOk.bind (OnOk.trivial _) ?_
  intro r _
  split
  · exact OnOk.fail
  · rename_i hle
    refine OnOk.bind (lehmerLoop_ok size _ skip 0 r.2) ?_
    rintro ⟨codes, es'⟩ ⟨hl, hr⟩
    apply OnOk.pure
    dsimp only at hl hr ⊢
    refine ⟨⟨?_, ?_⟩, ?_⟩
    · simp [hl]; omega
    · intro i k hk
      have hi : i < size := by
        have := (List.getElem?_eq_some_iff.1 hk).1
        simp [hl] at this; omega
      rw [List.append_assoc, List.getElem?_append] at hk
      split at hk
      · rename_i h1
        simp at h1
        rw [List.getElem?_replicate, if_pos h1] at hk
        cases hk; omega
      · rename_i h1
        simp at h1
        rw [List.length_replicate, List.getElem?_append] at hk
        split at hk
        · have := hr _ _ hk; omega
        · rw [List.getElem?_replicate] at hk
          split at hk
          · cases hk; omega
          · cases hk
    · intro i hi
      rw [List.append_assoc, List.getElem?_append_left (by simpa using hi), List.getElem?_replicate, if_pos hi]

/-! ## Facts about the specification -/

theorem eraseIdx_perm (L : List Nat) : ∀ (k v : Nat), L[k]? = some v → List.Perm L (v :: L.eraseIdx k) := by
  induction L with
  | nil => intro k v h; simp at h
  | cons x L ih =>
    intro k v h
    cases k with
    | zero => simp at h; subst h; simp
    | succ k =>
      simp at h
      rw [List.eraseIdx_cons_succ]
      exact ((ih k v h).cons x).trans (List.Perm.swap v x _)

theorem lehmerDecode_perm : ∀ (code L p : List Nat), lehmerDecode L code = some p → code.length = L.length → p.Perm L := by
  intro code
  induction code with
  | nil => intro L p h hl; cases h; have : L = [] := List.length_eq_zero_iff.1 hl.symm; simp [this]
  | cons k ks ih =>
    intro L p h hl
    rw [lehmerDecode] at h
    split at h
    · cases h
    · rename_i v hv
      rw [Option.map_eq_some_iff] at h
      obtain ⟨q, hq, e⟩ := h
      subst e
      have hk := (List.getElem?_eq_some_iff.1 hv).1
      have := ih _ _ hq (by rw [List.length_eraseIdx_of_lt hk]; simp at hl; omega)
      exact (this.cons v).trans (eraseIdx_perm L k v hv).symm

theorem getElem?_idxOf' (L : List Nat) (v : Nat) (h : v ∈ L) : L[L.idxOf v]? = some v := by
  have := List.idxOf_lt_length_of_mem h
  rw [List.getElem?_eq_getElem this, List.getElem_idxOf]

theorem lehmerDecode_encode : ∀ (vs L : List Nat), List.Perm vs L → lehmerDecode L (lehmerEncode L vs) = some vs := by
  intro vs
  induction vs with
  | nil => intro L _; rfl
  | cons v vs ih =>
    intro L hp
    have hv : v ∈ L := hp.subset (by simp)
    have hi : L[L.idxOf v]? = some v := getElem?_idxOf' L v hv
    rw [lehmerEncode, lehmerDecode, hi]
    have : List.Perm vs (L.eraseIdx (L.idxOf v)) :=
      List.Perm.cons_inv (hp.trans (eraseIdx_perm L _ v hi))
    simp [ih _ this]

theorem lehmerEncode_valid : ∀ (vs L : List Nat), List.Perm vs L → LehmerValid L.length (lehmerEncode L vs) := by
  intro vs
  induction vs with
  | nil => intro L h; have := h.length_eq; exact ⟨by simpa [lehmerEncode] using this, by intro i k hk; simp [lehmerEncode] at hk⟩
  | cons v vs ih =>
    intro L hp
    have hv : v ∈ L := hp.subset (by simp)
    have hi : L[L.idxOf v]? = some v := getElem?_idxOf' L v hv
    have hlt := List.idxOf_lt_length_of_mem hv
    have hq : List.Perm vs (L.eraseIdx (L.idxOf v)) :=
      List.Perm.cons_inv (hp.trans (eraseIdx_perm L _ v hi))
    obtain ⟨h1, h2⟩ := ih _ hq
    rw [List.length_eraseIdx_of_lt hlt] at h1 h2
    rw [lehmerEncode]
    refine ⟨by simp [h1]; omega, ?_⟩
    intro i k hk
    cases i with
    | zero => simp at hk; omega
    | succ i => have := h2 i k (by simpa using hk); omega

theorem lehmerDecode_zeros : ∀ (n : Nat) (L code p : List Nat), lehmerDecode L code = some p → (∀ (i : Nat), i < n → code[i]? = some 0) →
    ∀ (i : Nat), i < n → p[i]? = L[i]? := by
  intro n
  induction n with
  | zero => intro L code p _ _ i hi; omega
  | succ n ih =>
    intro L code p h hz i hi
    have h0 := hz 0 (by omega)
    cases code with
    | nil => simp at h0
    | cons k ks =>
      simp at h0
      subst h0
      rw [lehmerDecode] at h
      split at h
      · cases h
      · rename_i v hv
        rw [Option.map_eq_some_iff] at h
        obtain ⟨q, hq, e⟩ := h
        subst e
        cases i with
        | zero => simp [hv]
        | succ i =>
          have := ih _ _ _ hq (fun j hj => by simpa using hz (j + 1) (by omega)) i (by omega)
          rw [List.getElem?_cons_succ, this]
          cases L <;> simp

end Jxl
