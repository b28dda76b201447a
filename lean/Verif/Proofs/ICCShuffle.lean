import Verif.Proofs.ICC
/-! Interleaving in colour profiles: the code agrees with the format. -/
namespace Jxl
open Spec

/-- Lengths for which the code interleaves correctly. -/
def ShuffleOK (width L : Nat) : Prop := width = 2 ∨ (width = 4 ∧ (L ≤ 2 ∨ L % 4 = 0 ∨ L % 4 = 3))

/-- The height of the table. -/
theorem shuffle_height {w L : Nat} (hw : w = 2 ∨ w = 4) (hL : 0 < L) (hL2 : L < 2 ^ 31) :
    i32 (u32 (u32 (u32 L + 4294967295) / w + 1) : Nat) = (((L + w - 1) / w : Nat) : Int) := by
  rcases hw with rfl | rfl <;> simp only [u32, i32] <;> omega

theorem shuffle_dest {w L i : Nat} (h : Nat) (hok : ShuffleOK w L) (hh : h = (L + w - 1) / w) (hi : i < L) :
    i % h * w + i / h < L ∧ (i % h * w + i / h) / w + (i % h * w + i / h) % w * h = i := by
  have h0 : 0 < h := by
    rw [hh]
    rcases hok with rfl | ⟨rfl, _⟩ <;> omega
  obtain ⟨r, hr⟩ : ∃ r, r = i % h := ⟨_, rfl⟩
  obtain ⟨q, hq⟩ : ∃ q, q = i / h := ⟨_, rfl⟩
  have hdm : h * q + r = i := by rw [hr, hq]; exact Nat.div_add_mod i h
  have hrh : r < h := by rw [hr]; exact Nat.mod_lt _ h0
  rw [← hr, ← hq]
  have hq4 : q < w := by
    by_contra hc
    have : h * w ≤ h * q := Nat.mul_le_mul_left _ (by omega)
    rcases hok with rfl | ⟨rfl, _⟩ <;> omega
  rcases hok with rfl | ⟨rfl, hL⟩
  · have : q = 0 ∨ q = 1 := by omega
    have e1 : (r * 2 + q) / 2 = r := by omega
    have e2 : (r * 2 + q) % 2 = q := by omega
    rw [e1, e2]
    rcases this with rfl | rfl <;> omega
  · have : q = 0 ∨ q = 1 ∨ q = 2 ∨ q = 3 := by omega
    have e1 : (r * 4 + q) / 4 = r := by omega
    have e2 : (r * 4 + q) % 4 = q := by omega
    rw [e1, e2]
    rcases this with rfl | rfl | rfl | rfl <;> omega

theorem shuffle_src {w L j : Nat} (h : Nat) (hok : ShuffleOK w L) (hh : h = (L + w - 1) / w) (hj : j < L) :
    j / w + j % w * h < L ∧ (j / w + j % w * h) % h * w + (j / w + j % w * h) / h = j := by
  have h0 : 0 < h := by
    rw [hh]
    rcases hok with rfl | ⟨rfl, _⟩ <;> omega
  have hr : j / w < h := by
    rw [hh]
    rcases hok with rfl | ⟨rfl, _⟩ <;> omega
  have e1 : (j / w + j % w * h) % h = j / w := by rw [Nat.add_mul_mod_self_right, Nat.mod_eq_of_lt hr]
  have e2 : (j / w + j % w * h) / h = j % w := by rw [Nat.add_mul_div_right _ _ h0, Nat.div_eq_of_lt hr, Nat.zero_add]
  rw [e1, e2]
  rcases hok with rfl | ⟨rfl, hL⟩
  · have : j % 2 = 0 ∨ j % 2 = 1 := by omega
    rcases this with e | e <;> rw [e] <;> omega
  · have : j % 4 = 0 ∨ j % 4 = 1 ∨ j % 4 = 2 ∨ j % 4 = 3 := by omega
    rcases this with e | e | e | e <;> rw [e] <;> omega

theorem shuffle_pos {x y : Nat} (h : x + y < 2147483648) : i32 (i32 (x : Int) + (y : Int)) = ((x + y : Nat) : Int) := by
  have h1 : i32 (x : Int) = x := by simp only [i32]; omega
  rw [h1]
  simp only [i32]; omega

/-- The result after the first `i` bytes. -/
def shuffled (b : List Nat) (w h i : Nat) : List Nat := (List.range b.length).map (fun j => if j / w + j % w * h < i then b.getD (j / w + j % w * h) 0 else 0)

theorem shuffleLoop_ok {b : List Nat} {w : Nat} (h : Nat) (hok : ShuffleOK w b.length) (hh : h = (b.length + w - 1) / w) (hL : b.length < 2 ^ 31) :
    ∀ n i, i + n = b.length → shuffleLoop b w h n i (shuffled b w h i) = .ok (shuffled b w h b.length) := by
  intro n
  induction n with
  | zero =>
    intro i hi
    rw [Nat.add_zero] at hi
    rw [hi]
    unfold shuffleLoop
    rfl
  | succ n ih =>
    intro i hi
    obtain ⟨d1, d2⟩ := shuffle_dest h hok hh (show i < b.length by omega)
    unfold shuffleLoop
    have e1 : idx b (i : Int) = .ok (b.getD i 0) := by
      apply idx_of_getElem?
      rw [List.getD_eq_getElem?_getD, List.getElem?_eq_getElem (by omega)]
      rfl
    have e2 : i32 (i32 ((i : Int) % (h : Int) * (w : Int)) + (i : Int) / (h : Int)) = ((i % h * w + i / h : Nat) : Int) := by
      rw [← Int.natCast_mod, ← Int.natCast_ediv, ← Int.natCast_mul]
      exact shuffle_pos (by omega)
    have hlen : (shuffled b w h i).length = b.length := by simp [shuffled]
    rw [e1, Res.bind_ok, e2, setAt_ok (by rw [hlen]; exact d1), Res.bind_ok]
    have e3 : (shuffled b w h i).set (i % h * w + i / h) (b.getD i 0) = shuffled b w h (i + 1) := by
      apply List.ext_getElem
      · simp [shuffled]
      · intro j hj1 hj2
        have hjL : j < b.length := by simpa [shuffled] using hj2
        obtain ⟨s1, s2⟩ := shuffle_src h hok hh hjL
        rw [List.getElem_set]
        by_cases hj : i % h * w + i / h = j
        · rw [if_pos hj]
          subst hj
          simp only [shuffled, List.getElem_map, List.getElem_range, d2]
          rw [if_pos (by omega)]
        · rw [if_neg hj]
          simp only [shuffled, List.getElem_map, List.getElem_range]
          have : j / w + j % w * h ≠ i := by
            intro hc
            rw [hc] at s2
            exact hj s2
          by_cases hlt : j / w + j % w * h < i
          · rw [if_pos hlt, if_pos (by omega)]
          · rw [if_neg hlt, if_neg (by omega)]
    rw [e3]
    exact ih (i + 1) (by omega)

theorem filterMap_all {α β : Type} {g : α → Option β} {f : α → β} : ∀ {l : List α}, (∀ x ∈ l, g x = some (f x)) → l.filterMap g = l.map f
  | [], _ => rfl
  | x :: l, h => by rw [List.filterMap_cons, h x (by simp), List.map_cons, filterMap_all (fun y hy => h y (by simp [hy]))]

theorem rows_flat (f : Nat → Nat) (w : Nat) (hw : 0 < w) : ∀ n, (List.range n).flatMap (fun r => (List.range w).map (fun c => f (r * w + c))) = (List.range (n * w)).map f
  | 0 => by simp
  | n + 1 => by
    rw [List.range_succ, List.flatMap_append, rows_flat f w hw n, Nat.succ_mul, List.range_add, List.map_append]
    simp [Function.comp_def]

theorem interleave_eq {b : List Nat} {w : Nat} (hok : ShuffleOK w b.length) : interleave w b = shuffled b w ((b.length + w - 1) / w) b.length := by
  unfold interleave
  simp only
  obtain ⟨h, hh⟩ : ∃ h, h = (b.length + w - 1) / w := ⟨_, rfl⟩
  rw [← hh]
  have hw : w = 2 ∨ w = 4 := by rcases hok with h | h; exact Or.inl h; exact Or.inr h.1
  by_cases hL : b.length = 0
  · have : h = 0 := by rw [hh, hL]; rcases hw with rfl | rfl <;> rfl
    rw [this]
    simp [shuffled, hL]
  have hsh : shuffled b w h b.length = (List.range b.length).map (fun j => b.getD (j / w + j % w * h) 0) := by
    unfold shuffled
    refine List.map_congr_left (fun j hj => ?_)
    rw [if_pos (shuffle_src h hok hh (List.mem_range.mp hj)).1]
  obtain ⟨m, hm⟩ : ∃ m, m = w * h - b.length := ⟨_, rfl⟩
  have hcol : ∀ c, c < w → c * h = 0 ∨ c * h = h ∨ c * h = 2 * h ∨ c * h = 3 * h := by
    intro c hc
    have : c = 0 ∨ c = 1 ∨ c = 2 ∨ c = 3 := by omega
    rcases this with rfl | rfl | rfl | rfl <;> simp
  have hget : ∀ i, i < b.length → b[i]? = some (b.getD i 0) := by
    intro i hi
    rw [List.getD_eq_getElem?_getD, List.getElem?_eq_getElem hi]; rfl
  have hfull : ∀ r, r < h - 1 → (List.range w).filterMap (fun col => b[r + col * h]?) = (List.range w).map (fun c => b.getD ((r * w + c) / w + (r * w + c) % w * h) 0) := by
    intro r hr
    refine filterMap_all (fun c hc => ?_)
    have hc := List.mem_range.mp hc
    have e1 : (r * w + c) / w = r := by rw [Nat.mul_comm, Nat.mul_add_div (by omega), Nat.div_eq_of_lt hc, Nat.add_zero]
    have e2 : (r * w + c) % w = c := by rw [Nat.mul_comm, Nat.mul_add_mod, Nat.mod_eq_of_lt hc]
    rw [e1, e2]
    apply hget
    rcases hok with rfl | ⟨rfl, hl⟩
    · have : c = 0 ∨ c = 1 := by omega
      rcases this with rfl | rfl <;> omega
    · have : c = 0 ∨ c = 1 ∨ c = 2 ∨ c = 3 := by omega
      rcases this with rfl | rfl | rfl | rfl <;> omega
  have hlast : (List.range w).filterMap (fun col => b[h - 1 + col * h]?) = (List.range (w - m)).map (fun c => b.getD (((h - 1) * w + c) / w + ((h - 1) * w + c) % w * h) 0) := by
    rw [show w = (w - m) + m by rcases hok with rfl | ⟨rfl, hl⟩ <;> omega, List.range_add, List.filterMap_append]
    rw [show w - m + m - m = w - m by omega]
    have : ((List.range m).map (fun x => w - m + x)).filterMap (fun col => b[h - 1 + col * h]?) = [] := by
      rw [List.filterMap_eq_nil_iff]
      intro c hc
      rw [List.mem_map] at hc
      obtain ⟨x, hx, rfl⟩ := hc
      have hx := List.mem_range.mp hx
      apply List.getElem?_eq_none
      rcases hok with rfl | ⟨rfl, hl⟩
      · have : 2 - m + x = 0 ∨ 2 - m + x = 1 := by omega
        rcases this with e | e <;> rw [e] <;> omega
      · have : 4 - m + x = 0 ∨ 4 - m + x = 1 ∨ 4 - m + x = 2 ∨ 4 - m + x = 3 := by omega
        rcases this with e | e | e | e <;> rw [e] <;> omega
    rw [this, List.append_nil]
    rw [show w - m + m = w by rcases hok with rfl | ⟨rfl, hl⟩ <;> omega]
    refine filterMap_all (fun c hc => ?_)
    have hc := List.mem_range.mp hc
    have hcw : c < w := by omega
    have e1 : ((h - 1) * w + c) / w = h - 1 := by rw [Nat.mul_comm, Nat.mul_add_div (by omega), Nat.div_eq_of_lt hcw, Nat.add_zero]
    have e2 : ((h - 1) * w + c) % w = c := by rw [Nat.mul_comm, Nat.mul_add_mod, Nat.mod_eq_of_lt hcw]
    rw [e1, e2]
    apply hget
    rcases hok with rfl | ⟨rfl, hl⟩
    · have : c = 0 ∨ c = 1 := by omega
      rcases this with rfl | rfl <;> omega
    · have : c = 0 ∨ c = 1 ∨ c = 2 ∨ c = 3 := by omega
      rcases this with rfl | rfl | rfl | rfl <;> omega
  have h1 : 0 < h := by rcases hw with rfl | rfl <;> omega
  rw [hsh]
  conv_lhs => rw [show h = (h - 1) + 1 by omega, List.range_succ]
  rw [List.flatMap_append]
  rw [show h - 1 + 1 = h by omega]
  have e1 : (List.range (h - 1)).flatMap (fun row => (List.range w).filterMap (fun col => b[row + col * h]?)) =
      (List.range (h - 1)).flatMap (fun r => (List.range w).map (fun c => b.getD ((r * w + c) / w + (r * w + c) % w * h) 0)) := by
    rw [List.flatMap_def, List.flatMap_def]
    congr 1
    exact List.map_congr_left (fun r hr => hfull r (List.mem_range.mp hr))
  rw [e1, rows_flat (fun j => b.getD (j / w + j % w * h) 0) w (by omega)]
  simp only [List.flatMap_cons, List.flatMap_nil, List.append_nil]
  rw [hlast]
  have hlen : b.length = (h - 1) * w + (w - m) := by
    rcases hok with rfl | ⟨rfl, hl⟩ <;> omega
  rw [show List.range b.length = List.range ((h - 1) * w + (w - m)) by rw [← hlen], List.range_add, List.map_append, List.map_map]
  rfl

theorem shuffle_ok {b : List Nat} {w : Nat} (hok : ShuffleOK w b.length) (hL : b.length < 2 ^ 31) : iccShuffle b w = .ok (interleave w b) := by
  rw [interleave_eq hok]
  unfold iccShuffle
  have hw : w = 2 ∨ w = 4 := by rcases hok with h | h; exact Or.inl h; exact Or.inr h.1
  by_cases h0 : b.length = 0
  · have : b = [] := List.eq_nil_of_length_eq_zero h0
    subst this
    rfl
  · simp only
    rw [shuffle_height hw (by omega) hL]
    have : List.replicate b.length 0 = shuffled b w ((b.length + w - 1) / w) 0 := by
      unfold shuffled
      simp only [Nat.not_lt_zero, if_false]
      simp [List.map_const']
    rw [this]
    exact shuffleLoop_ok _ hok rfl hL _ 0 (by omega)

end Jxl
