import Verif.Props.ChromaLuma

/-!
# The samples of a block depend only on its coefficients
-/
namespace Jxl

section
variable {α : Type} [Arith α]

theorem foldl_congr_mem {β γ : Type} {f g : β → γ → β} : ∀ (l : List γ) (a : β), (∀ b, ∀ c ∈ l, f b c = g b c) → l.foldl f a = l.foldl g a
  | [], _, _ => rfl
  | c :: l, a, h => by
    rw [List.foldl_cons, List.foldl_cons, h a c List.mem_cons_self]
    exact foldl_congr_mem l _ (fun b d hd => h b d (List.mem_cons_of_mem _ hd))

theorem idctVal_congr (c : Nat → Nat → α) {len : Nat} (hlen : 0 < len) {s t : Nat → α} (h : ∀ n, n < len → s n = t n) (k : Nat) : idctVal c len s k = idctVal c len t k := by
  unfold idctVal
  rw [h 0 hlen]
  refine foldl_congr_mem _ _ ?_
  intro b n hn
  rw [List.mem_range'_1] at hn
  rw [h n (by omega)]

theorem dctSamples_congr (c : Nat → Nat → Nat → α) (a b : Nat) {f g : Nat → Nat → α} (h : ∀ y x, y < 2 ^ a → x < 2 ^ b → f y x = g y x) (y x : Nat) :
    dctSamples c a b f y x = dctSamples c a b g y x := by
  unfold dctSamples
  refine idctVal_congr _ (by positivity) (fun n hn => ?_) _
  exact idctVal_congr _ (by positivity) (fun m hm => h m n hm hn) _

theorem dctSamples'_congr (c : Nat → Nat → Nat → α) (a b : Nat) {f g : Nat → Nat → α} (h : ∀ y x, y < 2 ^ a → x < 2 ^ b → f y x = g y x) (y x : Nat) :
    dctSamples' c a b f y x = dctSamples' c a b g y x := by
  unfold dctSamples'
  refine idctVal_congr _ (by positivity) (fun m hm => ?_) _
  exact idctVal_congr _ (by positivity) (fun n hn => h m n hm hn) _

theorem halfCoeffs_congr {f g : Nat → Nat → α} (h : ∀ y x, y < 8 → x < 8 → f y x = g y x) {half m n : Nat} (hh : half < 2) (hm : m < 4) (hn : n < 8) :
    halfCoeffs f half m n = halfCoeffs g half m n := by
  unfold halfCoeffs
  rw [h 0 0 (by omega) (by omega), h 1 0 (by omega) (by omega), h (half + m * 2) n (by omega) hn]

theorem haarStep_congr {num : Nat} {f g : Nat → Nat → α} (hnum : 2 * num ≤ 8) (h : ∀ y x, y < 8 → x < 8 → f y x = g y x) {y x : Nat} (hy : y < 8) (hx : x < 8) :
    haarStep num f y x = haarStep num g y x := by
  unfold haarStep
  by_cases hc : y < 2 * num ∧ x < 2 * num
  · rw [if_pos hc, if_pos hc]
    dsimp only
    rw [h (y / 2) (x / 2) (by omega) (by omega), h (y / 2) (x / 2 + num) (by omega) (by omega), h (y / 2 + num) (x / 2) (by omega) (by omega),
      h (y / 2 + num) (x / 2 + num) (by omega) (by omega)]
  · rw [if_neg hc, if_neg hc, h y x hy hx]

theorem blockSamples_congr (c : Nat → Nat → Nat → α) (basis : Nat → Nat → α) {tt : TransformType} (ht : tt ∈ allDCT) (bottom right : Bool) {f g : Nat → Nat → α}
    (h : ∀ y x, y < tt.pixelHeight.toNat → x < tt.pixelWidth.toNat → f y x = g y x) {y x : Nat} (hy : y < tt.pixelHeight.toNat) (hx : x < tt.pixelWidth.toNat) :
    blockSamples c basis tt bottom right f y x = blockSamples c basis tt bottom right g y x := by
  have h8 : tt.method ≠ 0 → tt.pixelHeight.toNat = 8 ∧ tt.pixelWidth.toNat = 8 := by
    have : ∀ tt ∈ allDCT, tt.method ≠ 0 → tt.pixelHeight.toNat = 8 ∧ tt.pixelWidth.toNat = 8 := by decide
    exact this tt ht
  unfold blockSamples
  by_cases m0 : tt.method = 0
  · rw [if_pos m0, if_pos m0]
    obtain ⟨a, _, b, _, e1, e2, _⟩ := allDCT_sizes tt ht
    rw [e1, e2] at h ⊢
    have p1 : 8 * 2 ^ a = 2 ^ (a + 3) := by rw [pow_add]; ring
    have p2 : 8 * 2 ^ b = 2 ^ (b + 3) := by rw [pow_add]; ring
    rw [p1, p2] at h ⊢
    rw [Nat.log2_two_pow, Nat.log2_two_pow]
    exact dctSamples_congr c _ _ h y x
  obtain ⟨q1, q2⟩ := h8 m0
  rw [q1, q2] at h
  rw [q1] at hy
  rw [q2] at hx
  rw [if_neg m0, if_neg m0]
  by_cases m1 : tt.method = 1
  · rw [if_pos m1, if_pos m1]
    unfold dct2Samples
    refine haarStep_congr (by omega) ?_ hy hx
    intro y x hy hx
    refine haarStep_congr (by omega) ?_ hy hx
    intro y x hy hx
    exact haarStep_congr (by omega) h hy hx
  rw [if_neg m1, if_neg m1]
  by_cases m3 : tt.method = 3
  · rw [if_pos m3, if_pos m3]
    have hmid : hornussMid f (y / 4) (x / 4) = hornussMid g (y / 4) (x / 4) := by
      unfold hornussMid
      rw [haarStep_congr (by omega) h (by omega) (by omega)]
      have : hornussSum f (y / 4) (x / 4) = hornussSum g (y / 4) (x / 4) := by
        unfold hornussSum
        refine foldl_congr_mem _ _ ?_
        intro r iy hiy
        rw [List.mem_range] at hiy
        refine foldl_congr_mem _ _ ?_
        intro r' ix hix
        rw [List.mem_range'_1] at hix
        rw [h _ _ (by omega) (by split at hix <;> omega)]
      rw [this]
    unfold hornussSamples
    rw [hmid]
    dsimp only
    rw [h (y / 4 + 2) (x / 4 + 2) (by omega) (by omega), h (y / 4 + y % 4 * 2) (x / 4 + x % 4 * 2) (by omega) (by omega)]
  rw [if_neg m3, if_neg m3]
  by_cases m4 : tt.method = 4
  · rw [if_pos m4, if_pos m4]
    unfold dct84Samples
    exact dctSamples'_congr c 2 3 (fun m n hm hn => halfCoeffs_congr h (by omega) hm hn) _ _
  rw [if_neg m4, if_neg m4]
  by_cases m5 : tt.method = 5
  · rw [if_pos m5, if_pos m5]
    unfold dct48Samples
    exact dctSamples_congr c 2 3 (fun m n hm hn => halfCoeffs_congr h (by omega) hm hn) _ _
  rw [if_neg m5, if_neg m5]
  have h00 := h 0 0 (by omega) (by omega)
  have h10 := h 1 0 (by omega) (by omega)
  have h01 := h 0 1 (by omega) (by omega)
  have e1 : ∀ iy ix, afvCornerSamples basis f iy ix = afvCornerSamples basis g iy ix := by
    intro iy ix
    unfold afvCornerSamples
    refine foldl_congr_mem _ _ ?_
    intro s j hj
    rw [List.mem_range] at hj
    unfold afvCornerCoeffs
    rw [h00, h10, h01, h (j / 4 * 2) (j % 4 * 2) (by omega) (by omega)]
  have e2 : ∀ a b, dctSamples c 2 2 (afvSquareCoeffs f) a b = dctSamples c 2 2 (afvSquareCoeffs g) a b := by
    intro a b
    refine dctSamples_congr c 2 2 (fun m n hm hn => ?_) _ _
    unfold afvSquareCoeffs
    rw [h00, h10, h01, h (m * 2) (n * 2 + 1) (by omega) (by omega)]
  have e3 : ∀ a b, dctSamples c 2 3 (afvHalfCoeffs f) a b = dctSamples c 2 3 (afvHalfCoeffs g) a b := by
    intro a b
    refine dctSamples_congr c 2 3 (fun m n hm hn => ?_) _ _
    unfold afvHalfCoeffs
    rw [h00, h10, h (1 + m * 2) n (by omega) hn]
  unfold afvSamples
  rw [e1, e2, e3]

end

end Jxl
