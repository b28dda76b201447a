import Verif.Proofs.UpWeights
import Verif.Props.FrameDecode
import Mathlib.Tactic.Ring
import Mathlib.Tactic.Linarith

/-!
# C81: upsampling of frames
-/
namespace Jxl

open Spec (px)

/-- C81: the table of weights that is made from a list for the factor 2, 4 or 8 has a square of weights for each of the `k` × `k` places: the entries of the symmetric matrix
whose upper half is in the list. The squares of places that are mirror images of each other are mirror images. -/
theorem C81_weights {α : Type} {k : Nat} (hk : k ∈ [2, 4, 8]) {l : List α} (hl : l.length = weightCount k) :
    ∃ up wt, weightTable k l = .ok up ∧ HoldsWeights k wt up ∧
      (∀ ky kx iy ix, ky < k → kx < k → iy < 5 → ix < 5 → kernelEntry k l ky kx iy ix = some (wt ky kx iy ix)) ∧
      ∀ ky kx iy ix, ky < k → kx < k → iy < 5 → ix < 5 →
        wt (k - 1 - ky) kx (4 - iy) ix = wt ky kx iy ix ∧ wt ky (k - 1 - kx) iy (4 - ix) = wt ky kx iy ix ∧ wt kx ky ix iy = wt ky kx iy ix := by
  obtain ⟨up, wt, e, -, h1, h2⟩ := weightTable_ok hk hl
  refine ⟨up, wt, e, h1, h2, fun ky kx iy ix a b c d => ?_⟩
  have even : k / 2 * 2 = k := by
    simp only [List.mem_cons, List.not_mem_nil, or_false] at hk
    omega
  have r : ∀ q i, q < k → i < 5 → (if k - 1 - q < k / 2 then 5 * (k - 1 - q) + (4 - i) else 5 * (k - 1 - (k - 1 - q)) + (4 - (4 - i))) =
      if q < k / 2 then 5 * q + i else 5 * (k - 1 - q) + (4 - i) := by
    intro q i hq hi
    split <;> split <;> omega
  refine ⟨Option.some.inj ?_, Option.some.inj ?_, Option.some.inj ?_⟩
  · rw [← h2 _ _ _ _ (by omega) b (by omega) d, ← h2 _ _ _ _ a b c d]
    unfold kernelEntry
    dsimp only
    rw [r ky iy a c]
  · rw [← h2 _ _ _ _ a (by omega) c (by omega), ← h2 _ _ _ _ a b c d]
    unfold kernelEntry
    dsimp only
    rw [r kx ix b d]
  · rw [← h2 _ _ _ _ b a d c, ← h2 _ _ _ _ a b c d]
    unfold kernelEntry symmetricEntry
    dsimp only
    rw [Nat.min_comm, Nat.max_comm]

/-- The numbers of weights are those that are read from the header of an image, and those of the default lists. -/
example : weightCount 2 = 15 ∧ weightCount 4 = 55 ∧ weightCount 8 = 210 ∧ defaultUp2.length = 15 ∧ defaultUp4.length = 55 ∧ defaultUp8.length = 210 := by decide +kernel

/-- The default weights for a factor, in units of 10⁻⁸. -/
def defaultUp (k : Nat) : List Int := if k = 2 then defaultUp2 else if k = 4 then defaultUp4 else defaultUp8

theorem default_sums : ∀ k ∈ [2, 4, 8], ∀ ky, ky < k → ∀ kx, kx < k →
    |(square.map fun o => (kernelEntry k (defaultUp k) ky kx o.1 o.2).getD 0).sum - 100000000| ≤ 3 := by decide +kernel

theorem foldl_weighted {ι : Type} (g : ι → ℚ) (c : ℚ) : ∀ (l : List ι) (t : ℚ), l.foldl (fun t o => t + g o * c) t = t + (l.map g).sum * c
  | [], t => by simp
  | o :: l, t => by
    rw [List.foldl_cons, foldl_weighted g c l, List.map_cons, List.sum_cons]
    ring

/-- C81: with the default weights a flat plane stays flat, up to a relative error of 4·10⁻⁸ (the weights are given with eight digits). In exact arithmetic. -/
theorem C81_flat {k : Nat} (hk : k ∈ [2, 4, 8]) {wt : Nat → Nat → Nat → Nat → ℚ}
    (hw : ∀ ky kx iy ix, ky < k → kx < k → iy < 5 → ix < 5 → kernelEntry k ((defaultUp k).map fun (n : Int) => (n : ℚ) / 100000000) ky kx iy ix = some (wt ky kx iy ix))
    (h w : Nat) {c : ℚ} (hc : c ≤ (2 ^ 24 - 1) * 2 ^ 104) (y x : Nat) {ky kx : Nat} (hky : ky < k) (hkx : kx < k) :
    |upsampled h w (fun _ _ => c) (wt ky kx) y x - c| ≤ 4 / 100000000 * |c| := by
  -- the sum of the weights
  have hS : |(square.map fun o => wt ky kx o.1 o.2).sum - 1| ≤ 4 / 100000000 := by
    have e : (square.map fun o => wt ky kx o.1 o.2).sum =
        ((square.map fun o => (kernelEntry k (defaultUp k) ky kx o.1 o.2).getD 0).sum : ℚ) / 100000000 := by
      have each : ∀ l : List (Nat × Nat), (∀ o ∈ l, o.1 < 5 ∧ o.2 < 5) → (l.map fun o => wt ky kx o.1 o.2).sum =
          (((l.map fun o => (kernelEntry k (defaultUp k) ky kx o.1 o.2).getD 0).sum : Int) : ℚ) / 100000000 := by
        intro l
        induction l with
        | nil => intro _; simp
        | cons o l ih =>
          intro ho
          have h1 := hw ky kx o.1 o.2 hky hkx (ho o (List.mem_cons_self ..)).1 (ho o (List.mem_cons_self ..)).2
          unfold kernelEntry symmetricEntry at h1
          dsimp only at h1
          rw [List.getElem?_map] at h1
          obtain ⟨n, hn, hv⟩ := Option.map_eq_some_iff.1 h1
          rw [List.map_cons, List.sum_cons, ih fun o' h' => ho o' (List.mem_cons_of_mem _ h'), List.map_cons, List.sum_cons, ← hv]
          have : kernelEntry k (defaultUp k) ky kx o.1 o.2 = some n := hn
          rw [this]
          push_cast
          rw [Option.getD_some]
          ring
      have := each square (by decide)
      rw [this]
    rw [e]
    have b := default_sums k hk ky hky kx hkx
    generalize (square.map fun o => (kernelEntry k (defaultUp k) ky kx o.1 o.2).getD 0).sum = s at b
    have b' := abs_le.1 b
    have b1 : (-3 : ℚ) ≤ (s : ℚ) - 100000000 := by exact_mod_cast b'.1
    have b2 : (s : ℚ) - 100000000 ≤ 3 := by exact_mod_cast b'.2
    rw [abs_le]
    constructor <;> linarith
  have hsum : upSum h w (fun _ _ => c) (wt ky kx) y x = (square.map fun o => wt ky kx o.1 o.2).sum * c := by
    unfold upSum
    have := foldl_weighted (fun o : Nat × Nat => wt ky kx o.1 o.2) c square 0
    rw [zero_add] at this
    exact this
  generalize (square.map fun o => wt ky kx o.1 o.2).sum = S at hS hsum
  have hSc : |S * c - c| ≤ 4 / 100000000 * |c| := by
    rw [show S * c - c = (S - 1) * c by ring, abs_mul]
    exact mul_le_mul_of_nonneg_right hS (abs_nonneg c)
  unfold upsampled
  simp only
  obtain ⟨-, l2, l3⟩ := foldl_min_le (surrounding h w (fun _ _ => c) y x) square (Arith.lit ((2 ^ 24 - 1) * 2 ^ 104))
  obtain ⟨-, m2, -⟩ := le_foldl_max (surrounding h w (fun _ _ => c) y x) square (Arith.lit (1 / 2 ^ 149))
  have hl : _ = c := le_antisymm (l2 (0, 0) (by decide)) (l3 c hc fun o _ => le_refl c)
  have hm : c ≤ _ := m2 (0, 0) (by decide)
  rw [hl, hsum]
  generalize square.foldl (fun m o => if Arith.lt m (surrounding h w (fun _ _ => c) y x o) then surrounding h w (fun _ _ => c) y x o else m) (Arith.lit (1 / 2 ^ 149)) = most at *
  by_cases h1 : S * c < c
  · rw [if_pos (show Arith.lt (S * c) c = true from decide_eq_true h1), sub_self, abs_zero]
    positivity
  · rw [if_neg (show ¬ (Arith.lt (S * c) c = true) from fun hc => h1 (of_decide_eq_true hc))]
    by_cases h2 : most < S * c
    · rw [if_pos (show Arith.lt most (S * c) = true from decide_eq_true h2)]
      refine le_trans ?_ hSc
      rw [abs_of_nonneg (by linarith), abs_of_nonneg (by linarith)]
      linarith
    · rw [if_neg (show ¬ (Arith.lt most (S * c) = true) from fun hc => h2 (of_decide_eq_true hc))]
      exact hSc

/-- One plane. -/
theorem performUpsampling_ok {h : ImageHeader} {f : FrameHeader} {c k d H W : Nat} {b : ImageBuffer} (hk : upFactor h f c = .ok k) (hk' : k ∈ [2, 4, 8])
    (hd : upDepth h f c = .ok d) (hd' : 1 ≤ d ∧ d ≤ 31) (hb : b.Picture H W) (h0 : 0 < H) (w0 : 0 < W) (hbig : H * k < 2 ^ 31 ∧ W * k < 2 ^ 31)
    {ups : List (List (List (List (List F32))))} {up : List (List (List (List F32)))} (hups : ups[Nat.log2 k - 1]? = some up) {wt : Nat → Nat → Nat → Nat → F32}
    (hw : HoldsWeights k wt up) {options : Option Int} {order : List UpStep} (ho : Interleaving (upWorkers H W k options) order) :
    ∃ b', performUpsampling h f (.ok ups) order c b = .ok b' ∧ UpsampledBy k H W d wt b b' := by
  obtain ⟨b1, e1, p1, s1⟩ := cast_px hb hd'
  obtain ⟨out, e2, t2, s2⟩ := C27_upsampling h0 w0 options s1 hw (out := List.replicate (b1.floats.length * k) []) (by rw [List.length_replicate, s1.1.1]) ho
  have hlog : ((ceilLog1p (k - 1) : Nat) : Int) - 1 = ((Nat.log2 k - 1 : Nat) : Int) ∧ k ≠ 1 ∧ 0 < k := by
    simp only [List.mem_cons, List.not_mem_nil, or_false] at hk'
    rcases hk' with rfl | rfl | rfl <;> decide
  obtain ⟨r, hr⟩ : ∃ r, out[0]? = some r := ⟨_, List.getElem?_eq_getElem (by rw [t2.1]; exact Nat.mul_pos h0 hlog.2.2)⟩
  have hrl : r.length = W * k := t2.2 r (List.mem_of_getElem? hr)
  refine ⟨⟨(W * k : Nat), (H * k : Nat), 1, out, []⟩, ?_, ⟨rfl, rfl, rfl, t2⟩, s2⟩
  unfold performUpsampling
  rw [hk, Res.bind_ok, if_neg hlog.2.1, hd, Res.bind_ok, e1, Res.bind_ok, Res.bind_ok, hlog.1, idx_nat hups, Res.bind_ok, e2, Res.bind_ok]
  unfold bufferFromFloats
  rw [show (0 : Int) = ((0 : Nat) : Int) from rfl, idx_nat hr, Res.bind_ok, hrl, t2.1, i32_ofNat (by omega), i32_ofNat (by omega)]

/-- C81: a frame is upsampled. The planes with the factor 1 stay as they are, the others become larger by their factors, with the weights of the image for the factor. This
holds for any number of goroutines and any order of their steps: `orders c` are the steps for the plane `c`. -/
theorem C81_frame {h : ImageHeader} {f : FrameHeader} {l : List ImageBuffer} (hn : l.length = frameColourCount h f.encoding + h.extra.length)
    (hec : f.ecUpsampling.length = h.extra.length) (hfac : ∀ c k, factorOf f (frameColourCount h f.encoding) c = some k → k ∈ [1, 2, 4, 8])
    (hdep : ∀ c d, c < l.length → upDepth h f c = .ok d → 1 ≤ d ∧ d ≤ 31) {w : Nat → List F32} (hw : ∀ k ∈ [2, 4, 8], (w k).length = weightCount k)
    {H W : Nat → Nat} (hp : ∀ c b, l[c]? = some b → b.Picture (H c) (W c) ∧ 0 < H c ∧ 0 < W c ∧ H c ≤ 2 ^ 27 ∧ W c ≤ 2 ^ 27) (options : Option Int)
    {orders : Nat → List UpStep} (ho : ∀ c k, c < l.length → factorOf f (frameColourCount h f.encoding) c = some k → Interleaving (upWorkers (H c) (W c) k options) (orders c)) :
    ∃ wt : Nat → Nat → Nat → Nat → Nat → F32, (∀ k ∈ [2, 4, 8], ∀ ky kx iy ix, ky < k → kx < k → iy < 5 → ix < 5 → kernelEntry k (w k) ky kx iy ix = some (wt k ky kx iy ix)) ∧
      ∃ l', upsampleFrame h f (upWeights (w 2) (w 4) (w 8)) orders l = .ok l' ∧ l'.length = l.length ∧
        ∀ c, c < l.length → ∃ k d b b', factorOf f (frameColourCount h f.encoding) c = some k ∧ upDepth h f c = .ok d ∧ l[c]? = some b ∧ l'[c]? = some b' ∧
          (k = 1 → b' = b) ∧ (k ≠ 1 → UpsampledBy k (H c) (W c) d (wt k) b b') := by
  obtain ⟨u2, t2, e2, -, w2, k2⟩ := weightTable_ok (k := 2) (by decide) (hw 2 (by decide))
  obtain ⟨u4, t4, e4, -, w4, k4⟩ := weightTable_ok (k := 4) (by decide) (hw 4 (by decide))
  obtain ⟨u8, t8, e8, -, w8, k8⟩ := weightTable_ok (k := 8) (by decide) (hw 8 (by decide))
  have eup : upWeights (w 2) (w 4) (w 8) = .ok [u2, u4, u8] := by
    unfold upWeights
    rw [e2, Res.bind_ok, e4, Res.bind_ok, e8, Res.bind_ok]
  let wt : Nat → Nat → Nat → Nat → Nat → F32 := fun k => if k = 2 then t2 else if k = 4 then t4 else t8
  have hups : ∀ k ∈ [2, 4, 8], ∃ up, [u2, u4, u8][Nat.log2 k - 1]? = some up ∧ HoldsWeights k (wt k) up := by
    intro k hk
    simp only [List.mem_cons, List.not_mem_nil, or_false] at hk
    rcases hk with rfl | rfl | rfl
    · exact ⟨u2, rfl, w2⟩
    · exact ⟨u4, rfl, w4⟩
    · exact ⟨u8, rfl, w8⟩
  refine ⟨wt, ?_, ?_⟩
  · intro k hk
    simp only [List.mem_cons, List.not_mem_nil, or_false] at hk
    rcases hk with rfl | rfl | rfl
    · exact k2
    · exact k4
    · exact k8
  rw [eup]
  generalize hcol : frameColourCount h f.encoding = n at *
  have factor : ∀ c, c < l.length → ∃ k d, factorOf f n c = some k ∧ upFactor h f c = .ok k ∧ upDepth h f c = .ok d := by
    intro c hc
    unfold factorOf upFactor upDepth
    rw [hcol]
    by_cases hcn : c < n
    · rw [if_pos hcn, if_pos hcn, if_pos hcn]
      exact ⟨_, _, rfl, rfl, rfl⟩
    · rw [if_neg hcn, if_neg hcn, if_neg hcn, show (c : Int) - (n : Int) = ((c - n : Nat) : Int) by omega]
      have a1 := List.getElem?_eq_getElem (l := f.ecUpsampling) (i := c - n) (by omega)
      have a2 := List.getElem?_eq_getElem (l := h.extra) (i := c - n) (by omega)
      rw [idx_nat a1, idx_nat a2, Res.bind_ok]
      exact ⟨_, _, a1, rfl, rfl⟩
  obtain ⟨l', e, h1, h2, -⟩ := scatter_list (f := fun c l => onBuffer (performUpsampling h f (.ok [u2, u4, u8]) (orders c) c) c l) (l := l) id
    (fun c b' => ∃ k d b, factorOf f n c = some k ∧ upDepth h f c = .ok d ∧ l[c]? = some b ∧ (k = 1 → b' = b) ∧ (k ≠ 1 → UpsampledBy k (H c) (W c) d (wt k) b b'))
    l.length (fun a b _ _ h => h) (fun c hc => hc) (by
      intro c m hc hm hget
      rw [id_eq] at hget
      obtain ⟨k, d, f1, f2, f3⟩ := factor c hc
      have hb := List.getElem?_eq_getElem hc
      obtain ⟨p, h0, w0, hh, hw'⟩ := hp c _ hb
      have hk := hfac c k f1
      have : ∃ b', performUpsampling h f (.ok [u2, u4, u8]) (orders c) c l[c] = .ok b' ∧ (k = 1 → b' = l[c]) ∧ (k ≠ 1 → UpsampledBy k (H c) (W c) d (wt k) l[c] b') := by
        by_cases hk1 : k = 1
        · refine ⟨l[c], ?_, fun _ => rfl, fun h => absurd hk1 h⟩
          unfold performUpsampling
          rw [f2, Res.bind_ok, if_pos hk1]
        · have hk' : k ∈ [2, 4, 8] := by
            rcases List.mem_cons.1 hk with h | h
            · exact absurd h hk1
            · exact h
          have hk8 : k ≤ 8 := by
            simp only [List.mem_cons, List.not_mem_nil, or_false] at hk'
            omega
          obtain ⟨up, e3, hw3⟩ := hups k hk'
          obtain ⟨b', e4, u⟩ := performUpsampling_ok f2 hk' f3 (hdep c d hc f3) p h0 w0 ⟨by nlinarith, by nlinarith⟩ e3 hw3 (ho c k hc f1)
          exact ⟨b', e4, fun h => absurd h hk1, fun _ => u⟩
      obtain ⟨b', e4, r1, r2⟩ := this
      refine ⟨b', ?_, k, d, l[c], f1, f3, hb, r1, r2⟩
      unfold onBuffer
      rw [idx_nat (hget.trans hb), Res.bind_ok, e4, Res.bind_ok]
      unfold setAt
      rw [if_neg (by omega), if_pos (by rw [Int.toNat_natCast, hm]; exact hc), Int.toNat_natCast]
      rfl)
  refine ⟨l', e, h1, fun c hc => ?_⟩
  obtain ⟨b', hb', k, d, b, r1, r2, r3, r4, r5⟩ := h2 c hc
  exact ⟨k, d, b, b', r1, r2, r3, hb', r4, r5⟩

/-- A gray frame of one sample that is upsampled by two, with the default weights (one goroutine). -/
example : ∃ l' wt, upsampleFrame (grayPixel 8 0) { frameSized 1 1 with upsampling := 2, ecUpsampling := [] }
      (upWeights (defaultUp2.map F32.ofInt) (defaultUp4.map F32.ofInt) (defaultUp8.map F32.ofInt)) (fun _ => (upWorkers 1 1 2 none).flatten) [⟨1, 1, 0, [], [[7]]⟩] = .ok l' ∧
    l'.length = 1 ∧ ∃ b', l'[0]? = some b' ∧ UpsampledBy 2 1 1 8 wt ⟨1, 1, 0, [], [[7]]⟩ b' := by
  let w : Nat → List F32 := fun k => (defaultUp k).map F32.ofInt
  obtain ⟨wt, -, l', e, h1, h2⟩ := C81_frame (h := grayPixel 8 0) (f := { frameSized 1 1 with upsampling := 2, ecUpsampling := [] }) (l := [⟨1, 1, 0, [], [[7]]⟩]) (by decide) (by decide)
    (fun c k hk => by
      unfold factorOf at hk
      split at hk
      · injection hk with hk
        rw [← hk]
        decide
      · exact absurd hk (by simp))
    (fun c d hc hd => by
      obtain rfl : c = 0 := by simpa using hc
      injection hd with hd
      rw [← hd]
      decide) (w := w) (fun k hk => by
      show ((defaultUp k).map F32.ofInt).length = _
      rw [List.length_map]
      simp only [List.mem_cons, List.not_mem_nil, or_false] at hk
      rcases hk with rfl | rfl | rfl <;> decide +kernel) (H := fun _ => 1) (W := fun _ => 1) (fun c b hb => by
      match c, hb with
      | 0, hb =>
        injection hb with hb
        rw [← hb]
        exact ⟨Or.inl ⟨rfl, rfl, rfl, rfl, by decide⟩, by decide⟩) none (orders := fun _ => (upWorkers 1 1 2 none).flatten) (fun c k hc hk => by
      obtain rfl : c = 0 := by simpa using hc
      injection hk with hk
      rw [← hk]
      exact Interleaving.sequential _ _ rfl)
  obtain ⟨k, d, b, b', r1, r2, r3, r4, r5, r6⟩ := h2 0 (by decide)
  injection r1 with r1
  injection r2 with r2
  injection r3 with r3
  subst r1 r2 r3
  exact ⟨l', wt 2, e, h1, b', r4, r6 (by decide)⟩

end Jxl
