import Verif.Proofs.BlockMeans
import Verif.Props.GroupSamples

/-!
# C67: the LF image is the picture in small

With exact arithmetic, whatever the high frequencies of a block are, the mean of the samples of a block is the mean of its LF samples. If the high frequencies of a DCT block are 0, the
mean of every 8×8 part of it is its LF sample.
-/
namespace Jxl
open Finset Spec

theorem lowScale_zero : lowScale 0 = 1 := by simp [lowScale]

theorem first_low {scale : Nat → Nat → ℝ} (h0 : scale 0 0 = 1) (a b : Nat) (lf : Nat → Nat → ℝ) : lowValue exactCos scale a b lf 0 0 = mean 0 0 (2 ^ a) (2 ^ b) lf := by
  rw [lowValue_real scale a b lf (by positivity) (by positivity), Nat.zero_mul, Nat.zero_mul, h0, mul_one]
  unfold fdct2 mean
  simp only [basis_zero, mul_one, Nat.zero_add]

/-- The sizes of all blocks in units of 8 samples are powers of two, up to 32. -/
theorem eighth_sizes {tt : TransformType} (ht : tt ∈ allDCT) : (0 < tt.pixelHeight.toNat / 8 ∧ 0 < tt.pixelWidth.toNat / 8) ∧
    2 ^ Nat.log2 (tt.pixelHeight.toNat / 8) = tt.pixelHeight.toNat / 8 ∧ 2 ^ Nat.log2 (tt.pixelWidth.toNat / 8) = tt.pixelWidth.toNat / 8 ∧
    Nat.log2 (tt.pixelHeight.toNat / 8) ≤ 5 ∧ Nat.log2 (tt.pixelWidth.toNat / 8) ≤ 5 ∧ 8 * (tt.pixelHeight.toNat / 8) = tt.pixelHeight.toNat ∧ 8 * (tt.pixelWidth.toNat / 8) = tt.pixelWidth.toNat := by
  have : ∀ tt ∈ allDCT, (0 < tt.pixelHeight.toNat / 8 ∧ 0 < tt.pixelWidth.toNat / 8) ∧
    2 ^ Nat.log2 (tt.pixelHeight.toNat / 8) = tt.pixelHeight.toNat / 8 ∧ 2 ^ Nat.log2 (tt.pixelWidth.toNat / 8) = tt.pixelWidth.toNat / 8 ∧
    Nat.log2 (tt.pixelHeight.toNat / 8) ≤ 5 ∧ Nat.log2 (tt.pixelWidth.toNat / 8) ≤ 5 ∧ 8 * (tt.pixelHeight.toNat / 8) = tt.pixelHeight.toNat ∧ 8 * (tt.pixelWidth.toNat / 8) = tt.pixelWidth.toNat := by decide +kernel
  exact this tt ht

/-- The mean of the samples of a block is the mean of its LF samples, for all types but DCT 4×4, whatever the other coefficients are. -/
theorem C67_mean {B : Nat → Nat → ℝ} (hB : AFVExact B) {tt : TransformType} (ht : tt ∈ allDCT) (h2 : tt.method ≠ 2) (bottom right : Bool) {scale : Nat → Nat → ℝ} (h0 : scale 0 0 = 1)
    (lf high : Nat → Nat → ℝ) {f : Nat → Nat → ℝ} (hf : ∀ y x, f y x = if y < tt.pixelHeight.toNat / 8 ∧ x < tt.pixelWidth.toNat / 8 then
      lowValue exactCos scale (Nat.log2 (tt.pixelHeight.toNat / 8)) (Nat.log2 (tt.pixelWidth.toNat / 8)) lf y x else high y x) :
    mean 0 0 tt.pixelHeight.toNat tt.pixelWidth.toNat (blockSamples exactCos B tt bottom right f) = mean 0 0 (tt.pixelHeight.toNat / 8) (tt.pixelWidth.toNat / 8) lf := by
  obtain ⟨hp, e1, e2, _, _, e3, e4⟩ := eighth_sizes ht
  have hs := sum_block hB ht h2 bottom right f
  rw [hf 0 0, if_pos hp, first_low h0, e1, e2] at hs
  have n1 : ((tt.pixelHeight.toNat : Nat) : ℝ) ≠ 0 := by
    have : tt.pixelHeight.toNat ≠ 0 := by omega
    exact_mod_cast this
  have n2 : ((tt.pixelWidth.toNat : Nat) : ℝ) ≠ 0 := by
    have : tt.pixelWidth.toNat ≠ 0 := by omega
    exact_mod_cast this
  rw [mean]
  simp only [Nat.zero_add]
  rw [hs, mul_div_cancel_left₀ _ (mul_ne_zero n1 n2)]

/-- If a DCT block has low frequencies only, the mean of each of its 8×8 parts is the LF sample of the part. -/
theorem C67_parts (B : Nat → Nat → ℝ) {tt : TransformType} (ht : tt ∈ allDCT) (h0 : tt.method = 0) (bottom right : Bool)
    (lf : Nat → Nat → ℝ) {f : Nat → Nat → ℝ} (hf : ∀ y x, f y x = if y < tt.pixelHeight.toNat / 8 ∧ x < tt.pixelWidth.toNat / 8 then
      lowValue exactCos (fun i j => lowScale i * lowScale j) (Nat.log2 (tt.pixelHeight.toNat / 8)) (Nat.log2 (tt.pixelWidth.toNat / 8)) lf y x else 0)
    {j i : Nat} (hj : j < tt.pixelHeight.toNat / 8) (hi : i < tt.pixelWidth.toNat / 8) :
    mean (8 * j) (8 * i) 8 8 (blockSamples exactCos B tt bottom right f) = lf j i := by
  obtain ⟨hp, e1, e2, l1, l2, e3, e4⟩ := eighth_sizes ht
  have g1 : 2 ^ Nat.log2 tt.pixelHeight.toNat = tt.pixelHeight.toNat ∧ 2 ^ Nat.log2 tt.pixelWidth.toNat = tt.pixelWidth.toNat := by
    have : ∀ tt ∈ allDCT, 2 ^ Nat.log2 tt.pixelHeight.toNat = tt.pixelHeight.toNat ∧ 2 ^ Nat.log2 tt.pixelWidth.toNat = tt.pixelWidth.toNat := by decide +kernel
    exact this tt ht
  have key := sum_part l1 l2 lf (f := f) (fun m n => by
    rw [hf, e1, e2]
    by_cases h : m < tt.pixelHeight.toNat / 8 ∧ n < tt.pixelWidth.toNat / 8
    · rw [if_pos h, if_pos h, lowValue_real _ _ _ lf (by omega) (by omega), e1, e2]
    · rw [if_neg h, if_neg h]) (j := j) (i := i) (by omega) (by omega)
  rw [e1, e2, e3, e4] at key
  have hs : ∑ y ∈ range 8, ∑ x ∈ range 8, blockSamples exactCos B tt bottom right f (8 * j + y) (8 * i + x) = 64 * lf j i := by
    rw [← key]
    refine sum_congr rfl fun y hy => sum_congr rfl fun x hx => ?_
    have := mem_range.1 hy
    have := mem_range.1 hx
    unfold blockSamples
    rw [if_pos h0, dctSamples_real _ _ _ (by omega) (by omega), g1.1, g1.2]
  unfold mean
  rw [hs]
  norm_num

/-- The two together, from the stream: after decoding a group of a frame without subsampling, the mean of the samples of every block is the mean of its LF samples. -/
theorem C67_stream_partial {I : CodedGroup ℝ} {h w : Nat} {l : List Block} (F : Spec.Tiled h w l) (h44 : ∀ b ∈ l, b.type ≠ 3) (g gl : Nat × Nat) {weights : List (List (List (List ℝ)))}
    {factors bias : List ℝ} {p : CflParams ℝ} {quantized : List (List (List Int))} {lf : List (List (List ℝ))} {lut : List (List (List ℝ))}
    (hl : HasTables lut exactCos) {basis : List (List ℝ)} {B : Nat → Nat → ℝ} (hB : HasBlock 0 0 16 16 B basis) (hE : AFVExact B)
    (hS : Stored I (fun _ => groupRows h g.1) (fun _ => groupRows w g.2) (fun _ => h) (fun _ => w) ((h + 7) / 8) ((w + 7) / 8) weights factors bias p quantized lf)
    {planes : List (List (List ℝ))} (h3 : planes.length = 3) (hT : ∀ (c : Nat) m, planes[c]? = some m → Table (groupRows h g.1) (groupRows w g.2) m)
    {s0 s1 : List (List ℝ)} (t0 : Table 32 32 s0) (t1 : Table 32 32 s1)
    {H W : Nat} {fb : List (List (List ℝ))} (h3' : fb.length = 3) (hT' : ∀ (c : Nat) m, fb[c]? = some m → Table H W m) (hH : 256 * gl.1 + groupRows h g.1 ≤ H) (hW : 256 * gl.2 + groupRows w g.2 ≤ W)
    {t : Scratch ℝ} (ht : t.Ok) :
    ∃ m blocks ps fb' t', newHFMetadata h w (l.reverse.map (fun b => ((b.type : Int), b.mul - 1))) = .ok (l.reverse.map (fun b => (⟨b.y, b.x⟩ : Point)), m) ∧
      groupQBlocks (32 * g.1, 32 * g.2) m (l.reverse.map (fun b => (⟨b.y, b.x⟩ : Point))) = .ok blocks ∧
      bakeDequantizedCoeffs lut (fun i j => lowScale i * lowScale j) weights factors bias I.numerator p quantized lf [(0, 0), (0, 0), (0, 0)] (32 * g.1, 32 * g.2) blocks planes (s0, s1) = .ok ps ∧
      invertVarDCT lut basis false ps [(0, 0), (0, 0), (0, 0)] gl (blocks.map QBlock.toVBlock) fb t = .ok (fb', t') ∧
      ∀ b ∈ l, b.y / 32 = g.1 → b.x / 32 = g.2 → ∀ c, c < 3 → ∃ plane, fb'[c]? = some plane ∧
        mean (256 * gl.1 + 8 * (b.y - 32 * g.1)) (256 * gl.2 + 8 * (b.x - 32 * g.2)) (8 * b.rows) (8 * b.cols) (fun y x => (sample plane y x).getD 0) =
          mean b.y b.x b.rows b.cols (I.lf c) := by
  obtain ⟨m, blocks, ps, fb', t', k1, k2, k3, k4, _, k5, _⟩ := C68_stream_partial F h44 g gl (fun i j => lowScale i * lowScale j) hl hB hS h3 hT t0 t1 h3' hT' hH hW ht
  refine ⟨m, blocks, ps, fb', t', k1, k2, k3, k4, ?_⟩
  intro b hb hy hx c hc
  obtain ⟨plane, q1, _, q3⟩ := k5 b hb hy hx c hc
  refine ⟨plane, q1, ?_⟩
  have hi := laid_inside F.laid b hb
  obtain ⟨d0, d3, d1, d2⟩ := block_tt hi.1
  have hm2 : b.tt.method ≠ 2 := by
    intro hm2
    have key : ∀ t : Fin 27, ∀ tt ∈ allDCT[t.1]?, tt.method = 2 → t.1 = 3 := by decide
    exact h44 b hb (key ⟨b.type, hi.1⟩ b.tt d3 hm2)
  have hp := eighth_sizes d0
  have r1 : b.tt.pixelHeight.toNat = 8 * b.rows := by omega
  have r2 : b.tt.pixelWidth.toNat = 8 * b.cols := by omega
  have key := C67_mean hE d0 hm2 false false (scale := fun i j => lowScale i * lowScale j) (by simp [lowScale_zero]) (fun y x => I.lf c (b.y + y) (b.x + x)) _
    (f := I.formatCoeff exactCos (fun i j => lowScale i * lowScale j) (32 * g.1, 32 * g.2) (b.y, b.x) c b.tt b.mul) (fun y x => rfl)
  rw [r1, r2, show 8 * b.rows / 8 = b.rows by omega, show 8 * b.cols / 8 = b.cols by omega] at key
  have e : mean (256 * gl.1 + 8 * (b.y - 32 * g.1)) (256 * gl.2 + 8 * (b.x - 32 * g.2)) (8 * b.rows) (8 * b.cols) (fun y x => (sample plane y x).getD 0) =
      mean 0 0 (8 * b.rows) (8 * b.cols) (blockSamples exactCos B b.tt false false (I.formatCoeff exactCos (fun i j => lowScale i * lowScale j) (32 * g.1, 32 * g.2) (b.y, b.x) c b.tt b.mul)) := by
    unfold mean
    congr 1
    refine sum_congr rfl fun y hy => sum_congr rfl fun x hx => ?_
    beta_reduce
    rw [q3 y x (mem_range.1 hy) (mem_range.1 hx), Nat.zero_add, Nat.zero_add]
    rfl
  rw [e, key]
  unfold mean
  simp only [Nat.zero_add]

/-- A basis as the theorems want it. -/
example : AFVExact (fun j k => if j = 0 then 1 / 4 else if k = 0 then 1 else if k = 1 then -1 else 0) := by
  refine ⟨fun k _ => if_pos rfl, fun j h1 _ => ?_⟩
  simp only [show j ≠ 0 by omega, if_false]
  simp [sum_range_succ]

/-- A block of 16 rows and 8 columns: the LF samples 3 and 5 become the means of its upper and its lower half. -/
example (B : Nat → Nat → ℝ) : ∃ tt ∈ allDCT, tt.pixelHeight = 16 ∧ tt.pixelWidth = 8 ∧ ∃ f : Nat → Nat → ℝ,
    mean 0 0 8 8 (blockSamples exactCos B tt false false f) = 3 ∧ mean 8 0 8 8 (blockSamples exactCos B tt false false f) = 5 := by
  refine ⟨_, List.getElem_mem (l := allDCT) (n := 6) (by decide), by decide, by decide, _,
    C67_parts B (List.getElem_mem (by decide)) (by decide) false false (fun y _ => if y = 0 then 3 else 5) (fun _ _ => rfl) (j := 0) (i := 0) (by decide) (by decide),
    (C67_parts B (List.getElem_mem (by decide)) (by decide) false false (fun y _ => if y = 0 then 3 else 5) (fun _ _ => rfl) (j := 1) (i := 0) (by decide) (by decide)).trans (if_neg (by decide))⟩

end Jxl
