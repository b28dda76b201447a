import Verif.Proofs.Image
import Verif.Proofs.Samples

/-! # Sample conversions (C36) -/
namespace Jxl

/-- A new buffer is a picture of zeros of the given size; other types and sizes are rejected. -/
theorem C36_new (t h w : Int) :
    (t = 0 → 0 ≤ h → h ≤ 2 ^ 30 → 0 ≤ w → w ≤ 2 ^ 30 → ∃ b, newImageBuffer t h w = .ok b ∧ b.IntPicture h.toNat w.toNat ∧
      ∀ y x, y < h.toNat → x < w.toNat → sample b.ints y x = some 0) ∧
    (t = 1 → 0 ≤ h → h ≤ 2 ^ 30 → 0 ≤ w → w ≤ 2 ^ 30 → ∃ b, newImageBuffer t h w = .ok b ∧ b.FloatPicture h.toNat w.toNat ∧
      ∀ y x, y < h.toNat → x < w.toNat → sample b.floats y x = some (.fin 0)) ∧
    ((t ≠ 0 ∧ t ≠ 1) ∨ h < 0 ∨ 2 ^ 30 < h ∨ w < 0 ∨ 2 ^ 30 < w → newImageBuffer t h w = .err) := by
  have zeros : ∀ {α : Type} (z : α) (h w y x : Nat), y < h → x < w → sample (List.replicate h (List.replicate w z)) y x = some z := by
    intro α z h w y x hy hx
    simp [sample, hy, hx]
  refine ⟨fun ht h0 h1 w0 w1 => ?_, fun ht h0 h1 w0 w1 => ?_, fun hbad => ?_⟩
  · subst ht
    refine ⟨⟨w, h, 0, [], List.replicate h.toNat (List.replicate w.toNat 0)⟩, ?_, ⟨rfl, ?_, ?_, table_replicate _ _ _⟩, fun y x => zeros 0 _ _ y x⟩
    · unfold newImageBuffer
      rw [if_neg (by omega), if_neg (by omega), if_pos rfl]
      unfold makeMatrix
      rw [if_neg (by omega), if_neg (by omega)]
      rfl
    · show h = (h.toNat : Int); omega
    · show w = (w.toNat : Int); omega
  · subst ht
    refine ⟨⟨w, h, 1, List.replicate h.toNat (List.replicate w.toNat (F32.fin 0)), []⟩, ?_, ⟨rfl, ?_, ?_, table_replicate _ _ _⟩, fun y x => zeros (F32.fin 0) _ _ y x⟩
    · unfold newImageBuffer
      rw [if_neg (by omega), if_neg (by omega), if_neg (by omega)]
      unfold makeMatrix
      rw [if_neg (by omega), if_neg (by omega)]
      rfl
    · show h = (h.toNat : Int); omega
    · show w = (w.toNat : Int); omega
  · unfold newImageBuffer
    by_cases ht : t ≠ 0 ∧ t ≠ 1
    · rw [if_pos ht]
    · rw [if_neg ht, if_pos (by omega)]

/-- Clamping replaces every sample by the nearest value in `[0, m]` and keeps the size. -/
theorem C36_clamp (b : ImageBuffer) (h w : Nat) (m : Int) (hm : 0 ≤ m) (hb : b.IntPicture h w) :
    ∃ b', clampBuffer b m = .ok b' ∧ b'.IntPicture h w ∧
      ∀ y x, y < h → x < w → sample b'.ints y x = (sample b.ints y x).map (nearest m) := by
  obtain ⟨ht, hh, hw, hT⟩ := hb
  have hg : ∀ y x, ∃ v, y < h → x < w → sample b.ints y x = some v := by
    intro y x
    by_cases hyx : y < h ∧ x < w
    · obtain ⟨v, hv⟩ := hT.sample hyx.1 hyx.2
      exact ⟨v, fun _ _ => hv⟩
    · exact ⟨0, fun a b => absurd ⟨a, b⟩ hyx⟩
  choose g hg' using hg
  obtain ⟨d, e, t, s⟩ := fillLoop_ok (h := h) (w := w) (fun y x => do
      let v ← at2 b.ints y x
      .ok (if v < 0 then 0 else if m < v then m else v)) (fun y x => nearest m (g y x)) _ (table_replicate 0 h w)
    (fun y x hy hx => by
      rw [at2_sample (hg' y x hy hx), Res.bind_ok]
      unfold nearest
      congr 1
      split_ifs <;> omega)
  refine ⟨{ b with ints := d }, ?_, ⟨ht, hh, hw, t⟩, ?_⟩
  · unfold clampBuffer ImageBuffer.isFloat
    rw [ht, if_neg (by decide), hh, hw, makeMatrix_table, Res.bind_ok, Int.toNat_natCast, Int.toNat_natCast, e]
    rfl
  · intro y x hy hx
    rw [hg' y x hy hx]
    exact s y x hy hx

/-- `nearest m v` is in `[0, m]`, equals `v` if `v` is, and is nearer to `v` than any other value of the range. -/
theorem C36_nearest (m v : Int) (hm : 0 ≤ m) :
    0 ≤ nearest m v ∧ nearest m v ≤ m ∧ (0 ≤ v → v ≤ m → nearest m v = v) ∧ nearest m (nearest m v) = nearest m v ∧
    ∀ u, 0 ≤ u → u ≤ m → (nearest m v - v).natAbs ≤ (u - v).natAbs := by
  unfold nearest
  refine ⟨by omega, by omega, by omega, by omega, fun u _ _ => by omega⟩

/-- Clamping a picture whose samples are in range changes nothing; so clamping twice is clamping once. -/
theorem C36_clamp_id (b : ImageBuffer) (h w : Nat) (m : Int) (hm : 0 ≤ m) (hb : b.IntPicture h w)
    (hr : ∀ y x v, sample b.ints y x = some v → 0 ≤ v ∧ v ≤ m) : clampBuffer b m = .ok b := by
  obtain ⟨b', e, p, s⟩ := C36_clamp b h w m hm hb
  have hi : b'.ints = b.ints := p.2.2.2.ext hb.2.2.2 (fun y x hy hx => by
    rw [s y x hy hx]
    obtain ⟨v, hv⟩ := hb.2.2.2.sample hy hx
    rw [hv]
    have := hr y x v hv
    simp only [Option.map_some]
    rw [(C36_nearest m v hm).2.2.1 this.1 this.2])
  rw [e]
  congr 1
  obtain ⟨w', h', t', f', i'⟩ := b'
  obtain ⟨w0, h0, t0, f0, i0⟩ := b
  simp only at hi
  subst hi
  have hfl : f' = f0 := by
    unfold clampBuffer at e
    split at e
    · cases e
    · rename_i hf
      cases hmk : makeMatrix (0 : Int) h0 w0 with
      | ok mm =>
        simp only [hmk, Res.bind_ok] at e
        generalize hfl : fillLoop h0.toNat w0.toNat _ mm = fl at e
        cases fl <;> simp_all
      | err => simp [hmk] at e
      | panic => simp [hmk] at e
  have a := p.1
  have b := p.2.1
  have c := p.2.2.1
  have a' := hb.1
  have b' := hb.2.1
  have c' := hb.2.2.1
  simp only at a b c a' b' c'
  rw [hfl, a, b, c, a', b', c']

/-- Converting integers to floats keeps the size; a maximum below 1 is rejected. -/
theorem C36_to_float (b : ImageBuffer) (h w : Nat) (m : Int) (hb : b.IntPicture h w) :
    (1 ≤ m → ∃ b', castToFloatIfMax b m = .ok b' ∧ b'.FloatPicture h w ∧
      ∀ y x, y < h → x < w → sample b'.floats y x =
        (sample b.ints y x).map (fun v => F32.mul (F32.ofInt v) (F32.div (.fin 1) (F32.ofInt m)))) ∧
    (m < 1 → castToFloatIfMax b m = .err) := by
  obtain ⟨ht, hh, hw, hT⟩ := hb
  constructor
  · intro hm
    have hg : ∀ y x, ∃ v, y < h → x < w → sample b.ints y x = some v := by
      intro y x
      by_cases hyx : y < h ∧ x < w
      · obtain ⟨v, hv⟩ := hT.sample hyx.1 hyx.2
        exact ⟨v, fun _ _ => hv⟩
      · exact ⟨0, fun a b => absurd ⟨a, b⟩ hyx⟩
    choose g hg' using hg
    obtain ⟨d, e, t, s⟩ := fillLoop_ok (h := h) (w := w) (fun y x => do
        let v ← at2 b.ints y x
        .ok (F32.mul (F32.ofInt v) (F32.div (.fin 1) (F32.ofInt m)))) (fun y x => F32.mul (F32.ofInt (g y x)) (F32.div (.fin 1) (F32.ofInt m))) _ (table_replicate (.fin 0) h w)
      (fun y x hy hx => by rw [at2_sample (hg' y x hy hx), Res.bind_ok])
    refine ⟨{ b with bufferType := 1, floats := d }, ?_, ⟨rfl, hh, hw, t⟩, ?_⟩
    · unfold castToFloatIfMax castToFloatBuffer
      rw [ht, if_neg (by decide), if_neg (by decide), if_neg (by omega), hh, hw, makeMatrix_table, Res.bind_ok, Int.toNat_natCast, Int.toNat_natCast]
      dsimp only
      rw [e]
      rfl
    · intro y x hy hx
      rw [hg' y x hy hx]
      exact s y x hy hx
  · intro hm
    unfold castToFloatIfMax castToFloatBuffer
    rw [ht, if_neg (by decide), if_neg (by decide), if_pos hm]

/-- Converting floats to integers keeps the size, converts sample by sample, and every result is in `[0, m]`, whatever the
floats are (also infinities and NaN) and whatever the processor does with numbers that do not fit. -/
theorem C36_to_int (I : FloatImpl) (b : ImageBuffer) (h w : Nat) (m : Int) (hb : b.FloatPicture h w) (hm : 1 ≤ m) :
    ∃ b', castToIntIfMax I b m = .ok b' ∧ b'.IntPicture h w ∧
      (∀ y x, y < h → x < w → sample b'.ints y x = (sample b.floats y x).map (sampleToInt I m)) ∧
      ∀ y x v, sample b'.ints y x = some v → 0 ≤ v ∧ v ≤ m := by
  obtain ⟨ht, hh, hw, hT⟩ := hb
  have hg : ∀ y x, ∃ v, y < h → x < w → sample b.floats y x = some v := by
    intro y x
    by_cases hyx : y < h ∧ x < w
    · obtain ⟨v, hv⟩ := hT.sample hyx.1 hyx.2
      exact ⟨v, fun _ _ => hv⟩
    · exact ⟨.nan, fun a b => absurd ⟨a, b⟩ hyx⟩
  choose g hg' using hg
  obtain ⟨d, e, t, s⟩ := fillLoop_ok (h := h) (w := w) (fun y x => do
      let v ← at2 b.floats y x
      .ok (sampleToInt I m v)) (fun y x => sampleToInt I m (g y x)) _ (table_replicate 0 h w)
    (fun y x hy hx => by rw [at2_sample (hg' y x hy hx), Res.bind_ok])
  refine ⟨{ b with bufferType := 0, ints := d }, ?_, ⟨rfl, hh, hw, t⟩, ?_, ?_⟩
  · unfold castToIntIfMax castToIntBuffer
    rw [ht, if_neg (by decide), if_neg (by decide), if_neg (by omega), hh, hw, makeMatrix_table, Res.bind_ok, Int.toNat_natCast, Int.toNat_natCast, e]
    rfl
  · intro y x hy hx
    rw [hg' y x hy hx]
    exact s y x hy hx
  · intro y x v hv
    by_cases hyx : y < h ∧ x < w
    · have := s y x hyx.1 hyx.2
      rw [show sample d y x = some v from hv] at this
      cases this
      unfold sampleToInt
      dsimp only
      split_ifs <;> omega
    · rw [show sample d y x = none from t.sample_none (by omega)] at hv
      cases hv

/-- One sample: from `m` to floats and back to `n`, the result is the exact proportion `v·n/m` rounded to an integer, up to an
error of `8n/2^24`. Holds with and without fused multiply-add. -/
theorem C36_rescale (I : FloatImpl) (v m n : ℤ) (h0 : 0 ≤ v) (hv : v ≤ m) (h1 : 1 ≤ m) (hm : m < 2 ^ 20) (hn : 1 ≤ n) (hn' : n < 2 ^ 20) :
    |(sampleToInt I n (F32.mul (F32.ofInt v) (F32.div (.fin 1) (F32.ofInt m))) : ℚ) - (v : ℚ) * n / m| ≤ 1 / 2 + 8 * n / 16777216 := by
  obtain ⟨r, e, hr⟩ := rescale_err I v m n h0 hv h1 (by omega) hn (by omega)
  have hmq : (0 : ℚ) < m := by exact_mod_cast (by omega : 0 < m)
  have hnq : (1 : ℚ) ≤ n := by exact_mod_cast hn
  have hnq2 : (n : ℚ) ≤ 1048576 := by exact_mod_cast (by omega : n ≤ 1048576)
  have hvq : (0 : ℚ) ≤ v := by exact_mod_cast h0
  have hvm : (v : ℚ) ≤ m := by exact_mod_cast hv
  have ht0 : 0 ≤ (v : ℚ) * n / m := by positivity
  have ht1 : (v : ℚ) * n / m ≤ n := by
    rw [div_le_iff₀ hmq]
    nlinarith
  generalize (v : ℚ) * n / m = t at *
  rw [abs_le] at hr
  have hr0 : 0 ≤ r := by linarith [hr.1]
  rw [sampleToInt_fin I n _ r e hr0 (by linarith [hr.2])]
  have f1 := Int.floor_le r
  have f2 := Int.lt_floor_add_one r
  split_ifs with hc
  · have : ((n + 1 : ℤ) : ℚ) ≤ ⌊r⌋ := by exact_mod_cast hc
    push_cast at this
    rw [abs_le]
    constructor <;> linarith [hr.1, hr.2]
  · rw [abs_le]
    constructor <;> linarith [hr.1, hr.2]

/-- One sample comes back unchanged if the maximum is below 2^20. -/
theorem sample_roundtrip (I : FloatImpl) (v m : ℤ) (h0 : 0 ≤ v) (hv : v ≤ m) (h1 : 1 ≤ m) (hm : m < 2 ^ 20) :
    sampleToInt I m (F32.mul (F32.ofInt v) (F32.div (.fin 1) (F32.ofInt m))) = v := by
  obtain ⟨r, e, hr⟩ := rescale_err I v m m h0 hv h1 (by omega) h1 (by omega)
  have hmq : (0 : ℚ) < m := by exact_mod_cast (by omega : 0 < m)
  have hm2 : (m : ℚ) ≤ 1048576 := by exact_mod_cast (by omega : m ≤ 1048576)
  have hvq : (0 : ℚ) ≤ v := by exact_mod_cast h0
  have hvm : (v : ℚ) ≤ m := by exact_mod_cast hv
  have ed : (v : ℚ) * m / m = v := by field_simp
  rw [ed, abs_le] at hr
  have hr0 : 0 ≤ r := by linarith [hr.1]
  rw [sampleToInt_fin I m _ r e hr0 (by linarith [hr.2])]
  have : ⌊r⌋ = v := by
    rw [Int.floor_eq_iff]
    constructor <;> linarith [hr.1, hr.2]
  rw [this, if_neg (by omega)]

/-- C36, proved part of the round trip: a picture whose samples are in `[0, m]`, `m < 2^20` (bit depths up to 20), survives
conversion to floats and back. Missing: larger maxima, for which it is false (see below). -/
theorem C36_roundtrip_partial (I : FloatImpl) (b : ImageBuffer) (h w : Nat) (m : Int) (h1 : 1 ≤ m) (hm : m < 2 ^ 20) (hb : b.IntPicture h w)
    (hr : ∀ y x v, sample b.ints y x = some v → 0 ≤ v ∧ v ≤ m) :
    ∃ f b', castToFloatIfMax b m = .ok f ∧ f.FloatPicture h w ∧ castToIntIfMax I f m = .ok b' ∧ b'.IntPicture h w ∧ b'.ints = b.ints := by
  obtain ⟨f, e1, p1, s1⟩ := (C36_to_float b h w m hb).1 h1
  obtain ⟨b', e2, p2, s2, _⟩ := C36_to_int I f h w m p1 h1
  refine ⟨f, b', e1, p1, e2, p2, p2.2.2.2.ext hb.2.2.2 (fun y x hy hx => ?_)⟩
  rw [s2 y x hy hx, s1 y x hy hx]
  obtain ⟨v, hv⟩ := hb.2.2.2.sample hy hx
  have := hr y x v hv
  rw [hv]
  simp only [Option.map_some]
  rw [sample_roundtrip I v m this.1 this.2 h1 hm]

/-- The full round trip is false: with 24 bits a sample comes back changed (on a processor without fused multiply-add, such as
amd64). -/
theorem C36_roundtrip_24_bits : ∃ b f b', b.IntPicture 1 1 ∧ sample b.ints 0 0 = some 8388609 ∧ castToFloatIfMax b (2 ^ 24 - 1) = .ok f ∧
    castToIntIfMax ⟨false, fun _ => -2147483648⟩ f (2 ^ 24 - 1) = .ok b' ∧ sample b'.ints 0 0 = some 8388610 := by
  refine ⟨⟨1, 1, 0, [], [[8388609]]⟩, ⟨1, 1, 1, [[.fin (4194305 / 8388608)]], [[8388609]]⟩, ⟨1, 1, 0, [[.fin (4194305 / 8388608)]], [[8388610]]⟩,
    ⟨rfl, rfl, rfl, rfl, by decide⟩, rfl, by decide +kernel, by decide +kernel, rfl⟩

/-- Floats beyond the range saturate as long as the scaled value fits into an `int32`: white stays white … -/
theorem C36_saturates_partial (I : FloatImpl) (m : ℤ) (q : ℚ) (h1 : 1 ≤ m) (hm : m < 2 ^ 20) :
    (1 ≤ q → q * m ≤ 2 ^ 30 → sampleToInt I m (.fin q) = m) ∧ (q ≤ 0 → -2 ^ 30 ≤ q * m → sampleToInt I m (.fin q) = 0) := by
  have hmq : (1 : ℚ) ≤ m := by exact_mod_cast h1
  have hm2 : (m : ℚ) ≤ 1048576 := by exact_mod_cast (by omega : m ≤ 1048576)
  have hof : F32.ofInt m = .fin m := by rw [F32.ofInt, F32.round_int m (by rw [abs_of_pos (by omega)]; omega)]
  constructor
  · intro hq hqm
    have ht : (m : ℚ) ≤ q * m := by nlinarith
    obtain ⟨r, e, hr⟩ := mulAdd_half I q m (by linarith) (by norm_num at hqm; linarith) (Or.inr (by linarith))
    rw [abs_le] at hr
    rw [sampleToInt_fin I m _ r (by rw [hof]; exact e) (by norm_num at hqm; linarith [hr.1]) (by norm_num at hqm; linarith [hr.2])]
    generalize q * (m : ℚ) = t at *
    have : m ≤ ⌊r⌋ := by
      rw [Int.le_floor]
      norm_num at hqm
      linarith [hr.1]
    split_ifs <;> omega
  · intro hq hqm
    have ht : q * m ≤ 0 := by nlinarith
    have hbig : ∀ r : ℚ, I.mulAdd (.fin q) (F32.ofInt m) (.fin (1 / 2)) = .fin r → r < 1 → -2147483648 ≤ r → sampleToInt I m (.fin q) = 0 := by
      intro r e hr hr'
      unfold sampleToInt
      rw [e]
      have : F32.toI32 I.big (.fin r) ≤ 0 := by
        simp only [F32.toI32]
        by_cases h0 : 0 ≤ r
        · rw [if_pos h0]
          have : ⌊r⌋ = 0 := by rw [Int.floor_eq_iff]; constructor <;> norm_num <;> linarith
          rw [this]
          norm_num
        · rw [if_neg h0]
          have u : ⌈r⌉ ≤ 0 := by rw [Int.ceil_le]; push_cast; linarith
          have l : -2147483648 ≤ ⌈r⌉ := by
            have := Int.le_ceil r
            have h3 : ((-2147483648 : ℤ) : ℚ) ≤ ⌈r⌉ := by push_cast; linarith
            exact_mod_cast h3
          rw [if_pos (by omega)]
          exact u
      dsimp only
      split_ifs <;> omega
    by_cases hI : I.fused
    · have e : I.mulAdd (.fin q) (F32.ofInt m) (.fin (1 / 2)) = .fin (F32.near (q * m + 1 / 2)) := by
        unfold FloatImpl.mulAdd
        rw [if_pos hI, hof]
        show F32.round (q * m + 1 / 2) = _
        rw [F32.round_fin _ (by rw [abs_le]; norm_num at *; constructor <;> linarith)]
      have := F32.near_low (q * m + 1 / 2) (by linarith) (by norm_num at *; linarith)
      exact hbig _ e this.1 this.2
    · have hn := F32.near_upper (q * m) ht
      have hlow : -1073741824 - 64 ≤ F32.near (q * m) := F32.near_low' (q * m) ht (by norm_num at *; linarith)
      have e : I.mulAdd (.fin q) (F32.ofInt m) (.fin (1 / 2)) = .fin (F32.near (F32.near (q * m) + 1 / 2)) := by
        unfold FloatImpl.mulAdd
        rw [if_neg hI, hof]
        show F32.add (F32.round (q * m)) (.fin (1 / 2)) = _
        rw [F32.round_fin _ (by rw [abs_le]; norm_num at *; constructor <;> linarith)]
        show F32.round _ = _
        rw [F32.round_fin _ (by rw [abs_le]; norm_num at *; constructor <;> linarith)]
      generalize F32.near (q * m) = s at *
      by_cases hs : 0 ≤ s
      · have := F32.near_bounds (x := s + 1 / 2) (F32.tiny_le (by linarith))
        exact hbig _ e (by linarith [this.2]) (by linarith [this.1])
      · have := F32.near_low (s + 1 / 2) (by linarith) (by linarith)
        exact hbig _ e this.1 this.2

/-- … but on a processor whose conversion yields the most negative number when the value does not fit (amd64), an infinitely bright
sample becomes black. -/
theorem C36_bright_is_black (fused : Bool) (m : Int) (h1 : 1 ≤ m) (hm : m < 2 ^ 20) :
    sampleToInt ⟨fused, fun _ => -2147483648⟩ m (.inf false) = 0 := by
  have hof : F32.ofInt m = .fin m := by rw [F32.ofInt, F32.round_int m (by rw [abs_of_pos (by omega)]; omega)]
  have hmq : (0 : ℚ) < m := by exact_mod_cast (by omega : 0 < m)
  have e : FloatImpl.mulAdd ⟨fused, fun _ => -2147483648⟩ (.inf false) (F32.ofInt m) (.fin (1 / 2)) = .inf false := by
    have hmul : F32.mul (.inf false) (.fin m) = .inf false := by
      show (if (m : ℚ) = 0 then _ else F32.inf (false != decide ((m : ℚ) < 0))) = _
      rw [if_neg (ne_of_gt hmq), decide_eq_false (by linarith)]
      rfl
    rw [hof]
    cases fused
    · show F32.add (F32.mul _ _) _ = _
      rw [hmul]
      rfl
    · show F32.add (F32.mul _ _) _ = _
      rw [hmul]
      rfl
  unfold sampleToInt
  rw [e]
  rfl

/-- The hypotheses hold for a picture of three 8-bit samples. -/
example : (⟨3, 1, 0, [], [[0, 128, 255]]⟩ : ImageBuffer).IntPicture 1 3 ∧
    (∀ y x v, sample [[0, 128, 255]] y x = some v → (0 : Int) ≤ v ∧ v ≤ 255) ∧
    clampBuffer ⟨3, 1, 0, [], [[-5, 128, 300]]⟩ 255 = .ok ⟨3, 1, 0, [], [[0, 128, 255]]⟩ := by
  refine ⟨⟨rfl, rfl, rfl, rfl, by decide⟩, ?_, by decide⟩
  intro y x v hv
  unfold sample at hv
  rcases y with _ | y
  · simp only [List.getElem?_cons_zero, Option.bind_some] at hv
    have : v ∈ [(0 : Int), 128, 255] := List.mem_of_getElem? hv
    simp only [List.mem_cons, List.not_mem_nil, or_false] at this
    omega
  · simp at hv
/-- 5-bit to 8-bit: 31 becomes 255, 16 becomes 132. -/
example : sampleToInt ⟨false, fun _ => 0⟩ 255 (F32.mul (F32.ofInt 31) (F32.div (.fin 1) (F32.ofInt 31))) = 255 ∧
    sampleToInt ⟨true, fun _ => 0⟩ 255 (F32.mul (F32.ofInt 16) (F32.div (.fin 1) (F32.ofInt 31))) = 132 := by decide +kernel

end Jxl
