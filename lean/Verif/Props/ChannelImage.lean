import Verif.Model.ChannelImage
import Verif.Proofs.Samples
import Verif.Proofs.JXLImage
import Verif.Proofs.Image
import Verif.Proofs.Output

/-! # C93: single channels of a decoded image -/
namespace Jxl

/-- Rounding a number below 2²⁴ does not pass an integer. -/
theorem near_int_le {x : ℚ} {k : ℤ} (hx : |x| < 16777216) : ((k : ℚ) ≤ x → (k : ℚ) ≤ F32.near x) ∧ (x ≤ (k : ℚ) → F32.near x ≤ (k : ℚ)) := by
  have he : F32.ulpExp x ≤ 0 := by
    unfold F32.ulpExp
    have : Int.log 2 |x| ≤ 23 := by
      by_cases h0 : |x| = 0
      · rw [h0, Int.log_zero_right]; norm_num
      · have : Int.log 2 |x| < 24 := (Int.lt_zpow_iff_log_lt (by norm_num) (lt_of_le_of_ne (abs_nonneg x) (Ne.symm h0))).mp (by norm_num; exact hx)
        omega
    omega
  obtain ⟨n, hn⟩ : ∃ n : ℕ, F32.ulpExp x = -(n : ℤ) := ⟨(-F32.ulpExp x).toNat, by omega⟩
  have hp : (0 : ℚ) < 2 ^ n := by positivity
  have hk : ((k * 2 ^ n : ℤ) : ℚ) = k * 2 ^ n := by push_cast; rfl
  unfold F32.near
  rw [hn, zpow_neg, zpow_natCast, div_inv_eq_mul]
  constructor
  · intro h
    have h1 := roundEven_mono (mul_le_mul_of_nonneg_right h hp.le)
    rw [← hk, roundEven_int] at h1
    have h2 : ((k * 2 ^ n : ℤ) : ℚ) ≤ (roundEven (x * 2 ^ n) : ℚ) := by exact_mod_cast h1
    rw [hk] at h2
    rw [← div_eq_mul_inv, le_div_iff₀ hp]
    exact h2
  · intro h
    have h1 := roundEven_mono (mul_le_mul_of_nonneg_right h hp.le)
    rw [← hk, roundEven_int] at h1
    have h2 : (roundEven (x * 2 ^ n) : ℚ) ≤ ((k * 2 ^ n : ℤ) : ℚ) := by exact_mod_cast h1
    rw [hk] at h2
    rw [← div_eq_mul_inv, div_le_iff₀ hp]
    exact h2

theorem byteOf_toNat {v : Int} (h0 : 0 ≤ v) (h1 : v ≤ 255) : ((byteOf v).toNat : Int) = v := by
  unfold byteOf
  rw [UInt8.toNat_ofNat']
  omega

/-- A value in [0, 1] becomes one of the two bytes next to 255 times the value. -/
theorem toByte_between (I : FloatImpl) {q : ℚ} (h0 : 0 ≤ q) (h1 : q ≤ 1) :
    ⌊255 * q⌋ ≤ ((F32.toByte I (F32.mul (.fin q) (F32.ofInt 255))).toNat : Int) ∧ ((F32.toByte I (F32.mul (.fin q) (F32.ofInt 255))).toNat : Int) ≤ ⌈255 * q⌉ := by
  have hm : F32.mul (.fin q) (F32.ofInt 255) = .fin (F32.near (255 * q)) := by
    unfold F32.ofInt
    rw [F32.round_int 255 (by norm_num)]
    show F32.round (q * ((255 : ℤ) : ℚ)) = _
    rw [show q * ((255 : ℤ) : ℚ) = 255 * q by push_cast; ring]
    exact F32.round_fin _ (by rw [abs_of_nonneg (by positivity)]; norm_num; linarith)
  have hx : |255 * q| < 16777216 := by rw [abs_of_nonneg (by positivity)]; linarith
  have a := (near_int_le (k := ⌊255 * q⌋) hx).1 (Int.floor_le _)
  have b := (near_int_le (k := ⌈255 * q⌉) hx).2 (Int.le_ceil _)
  have z := (near_int_le (k := 0) hx).1 (by norm_num; linarith)
  have t := (near_int_le (k := 255) hx).2 (by norm_num; linarith)
  rw [hm]
  generalize F32.near (255 * q) = r at a b z t
  have f0 : 0 ≤ ⌊r⌋ := Int.le_floor.mpr z
  have f1 : ⌊r⌋ ≤ 255 := by
    have : (⌊r⌋ : ℚ) ≤ ((255 : ℤ) : ℚ) := (Int.floor_le r).trans t
    exact_mod_cast this
  have e : F32.toByte I (.fin r) = byteOf ⌊r⌋ := by
    unfold F32.toByte
    dsimp only
    have z' : 0 ≤ r := by exact_mod_cast z
    simp only [if_pos z']
    rw [if_pos ⟨f0, f1⟩]
  rw [e, byteOf_toNat f0 f1]
  refine ⟨Int.le_floor.mpr a, ?_⟩
  have : (⌊r⌋ : ℚ) ≤ (⌈255 * q⌉ : ℚ) := (Int.floor_le r).trans b
  exact_mod_cast this

/-- Bytes in rows. -/
theorem pixelRows_get {β : Type} (g : Nat → Nat → β) {w : Nat} : ∀ {h y x : Nat}, y < h → x < w → ((List.range h).flatMap (fun y => (List.range w).flatMap (fun x => [g y x])))[y * w + x]? = some (g y x)
  | 0, y, _, hy, _ => by omega
  | h + 1, y, x, hy, hx => by
    have len : ∀ h, ((List.range h).flatMap (fun y => (List.range w).flatMap (fun x => [g y x]))).length = h * w := by
      intro h
      simp [List.length_flatMap]
    rw [List.range_succ, List.flatMap_append]
    by_cases hyh : y < h
    · rw [List.getElem?_append_left]
      · exact pixelRows_get g hyh hx
      · rw [len]
        calc y * w + x < y * w + w := by omega
          _ = (y + 1) * w := by ring
          _ ≤ h * w := Nat.mul_le_mul_right w hyh
    · have : y = h := by omega
      subst this
      rw [List.getElem?_append_right (by rw [len]; omega), len, Nat.add_sub_cancel_left]
      simp only [List.flatMap_cons, List.flatMap_nil, List.append_nil, ← List.map_eq_flatMap]
      simp [hx]

theorem pixelRows_length {β : Type} (g : Nat → Nat → β) (w h : Nat) : ((List.range h).flatMap (fun y => (List.range w).flatMap (fun x => [g y x]))).length = h * w := by
  simp [List.length_flatMap]

/-- The buffer `c` holds the samples of `b`. -/
structure SameSamples (h w : Nat) (b c : ImageBuffer) : Prop where
  kind : c.bufferType = b.bufferType
  height : c.height = h
  width : c.width = w
  ints : b.bufferType = 0 → ∀ y x, y < h → x < w → sample c.ints y x = sample b.ints y x
  floats : b.bufferType = 1 → ∀ y x, y < h → x < w → sample c.floats y x = sample b.floats y x
  noInts : b.bufferType = 1 → c.ints = []
  noFloats : b.bufferType = 0 → c.floats = []

/-- Copies hold the same samples. -/
theorem copyOfBuffer_ok {b : ImageBuffer} {h w : Nat} (hh : h ≤ 2 ^ 30) (hw : w ≤ 2 ^ 30) (hb : b.IntPicture h w ∨ b.FloatPicture h w) :
    ∃ c, copyOfBuffer b = .ok c ∧ SameSamples h w b c := by
  unfold copyOfBuffer newImageBuffer
  rcases hb with ⟨t, eh, ew, T⟩ | ⟨t, eh, ew, T⟩
  · obtain ⟨m, e, -, s⟩ := fillLoop_ok (h := h) (w := w) (fun y x => at2 b.ints y x) (fun y x => (sample b.ints y x).getD 0) _ (table_replicate (0 : Int) h w) (fun y x hy hx => by
      obtain ⟨v, hv⟩ := T.sample hy hx
      rw [at2_sample hv, hv]; rfl)
    rw [t, eh, ew, if_neg (by decide), if_neg (by omega), if_pos rfl, makeMatrix_table, Res.bind_ok, Res.bind_ok, if_pos (by rfl)]
    simp only [Int.toNat_natCast]
    rw [e, Res.bind_ok]
    refine ⟨_, rfl, t.symm, rfl, rfl, fun _ y x hy hx => ?_, fun hk => absurd (t.symm.trans hk) (by decide), fun hk => absurd (t.symm.trans hk) (by decide), fun _ => rfl⟩
    obtain ⟨v, hv⟩ := T.sample hy hx
    rw [hv]
    show sample m y x = _
    rw [s y x hy hx, hv]; rfl
  · obtain ⟨m, e, -, s⟩ := fillLoop_ok (h := h) (w := w) (fun y x => at2 b.floats y x) (fun y x => (sample b.floats y x).getD (.fin 0)) _ (table_replicate (F32.fin 0) h w) (fun y x hy hx => by
      obtain ⟨v, hv⟩ := T.sample hy hx
      rw [at2_sample hv, hv]; rfl)
    rw [t, eh, ew, if_neg (by decide), if_neg (by omega), if_neg (by decide), makeMatrix_table, Res.bind_ok, Res.bind_ok, if_neg (by simp [ImageBuffer.isInt])]
    simp only [Int.toNat_natCast]
    rw [e, Res.bind_ok]
    refine ⟨_, rfl, t.symm, rfl, rfl, fun hk => absurd (t.symm.trans hk) (by decide), fun _ y x hy hx => ?_, fun _ => rfl, fun hk => absurd (t.symm.trans hk) (by decide)⟩
    obtain ⟨v, hv⟩ := T.sample hy hx
    rw [hv]
    show sample m y x = _
    rw [s y x hy hx, hv]; rfl

theorem copiesOfBuffers_ok {h w : Nat} (hh : h ≤ 2 ^ 30) (hw : w ≤ 2 ^ 30) : ∀ {bs : List ImageBuffer}, (∀ b ∈ bs, b.IntPicture h w ∨ b.FloatPicture h w) →
    ∃ cs, copiesOfBuffers bs = .ok cs ∧ cs.length = bs.length ∧ ∀ (i : Nat) (b : ImageBuffer), bs[i]? = some b → ∃ c, cs[i]? = some c ∧ SameSamples h w b c
  | [], _ => ⟨[], rfl, rfl, fun i b h => by simp at h⟩
  | b :: bs, hb => by
    obtain ⟨c, e, p⟩ := copyOfBuffer_ok hh hw (hb b (by simp))
    obtain ⟨cs, es, l, ps⟩ := copiesOfBuffers_ok hh hw (bs := bs) (fun b hb' => hb b (by simp [hb']))
    refine ⟨c :: cs, ?_, by simp [l], ?_⟩
    · unfold copiesOfBuffers
      rw [e, Res.bind_ok, es, Res.bind_ok]
    · intro i b' hi
      cases i with
      | zero =>
        simp only [List.getElem?_cons_zero, Option.some.injEq] at hi
        subst hi
        exact ⟨c, rfl, p⟩
      | succ i => exact ps i b' (by simpa using hi)

/-- **C93**, in part: the picture of a channel of integers up to 255 shows its samples. -/
theorem C93_int_partial (I : FloatImpl) {img : JXLImage} {h w : Nat} (hh : h ≤ 2 ^ 30) (hw : w ≤ 2 ^ 30) (hp : ∀ b ∈ img.buffers, b.IntPicture h w ∨ b.FloatPicture h w) {b0 b : ImageBuffer} {c : Nat}
    (h0 : img.buffers[0]? = some b0) (t0 : b0.bufferType = 0) (hc : img.buffers[c]? = some b) (t : b.bufferType = 0) (hr : ∀ y x v, sample b.ints y x = some v → 0 ≤ v ∧ v ≤ 255) :
    ∃ pix, channelToImage I img c = .ok ⟨true, w, h, pix⟩ ∧ pix.length = h * w ∧
      ∀ y x, y < h → x < w → (pix[y * w + x]?).map (fun p => (p.toNat : Int)) = sample b.ints y x := by
  obtain ⟨cs, e, l, ps⟩ := copiesOfBuffers_ok hh hw hp
  obtain ⟨c0, e0, ⟨ct0, ch0, cw0, -, -, -, -⟩⟩ := ps 0 b0 h0
  obtain ⟨cc, ec, ⟨-, -, -, s, -, -, -⟩⟩ := ps c b hc
  have T : Table h w b.ints := by
    rcases hp b (List.mem_of_getElem? hc) with ⟨-, -, -, T⟩ | ⟨t', -⟩
    · exact T
    · rw [t] at t'; cases t'
  have hlt : ¬ ((c : Int) < 0 ∨ (cs.length : Int) ≤ c) := by
    have := getElem?_lt hc
    omega
  refine ⟨(List.range h).flatMap (fun y => (List.range w).flatMap (fun x => [byteOf ((sample b.ints y x).getD 0)])), ?_, pixelRows_length _ w h, ?_⟩
  · unfold channelToImage
    rw [e, Res.bind_ok, if_neg hlt, show idx cs 0 = .ok c0 from idx_some (k := 0) e0, Res.bind_ok]
    dsimp only
    rw [if_neg (by simp [ImageBuffer.isFloat, ct0, t0]), ch0, cw0, Int.toNat_natCast, Int.toNat_natCast]
    rw [forFrom_append0 _ (fun y => (List.range w).flatMap (fun x => [byteOf ((sample b.ints y x).getD 0)])) h [] (fun y acc hy => by
      rw [forFrom_append0 _ (fun x => [byteOf ((sample b.ints y x).getD 0)]) w acc (fun x acc hx => by
        obtain ⟨v, hv⟩ := T.sample hy hx
        rw [idx_some ec, Res.bind_ok, at2_sample ((s t y x hy hx).trans hv), Res.bind_ok, hv]
        rfl)])]
    rfl
  · intro y x hy hx
    obtain ⟨v, hv⟩ := T.sample hy hx
    rw [pixelRows_get (fun y x => byteOf ((sample b.ints y x).getD 0)) hy hx, hv]
    obtain ⟨a, b⟩ := hr y x v hv
    simp [byteOf_toNat a b]

/-- An image with two channels, of which the second is shown. -/
example (I : FloatImpl) (img : JXLImage) : channelToImage I { img with buffers := [⟨2, 1, 0, [], [[1, 2]]⟩, ⟨2, 1, 0, [], [[7, 255]]⟩] } 1 = .ok ⟨true, 2, 1, [7, 255]⟩ := rfl

/-- **C93** is false for samples of more than 8 bits: they lose their high bits, and 256 is shown black. -/
theorem C93_deep_violated (I : FloatImpl) (img : JXLImage) : channelToImage I { img with buffers := [⟨2, 1, 0, [], [[256, 65535]]⟩] } 0 = .ok ⟨true, 2, 1, [0, 255]⟩ := rfl

/-- **C93**, in part: the picture of a channel of numbers in [0, 1] shows them in steps of 1/255: each byte is one of the two next to 255 times the sample. -/
theorem C93_float_partial (I : FloatImpl) {img : JXLImage} {h w : Nat} (hh : h ≤ 2 ^ 30) (hw : w ≤ 2 ^ 30) (hp : ∀ b ∈ img.buffers, b.IntPicture h w ∨ b.FloatPicture h w) {b0 b : ImageBuffer} {c : Nat}
    (h0 : img.buffers[0]? = some b0) (t0 : b0.bufferType = 1) (hc : img.buffers[c]? = some b) (t : b.bufferType = 1)
    (hr : ∀ y x v, sample b.floats y x = some v → ∃ q, v = .fin q ∧ 0 ≤ q ∧ q ≤ 1) :
    ∃ pix, channelToImage I img c = .ok ⟨true, w, h, pix⟩ ∧ pix.length = h * w ∧
      ∀ y x q, sample b.floats y x = some (.fin q) → ∃ p, pix[y * w + x]? = some p ∧ ⌊255 * q⌋ ≤ (p.toNat : Int) ∧ (p.toNat : Int) ≤ ⌈255 * q⌉ := by
  obtain ⟨cs, e, l, ps⟩ := copiesOfBuffers_ok hh hw hp
  obtain ⟨c0, e0, ⟨ct0, ch0, cw0, -, -, -, -⟩⟩ := ps 0 b0 h0
  obtain ⟨cc, ec, ⟨-, -, -, -, s, -, -⟩⟩ := ps c b hc
  have T : Table h w b.floats := by
    rcases hp b (List.mem_of_getElem? hc) with ⟨t', -⟩ | ⟨-, -, -, T⟩
    · rw [t] at t'; cases t'
    · exact T
  have hlt : ¬ ((c : Int) < 0 ∨ (cs.length : Int) ≤ c) := by
    have := getElem?_lt hc
    omega
  refine ⟨(List.range h).flatMap (fun y => (List.range w).flatMap (fun x => [F32.toByte I (F32.mul ((sample b.floats y x).getD .nan) (F32.ofInt 255))])), ?_, pixelRows_length _ w h, ?_⟩
  · unfold channelToImage
    rw [e, Res.bind_ok, if_neg hlt, show idx cs 0 = .ok c0 from idx_some (k := 0) e0, Res.bind_ok]
    dsimp only
    rw [if_pos (by simp [ImageBuffer.isFloat, ct0, t0]), ch0, cw0, Int.toNat_natCast, Int.toNat_natCast]
    rw [forFrom_append0 _ (fun y => (List.range w).flatMap (fun x => [F32.toByte I (F32.mul ((sample b.floats y x).getD .nan) (F32.ofInt 255))])) h [] (fun y acc hy => by
      rw [forFrom_append0 _ (fun x => [F32.toByte I (F32.mul ((sample b.floats y x).getD .nan) (F32.ofInt 255))]) w acc (fun x acc hx => by
        obtain ⟨v, hv⟩ := T.sample hy hx
        rw [idx_some ec, Res.bind_ok, at2_sample ((s t y x hy hx).trans hv), Res.bind_ok, hv]
        rfl)])]
    rfl
  · intro y x q hq
    obtain ⟨hy, hx⟩ := T.sample_lt hq
    obtain ⟨q', eq, q0, q1⟩ := hr y x _ hq
    injection eq with eq
    subst eq
    refine ⟨_, pixelRows_get (fun y x => F32.toByte I (F32.mul ((sample b.floats y x).getD .nan) (F32.ofInt 255))) hy hx, ?_⟩
    rw [hq]
    exact toByte_between I q0 q1

/-- White, black and one half. -/
example (I : FloatImpl) (img : JXLImage) : ∃ pix, channelToImage I { img with buffers := [⟨3, 1, 1, [[.fin 1, .fin 0, .fin (1 / 2)]], []⟩] } 0 = .ok ⟨true, 3, 1, pix⟩ ∧ pix.length = 3 := by
  obtain ⟨pix, h1, h2, -⟩ := C93_float_partial I (img := { img with buffers := [⟨3, 1, 1, [[.fin 1, .fin 0, .fin (1 / 2)]], []⟩] }) (h := 1) (w := 3) (c := 0) (by norm_num) (by norm_num)
    (by intro b hb; simp only [List.mem_singleton] at hb; subst hb; right; exact ⟨rfl, rfl, rfl, rfl, by simp⟩) rfl rfl rfl rfl (by
      intro y x v hv
      match y, x with
      | 0, 0 => injection hv with hv; exact ⟨1, hv.symm, by norm_num, by norm_num⟩
      | 0, 1 => injection hv with hv; exact ⟨0, hv.symm, by norm_num, by norm_num⟩
      | 0, 2 => injection hv with hv; exact ⟨1 / 2, hv.symm, by norm_num, by norm_num⟩
      | 0, x + 3 => simp [sample] at hv
      | y + 1, x => simp [sample] at hv)
  exact ⟨pix, h1, h2⟩

/-- **C93**: an index that is not that of a channel gives an error, for the pictures and for the samples. -/
theorem C93_range (I : FloatImpl) {img : JXLImage} {c : Int} (hc : c < 0 ∨ (img.buffers.length : Int) ≤ c) :
    (∀ {h w : Nat}, h ≤ 2 ^ 30 → w ≤ 2 ^ 30 → (∀ b ∈ img.buffers, b.IntPicture h w ∨ b.FloatPicture h w) → channelToImage I img c = .err) ∧
      getIntChannelData img c = .err ∧ getFloatChannelData img c = .err ∧ (∀ d, setIntChannelData img c d = .err) ∧ ∀ d, setFloatChannelData img c d = .err := by
  refine ⟨fun hh hw hp => ?_, ?_, ?_, fun d => ?_, fun d => ?_⟩
  · obtain ⟨cs, e, l, -⟩ := copiesOfBuffers_ok hh hw hp
    unfold channelToImage
    rw [e, Res.bind_ok, if_pos (by rw [l]; exact hc)]
  · unfold getIntChannelData; rw [if_pos hc]
  · unfold getFloatChannelData; rw [if_pos hc]
  · unfold setIntChannelData; rw [if_pos hc]
  · unfold setFloatChannelData; rw [if_pos hc]

/-- **C93**: samples that are set are the ones that are got, and the samples of the other channels stay as they are. -/
theorem C93_set_get {img : JXLImage} {c : Nat} (hc : c < img.buffers.length) :
    (∀ d, ∃ img', setIntChannelData img c d = .ok img' ∧ getIntChannelData img' c = .ok d ∧ (∀ i : Int, getFloatChannelData img' i = getFloatChannelData img i) ∧
      ∀ i : Int, i ≠ c → getIntChannelData img' i = getIntChannelData img i) ∧
    ∀ d, ∃ img', setFloatChannelData img c d = .ok img' ∧ getFloatChannelData img' c = .ok d ∧ (∀ i : Int, getIntChannelData img' i = getIntChannelData img i) ∧
      ∀ i : Int, i ≠ c → getFloatChannelData img' i = getFloatChannelData img i := by
  have hlt : ¬ ((c : Int) < 0 ∨ (img.buffers.length : Int) ≤ c) := by omega
  have other : ∀ (b : ImageBuffer) (i : Int), i ≠ c → idx (img.buffers.set c b) i = idx img.buffers i := by
    intro b i hi
    unfold idx
    split
    · rfl
    · rw [List.getElem?_set_ne (by omega)]
  have same : ∀ b, idx (img.buffers.set c b) (c : Int) = .ok b := fun b => idx_some (by rw [List.getElem?_set_self hc])
  have here : idx img.buffers (c : Int) = .ok img.buffers[c] := idx_some (List.getElem?_eq_getElem hc)
  have put : ∀ b, setAt img.buffers (c : Int) b = .ok (img.buffers.set c b) := by
    intro b
    unfold setAt
    rw [if_neg (by omega), Int.toNat_natCast, if_pos hc]
  constructor
  · intro d
    refine ⟨{ img with buffers := img.buffers.set c { img.buffers[c] with ints := d } }, ?_, ?_, ?_, ?_⟩
    · unfold setIntChannelData
      rw [if_neg hlt, here, Res.bind_ok, put, Res.bind_ok]
    · unfold getIntChannelData
      simp only [List.length_set]
      rw [if_neg hlt, same, Res.bind_ok]
    · intro i
      unfold getFloatChannelData
      simp only [List.length_set]
      by_cases hi : i = c
      · subst hi
        rw [same, here]; rfl
      · rw [other _ i hi]
    · intro i hi
      unfold getIntChannelData
      simp only [List.length_set]
      rw [other _ i hi]
  · intro d
    refine ⟨{ img with buffers := img.buffers.set c { img.buffers[c] with floats := d } }, ?_, ?_, ?_, ?_⟩
    · unfold setFloatChannelData
      rw [if_neg hlt, here, Res.bind_ok, put, Res.bind_ok]
    · unfold getFloatChannelData
      simp only [List.length_set]
      rw [if_neg hlt, same, Res.bind_ok]
    · intro i
      unfold getIntChannelData
      simp only [List.length_set]
      by_cases hi : i = c
      · subst hi
        rw [same, here]; rfl
      · rw [other _ i hi]
    · intro i hi
      unfold getFloatChannelData
      simp only [List.length_set]
      rw [other _ i hi]

/-- **C93** is false for images that have channels of both kinds: the pictures of channels that are not of the kind of the first one panic. -/
theorem C93_mixed_panics (I : FloatImpl) {img : JXLImage} {h w : Nat} (hh : h ≤ 2 ^ 30) (hw : w ≤ 2 ^ 30) (hp : ∀ b ∈ img.buffers, b.IntPicture h w ∨ b.FloatPicture h w) {b0 b : ImageBuffer} {c : Nat}
    (h0 : img.buffers[0]? = some b0) (hc : img.buffers[c]? = some b) (t : b.bufferType ≠ b0.bufferType) (hpos : 0 < h) (wpos : 0 < w) : channelToImage I img c = .panic := by
  obtain ⟨cs, e, l, ps⟩ := copiesOfBuffers_ok hh hw hp
  obtain ⟨c0, e0, ⟨ct0, ch0, cw0, -, -, -, -⟩⟩ := ps 0 b0 h0
  obtain ⟨cc, ec, ⟨-, -, -, -, -, s, s'⟩⟩ := ps c b hc
  have hlt : ¬ ((c : Int) < 0 ∨ (cs.length : Int) ≤ c) := by
    have := getElem?_lt hc
    omega
  have nopanic : ∀ {σ : Type} {f : Nat → σ → Res σ} {n : Nat} {s : σ}, 0 < n → f 0 s = .panic → forFrom f n 0 s = .panic := by
    intro σ f n s hn hf
    cases n with
    | zero => omega
    | succ n => unfold forFrom; rw [hf]; rfl
  unfold channelToImage
  rw [e, Res.bind_ok, if_neg hlt, show idx cs 0 = .ok c0 from idx_some (k := 0) e0, Res.bind_ok]
  dsimp only
  rw [ch0, cw0, Int.toNat_natCast, Int.toNat_natCast]
  have kinds : (b0.bufferType = 1 ∧ b.bufferType = 0) ∨ (b0.bufferType = 0 ∧ b.bufferType = 1) := by
    rcases hp b (List.mem_of_getElem? hc) with ⟨t1, -⟩ | ⟨t1, -⟩ <;> rcases hp b0 (List.mem_of_getElem? h0) with ⟨t2, -⟩ | ⟨t2, -⟩ <;> rw [t1, t2] at t <;> simp_all
  rcases kinds with ⟨k0, k⟩ | ⟨k0, k⟩
  · rw [if_pos (by simp [ImageBuffer.isFloat, ct0, k0]), nopanic hpos]
    · rfl
    · refine nopanic wpos ?_
      rw [idx_some ec, Res.bind_ok, s' k]
      rfl
  · rw [if_neg (by simp [ImageBuffer.isFloat, ct0, k0]), nopanic hpos]
    · rfl
    · refine nopanic wpos ?_
      rw [idx_some ec, Res.bind_ok, s k]
      rfl

/-- Colours as numbers and a mask as integers. -/
example (I : FloatImpl) (img : JXLImage) : channelToImage I { img with buffers := [⟨1, 1, 1, [[.fin 1]], []⟩, ⟨1, 1, 0, [], [[7]]⟩] } 1 = .panic := rfl

end Jxl
