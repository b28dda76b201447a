import Verif.Proofs.Subsampling
import Verif.Proofs.ModularPlanes
import Verif.Props.Filters
import Verif.Props.Groups

/-!
# C79: subsampled planes, C80: modular samples, C81: upsampling
-/
namespace Jxl

open Spec (Framed px)

/-! ## C79: subsampled planes are brought to full size -/

/-- C79: the planes with a shift become `2 ^ shift` times as long in that direction, with the samples at full size; all other planes stay as they are. The first three planes
have any size, and samples of any kind (`px` gives them as floats). -/
theorem C79_planes {depth : Nat} (hd : 1 ≤ depth ∧ depth ≤ 31) {xs ys : List Nat} (hx : xs.length = 3) (hy : ys.length = 3) {l : List ImageBuffer} {H W : Nat → Nat}
    (hp : ∀ c x y, xs[c]? = some x → ys[c]? = some y → x ≠ 0 ∨ y ≠ 0 →
      ∃ b, l[c]? = some b ∧ b.Picture (H c) (W c) ∧ 2 ^ y * H c ≤ 1073741824 ∧ 2 ^ x * W c ≤ 1073741824) :
    ∃ l', invertSubsampling depth xs ys l = .ok l' ∧ l'.length = l.length ∧
      (∀ c : Nat, 3 ≤ c → l'[c]? = l[c]?) ∧ ∀ c x y, xs[c]? = some x → ys[c]? = some y →
        (x = 0 → y = 0 → l'[c]? = l[c]?) ∧
        (x ≠ 0 ∨ y ≠ 0 → ∀ b, l[c]? = some b → ∃ b', l'[c]? = some b' ∧
          ShowsFloats (2 ^ y * H c) (2 ^ x * W c) (fullSize x y (H c) (W c) (px depth b)) b') := by
  unfold invertSubsampling
  obtain ⟨l', e, h1, h2, h3⟩ := forFrom_inv (f := fun c l => do
    let x ← idx xs (c : Int)
    let y ← idx ys (c : Int)
    let l ← forFrom (fun _ l => onBuffer (widenBuffer depth) c l) x 0 l
    forFrom (fun _ l => onBuffer (heightenBuffer depth) c l) y 0 l)
    (fun c l' => l'.length = l.length ∧ (∀ i : Nat, c ≤ i → l'[i]? = l[i]?) ∧ ∀ i x y, i < c → xs[i]? = some x → ys[i]? = some y →
        (x = 0 → y = 0 → l'[i]? = l[i]?) ∧
        (x ≠ 0 ∨ y ≠ 0 → ∀ b, l[i]? = some b → ∃ b', l'[i]? = some b' ∧
          ShowsFloats (2 ^ y * H i) (2 ^ x * W i) (fullSize x y (H i) (W i) (px depth b)) b')) 3 0 l
    ⟨rfl, fun _ _ => rfl, fun i _ _ hi => by omega⟩ (by
      intro c m _ hc ⟨m1, m2, m3⟩
      obtain ⟨x, hxc⟩ : ∃ x, xs[c]? = some x := ⟨_, List.getElem?_eq_getElem (by omega)⟩
      obtain ⟨y, hyc⟩ : ∃ y, ys[c]? = some y := ⟨_, List.getElem?_eq_getElem (by omega)⟩
      obtain ⟨s0, s1⟩ := subsampling_step (depth := depth) (l := m) hxc hyc
      by_cases hz : x = 0 ∧ y = 0
      · refine ⟨m, s0 hz.1 hz.2, m1, fun i hi => m2 i (by omega), fun i x' y' hi hx' hy' => ?_⟩
        by_cases hic : i = c
        · subst hic
          rw [hxc] at hx'; rw [hyc] at hy'
          injection hx' with hx'; injection hy' with hy'
          subst hx'; subst hy'
          exact ⟨fun _ _ => m2 i (Nat.le_refl _), fun hne => by omega⟩
        · exact m3 i x' y' (by omega) hx' hy'
      · have hne : x ≠ 0 ∨ y ≠ 0 := by omega
        obtain ⟨b, hb, hpic, hbh, hbw⟩ := hp c x y hxc hyc hne
        obtain ⟨b1, b2, e1, e2, sh⟩ := subsampled_ok (x := x) (y := y) hd hpic hbh hbw hne
        have hcl : c < l.length := (List.getElem?_eq_some_iff.1 hb).1
        refine ⟨m.set c b2, s1 b b1 b2 (by rw [m2 c (Nat.le_refl _)]; exact hb) e1 e2, by simp [m1], fun i hi => ?_, fun i x' y' hi hx' hy' => ?_⟩
        · rw [List.getElem?_set_ne (by omega)]
          exact m2 i (by omega)
        · by_cases hic : i = c
          · subst hic
            rw [hxc] at hx'; rw [hyc] at hy'
            injection hx' with hx'; injection hy' with hy'
            subst hx'; subst hy'
            refine ⟨fun a b => absurd ⟨a, b⟩ hz, fun _ b' hb' => ⟨b2, by simp [m1, hcl], ?_⟩⟩
            rw [hb] at hb'
            injection hb' with hb'
            subst hb'
            exact sh
          · rw [List.getElem?_set_ne (by omega)]
            exact m3 i x' y' (by omega) hx' hy')
  refine ⟨l', e, h1, fun c hc => h2 c (by omega), fun c x y hxc hyc => ?_⟩
  have : c < 3 := by rw [← hx]; exact (List.getElem?_eq_some_iff.1 hxc).1
  exact h3 c x y (by omega) hxc hyc

theorem padded_dvd {v : Bool} {d s p : Nat} (hs : s ≤ 29) (h : paddedFrameSide v d s = .ok p) : 2 ^ s ∣ p := by
  have h32 : (2 : Nat) ^ s ∣ 4294967296 := by
    rw [show (4294967296 : Nat) = 2 ^ 32 from rfl]
    exact Nat.pow_dvd_pow 2 (by omega)
  have hu : ∀ z, 2 ^ s ∣ z → 2 ^ s ∣ u32 z := fun z hz => by
    unfold u32
    exact (Nat.dvd_mod_iff h32).2 hz
  unfold paddedFrameSide at h
  cases v
  · rw [if_neg (by decide)] at h
    obtain ⟨a, -, h⟩ := Res.of_bind h
    injection h with h
    subst h
    exact hu _ ⟨a, by rw [Nat.shiftLeft_eq]; ring⟩
  · rw [if_pos rfl] at h
    obtain ⟨a, -, h⟩ := Res.of_bind h
    injection h with h
    subst h
    apply hu
    rw [Nat.shiftLeft_eq]
    exact Dvd.dvd.mul_right (hu _ ⟨a, by rw [Nat.shiftLeft_eq]; ring⟩) _

theorem le_maxList (l : List Nat) (v : Nat) (hv : v ∈ l) : v ≤ maxList l := by
  rw [maxList_eq]
  induction l with
  | nil => cases hv
  | cons a l ih =>
    rcases List.mem_cons.1 hv with rfl | hv
    · exact Nat.le_max_left _ _
    · exact Nat.le_trans (ih hv) (Nat.le_max_right _ _)

/-- A plane that is allocated. -/
theorem newPlane_ok {h : ImageHeader} {f : FrameHeader} {P : Dim} {c : Nat} (hx : f.jpegX.length = 3) (hy : f.jpegY.length = 3)
    (hc : c < frameColourCount h f.encoding + h.extra.length) (hP : P.height ≤ 1073741824 ∧ P.width ≤ 1073741824) :
    ∃ b, newPlane h f P c = .ok b ∧ ∃ x y, (c < 3 ∧ c < frameColourCount h f.encoding → f.jpegX[c]? = some x ∧ f.jpegY[c]? = some y) ∧
      (¬(c < 3 ∧ c < frameColourCount h f.encoding) → x = 0 ∧ y = 0) ∧ b.Picture (P.height >>> y) (P.width >>> x) := by
  have ht : ∃ t, planeIsFloat h f c = .ok t := by
    unfold planeIsFloat
    by_cases hcc : c < frameColourCount h f.encoding
    · rw [if_pos hcc]; exact ⟨_, rfl⟩
    · rw [if_neg hcc, show (c : Int) - (frameColourCount h f.encoding : Int) = ((c - frameColourCount h f.encoding : Nat) : Int) by omega,
        idx_nat (List.getElem?_eq_getElem (by omega)), Res.bind_ok]
      exact ⟨_, rfl⟩
  obtain ⟨t, ht⟩ := ht
  have make : ∀ (H W : Nat), H ≤ 1073741824 → W ≤ 1073741824 → ∃ b, newImageBuffer (if t then 1 else 0) (i32 (H : Int)) (i32 (W : Int)) = .ok b ∧ b.Picture H W := by
    intro H W hH hW
    rw [i32_ofNat (by omega), i32_ofNat (by omega)]
    cases t
    · refine ⟨⟨W, H, 0, [], List.replicate H (List.replicate W 0)⟩, ?_, Or.inl ⟨rfl, rfl, rfl, table_replicate _ _ _⟩⟩
      rw [if_neg (by decide)]
      unfold newImageBuffer
      rw [if_neg (by omega), if_neg (by omega), if_pos rfl, makeMatrix_table, Res.bind_ok]
    · refine ⟨⟨W, H, 1, List.replicate H (List.replicate W (F32.fin 0)), []⟩, ?_, Or.inr ⟨rfl, rfl, rfl, table_replicate _ _ _⟩⟩
      rw [if_pos rfl]
      exact floatBuffer_new hH hW
  by_cases hcc : c < 3 ∧ c < frameColourCount h f.encoding
  · have ex := List.getElem?_eq_getElem (l := f.jpegX) (i := c) (by omega)
    have ey := List.getElem?_eq_getElem (l := f.jpegY) (i := c) (by omega)
    obtain ⟨b, e, hb⟩ := make (P.height >>> (f.jpegY[c]'(by omega))) (P.width >>> (f.jpegX[c]'(by omega)))
      (Nat.le_trans (by rw [Nat.shiftRight_eq_div_pow]; exact Nat.div_le_self _ _) hP.1) (Nat.le_trans (by rw [Nat.shiftRight_eq_div_pow]; exact Nat.div_le_self _ _) hP.2)
    refine ⟨b, ?_, _, _, fun _ => ⟨ex, ey⟩, fun hn => absurd hcc hn, hb⟩
    unfold newPlane planeDim
    rw [if_pos hcc, idx_nat ey, Res.bind_ok, idx_nat ex, Res.bind_ok, Res.bind_ok, ht, Res.bind_ok]
    exact e
  · obtain ⟨b, e, hb⟩ := make P.height P.width hP.1 hP.2
    refine ⟨b, ?_, 0, 0, fun hn => absurd hn hcc, fun _ => ⟨rfl, rfl⟩, hb⟩
    unfold newPlane planeDim
    rw [if_neg hcc, Res.bind_ok, ht, Res.bind_ok]
    exact e

theorem newPlanes_ok {h : ImageHeader} {f : FrameHeader} {P : Dim} (hx : f.jpegX.length = 3) (hy : f.jpegY.length = 3)
    (hP : P.height ≤ 1073741824 ∧ P.width ≤ 1073741824) : ∀ (n c : Nat), c + n ≤ frameColourCount h f.encoding + h.extra.length →
    ∃ l, newPlanes h f P n c = .ok l ∧ l.length = n ∧ ∀ i, i < n → ∃ b, l[i]? = some b ∧ newPlane h f P (c + i) = .ok b
  | 0, c, _ => ⟨[], rfl, rfl, fun i hi => by omega⟩
  | n + 1, c, hn => by
    obtain ⟨b, e, -⟩ := newPlane_ok (h := h) (c := c) hx hy (by omega) hP
    obtain ⟨l, el, hl, hb⟩ := newPlanes_ok (h := h) hx hy hP n (c + 1) (by omega)
    refine ⟨b :: l, by rw [newPlanes, e, Res.bind_ok, el, Res.bind_ok], by simp [hl], fun i hi => ?_⟩
    cases i with
    | zero => exact ⟨b, rfl, e⟩
    | succ i =>
      obtain ⟨b', h1, h2⟩ := hb i (by omega)
      exact ⟨b', h1, by rw [show c + (i + 1) = c + 1 + i by omega]; exact h2⟩

/-- C79: whatever is stored in the planes that are allocated for a frame, after `invertSubsampling` all of them have the size of the padded frame. A frame with a single
colour has no shifts. -/
theorem C79_frame (h : ImageHeader) {f : FrameHeader} (hf : Framed f) (hx : f.jpegX.length = 3) (hy : f.jpegY.length = 3)
    (hbig : f.size.height + 15 ≤ 1073741824 ∧ f.size.width + 15 ≤ 1073741824)
    (hgray : frameColourCount h f.encoding = 3 ∨ (∀ v ∈ f.jpegX, v = 0) ∧ ∀ v ∈ f.jpegY, v = 0) {depth : Nat} (hd : 1 ≤ depth ∧ depth ≤ 31) :
    ∃ P bufs, paddedFrameSize f = .ok P ∧ f.size.height ≤ P.height ∧ f.size.width ≤ P.width ∧ framePlanes h f = .ok bufs ∧
      bufs.length = frameColourCount h f.encoding + h.extra.length ∧
      ∀ filled : List ImageBuffer, filled.length = bufs.length →
        (∀ (c : Nat) b b' H W, bufs[c]? = some b → filled[c]? = some b' → b.Picture H W → b'.Picture H W) →
        ∃ out, invertSubsampling depth f.jpegX f.jpegY filled = .ok out ∧ out.length = filled.length ∧ ∀ b ∈ out, b.Picture P.height P.width := by
  have hmx := maxList_le f.jpegX 1 hf.jpegX
  have hmy := maxList_le f.jpegY 1 hf.jpegY
  obtain ⟨P, eP, P1, P2, -⟩ := paddedFrameSide_ok (f.encoding == 0) hf.height.1 hf.height.2 hmy
  obtain ⟨Q, eQ, Q1, Q2, -⟩ := paddedFrameSide_ok (f.encoding == 0) hf.width.1 hf.width.2 hmx
  have dP := padded_dvd (by omega) eP
  have dQ := padded_dvd (by omega) eQ
  have hsize : paddedFrameSize f = .ok ⟨Q, P⟩ := by
    unfold paddedFrameSize
    rw [eP, Res.bind_ok, eQ, Res.bind_ok]
  have hPQ : (⟨Q, P⟩ : Dim).height ≤ 1073741824 ∧ (⟨Q, P⟩ : Dim).width ≤ 1073741824 := by constructor <;> dsimp only <;> omega
  obtain ⟨bufs, eb, hl, hb⟩ := newPlanes_ok (h := h) (P := ⟨Q, P⟩) hx hy hPQ (frameColourCount h f.encoding + h.extra.length) 0 (by omega)
  have hcount : frameColourCount h f.encoding = 3 ∨ frameColourCount h f.encoding = 1 := by
    unfold frameColourCount ImageHeader.colourCount
    split
    · exact Or.inl rfl
    · split
      · exact Or.inr rfl
      · exact Or.inl rfl
  have back : ∀ {l : List Nat} {p : Nat}, 2 ^ maxList l ∣ p → ∀ v ∈ l, 2 ^ v * (p >>> v) = p := by
    intro l p hp v hv
    have : v ≤ maxList l := le_maxList l v hv
    rw [Nat.shiftRight_eq_div_pow]
    exact Nat.mul_div_cancel' (Nat.dvd_trans (Nat.pow_dvd_pow 2 this) hp)
  refine ⟨⟨Q, P⟩, bufs, hsize, P1, Q1, by unfold framePlanes; rw [hsize, Res.bind_ok]; exact eb, hl, fun filled hfl hpic => ?_⟩
  have plane : ∀ c b, filled[c]? = some b → ∃ x y, (c < 3 ∧ c < frameColourCount h f.encoding → f.jpegX[c]? = some x ∧ f.jpegY[c]? = some y) ∧
      (¬(c < 3 ∧ c < frameColourCount h f.encoding) → x = 0 ∧ y = 0) ∧ b.Picture (P >>> y) (Q >>> x) := by
    intro c b hc
    have hcl : c < filled.length := (List.getElem?_eq_some_iff.1 hc).1
    obtain ⟨b0, hb0, e0⟩ := hb c (by omega)
    obtain ⟨b1, e1, x, y, k1, k2, k3⟩ := newPlane_ok (h := h) (f := f) (P := ⟨Q, P⟩) (c := c) hx hy (by omega) hPQ
    rw [Nat.zero_add, e1] at e0
    injection e0 with e0
    subst e0
    exact ⟨x, y, k1, k2, hpic c b1 b _ _ hb0 hc k3⟩
  have mx : ∀ {c x}, f.jpegX[c]? = some x → x ∈ f.jpegX := fun hc => List.mem_of_getElem? hc
  have my : ∀ {c y}, f.jpegY[c]? = some y → y ∈ f.jpegY := fun hc => List.mem_of_getElem? hc
  obtain ⟨out, e, h1, h2, h3⟩ := C79_planes (l := filled) (H := fun c => P >>> (f.jpegY[c]?.getD 0)) (W := fun c => Q >>> (f.jpegX[c]?.getD 0)) hd hx hy (by
    intro c x y hxc hyc hne
    have hc3 : c < 3 := by rw [← hx]; exact (List.getElem?_eq_some_iff.1 hxc).1
    have h3c : frameColourCount h f.encoding = 3 := by
      rcases hgray with hg | ⟨g1, g2⟩
      · exact hg
      · have := g1 x (mx hxc)
        have := g2 y (my hyc)
        omega
    have hlc : c < filled.length := by omega
    obtain ⟨x', y', k1, -, k3⟩ := plane c _ (List.getElem?_eq_getElem hlc)
    obtain ⟨a1, a2⟩ := k1 ⟨hc3, by omega⟩
    rw [hxc] at a1; rw [hyc] at a2
    injection a1 with a1; injection a2 with a2
    subst a1; subst a2
    refine ⟨_, List.getElem?_eq_getElem hlc, ?_, ?_, ?_⟩
    · rw [hxc, hyc]; exact k3
    · rw [hyc]; show 2 ^ y * (P >>> y) ≤ _; rw [back dP y (my hyc)]; omega
    · rw [hxc]; show 2 ^ x * (Q >>> x) ≤ _; rw [back dQ x (mx hxc)]; omega)
  refine ⟨out, e, h1, fun b hb' => ?_⟩
  obtain ⟨c, hc⟩ := List.mem_iff_getElem?.1 hb'
  have hcl : c < filled.length := by rw [← h1]; exact (List.getElem?_eq_some_iff.1 hc).1
  obtain ⟨x, y, k1, k2, k3⟩ := plane c _ (List.getElem?_eq_getElem hcl)
  by_cases hc3 : c < 3
  · have ex := List.getElem?_eq_getElem (l := f.jpegX) (i := c) (by omega)
    have ey := List.getElem?_eq_getElem (l := f.jpegY) (i := c) (by omega)
    obtain ⟨z0, z1⟩ := h3 c _ _ ex ey
    by_cases hz : f.jpegX[c]'(by omega) = 0 ∧ f.jpegY[c]'(by omega) = 0
    · have eq := z0 hz.1 hz.2
      rw [hc, List.getElem?_eq_getElem hcl] at eq
      injection eq with eq
      rw [eq]
      have hxy : x = 0 ∧ y = 0 := by
        by_cases hcc : c < 3 ∧ c < frameColourCount h f.encoding
        · obtain ⟨a1, a2⟩ := k1 hcc
          rw [ex] at a1; rw [ey] at a2
          injection a1 with a1; injection a2 with a2
          omega
        · exact k2 hcc
      obtain ⟨rfl, rfl⟩ := hxy
      exact k3
    · obtain ⟨b', hb1, hb2⟩ := z1 (by omega) _ (List.getElem?_eq_getElem hcl)
      rw [hc] at hb1
      injection hb1 with hb1
      subst hb1
      right
      have := hb2.1
      rw [ex, ey] at this
      simp only [Option.getD_some] at this
      rw [back dP _ (my ey), back dQ _ (mx ex)] at this
      exact this
  · have eq := h2 c (by omega)
    rw [hc, List.getElem?_eq_getElem hcl] at eq
    injection eq with eq
    rw [eq]
    obtain ⟨rfl, rfl⟩ := k2 (by omega)
    exact k3

/-! ### Samples -/

theorem wider_within {a b : ℚ} {f : Nat → Nat → ℚ} (hf : Within a b f) (w : Nat) : Within a b (wider w f) := by
  intro y x
  obtain ⟨h1, h2⟩ := hf y (x / 2)
  obtain ⟨h3, h4⟩ := hf y (secondNearest w x)
  show a ≤ (3 / 4 : ℚ) * f y (x / 2) + (1 / 4 : ℚ) * f y (secondNearest w x) ∧ (3 / 4 : ℚ) * f y (x / 2) + (1 / 4 : ℚ) * f y (secondNearest w x) ≤ b
  constructor <;> linarith

theorem higher_within {a b : ℚ} {f : Nat → Nat → ℚ} (hf : Within a b f) (h : Nat) : Within a b (higher h f) := by
  intro y x
  obtain ⟨h1, h2⟩ := hf (y / 2) x
  obtain ⟨h3, h4⟩ := hf (secondNearest h y) x
  show a ≤ (3 / 4 : ℚ) * f (y / 2) x + (1 / 4 : ℚ) * f (secondNearest h y) x ∧ (3 / 4 : ℚ) * f (y / 2) x + (1 / 4 : ℚ) * f (secondNearest h y) x ≤ b
  constructor <;> linarith

/-- C79: samples at full size stay in the range of the plane; a flat plane stays flat (take `a = b`). In exact arithmetic. -/
theorem C79_range {a b : ℚ} {f : Nat → Nat → ℚ} (hf : Within a b f) (xShift yShift h w : Nat) : Within a b (fullSize xShift yShift h w f) := by
  have h1 : ∀ n w (f : Nat → Nat → ℚ), Within a b f → Within a b (widerBy n w f) := by
    intro n
    induction n with
    | zero => intro w f hf; exact hf
    | succ n ih => intro w f hf; exact ih _ _ (wider_within hf w)
  have h2 : ∀ n h (f : Nat → Nat → ℚ), Within a b f → Within a b (higherBy n h f) := by
    intro n
    induction n with
    | zero => intro w f hf; exact hf
    | succ n ih => intro w f hf; exact ih _ _ (higher_within hf w)
  exact h2 _ _ _ (h1 _ _ _ hf)

/-- C79: a plane that rises evenly keeps doing so at full size: with the sample `(y, x)` at the place `(y + 1/2, x + 1/2)`, the subsampled plane shows `p + q·y + r·x` at
`(2y, 2x)`, and so does the plane at full size, except at its border. -/
theorem C79_ramp (p q r : ℚ) {h w : Nat} {f : Nat → Nat → ℚ} (hf : ∀ y x, y < h → x < w → f y x = p + q * (2 * (y + 1 / 2)) + r * (2 * (x + 1 / 2))) {y x : Nat}
    (hy : 0 < y ∧ y < 2 * h - 1) (hx : 0 < x ∧ x < 2 * w - 1) : fullSize 1 1 h w f y x = p + q * (y + 1 / 2) + r * (x + 1 / 2) := by
  have key : ∀ y' , y' < h → wider w f y' x = p + q * (2 * (y' + 1 / 2)) + r * (x + 1 / 2) := by
    intro y' hy'
    show (3 / 4 : ℚ) * f y' (x / 2) + (1 / 4 : ℚ) * f y' (secondNearest w x) = _
    unfold secondNearest
    rcases Nat.even_or_odd' x with ⟨k, rfl | rfl⟩
    · rw [if_pos (by omega), show 2 * k / 2 = k by omega, hf y' k hy' (by omega), hf y' (k - 1) hy' (by omega), Nat.cast_sub (by omega)]
      push_cast
      ring
    · rw [if_neg (by omega), show (2 * k + 1) / 2 = k by omega, show min (k + 1) (w - 1) = k + 1 by omega, hf y' k hy' (by omega), hf y' (k + 1) hy' (by omega)]
      push_cast
      ring
  show (3 / 4 : ℚ) * wider w f (y / 2) x + (1 / 4 : ℚ) * wider w f (secondNearest h y) x = _
  unfold secondNearest
  rcases Nat.even_or_odd' y with ⟨k, rfl | rfl⟩
  · rw [if_pos (by omega), show 2 * k / 2 = k by omega, key k (by omega), key (k - 1) (by omega), Nat.cast_sub (by omega)]
    push_cast
    ring
  · rw [if_neg (by omega), show (2 * k + 1) / 2 = k by omega, show min (k + 1) (h - 1) = k + 1 by omega, key k (by omega), key (k + 1) (by omega)]
    push_cast
    ring


/-- Two subsampled planes of one row, and one of full size. -/
example : invertSubsampling 8 [1, 0, 1] [0, 0, 0] [⟨2, 1, 1, [[.fin 0, .fin 4]], []⟩, ⟨4, 1, 1, [[.fin 1, .fin 2, .fin 3, .fin 4]], []⟩, ⟨2, 1, 0, [], [[0, 255]]⟩] =
    .ok [⟨4, 1, 1, [[.fin 0, .fin 1, .fin 3, .fin 4]], []⟩, ⟨4, 1, 1, [[.fin 1, .fin 2, .fin 3, .fin 4]], []⟩, ⟨4, 1, 1, [[.fin 0, .fin (1 / 4), .fin (3 / 4), .fin 1]], []⟩] := by
  decide +kernel

/-- A YCbCr frame of 100 by 75 pixels with colours of half the size. -/
example : let f := { frameSized 100 75 with encoding := 0, doYCbCr := true, jpegX := [1, 0, 1], jpegY := [1, 0, 1] }
    Framed f ∧ paddedFrameSize f = .ok ⟨112, 80⟩ ∧ frameColourCount sampleHeader f.encoding = 3 := by
  refine ⟨⟨⟨1, by decide, rfl⟩, rfl, by decide, by decide, by decide, by decide⟩, by decide +kernel, by decide⟩

/-! ## C80: modular samples become the samples of the planes -/

theorem Stores.congr {α : Type} {d : Dim} {g g' : Nat → Nat → α} {m m' : List (List α)} (h : Stores d g m m') (e : ∀ y x, y < d.height → x < d.width → g y x = g' y x) :
    Stores d g' m m' := by
  intro y x
  rw [h y x]
  split
  · next hc => rw [e y x hc.1 hc.2]
  · rfl

/-- A plane of integers or of floats that has room for a frame. -/
def ImageBuffer.Room (b : ImageBuffer) (d : Dim) : Prop := (b.bufferType = 0 ∧ AtLeast d b.ints) ∨ (b.bufferType = 1 ∧ AtLeast d b.floats)

/-- What is left of a buffer when samples are stored. -/
def SameKind (b b' : ImageBuffer) : Prop :=
  b'.bufferType = b.bufferType ∧ b'.height = b.height ∧ b'.width = b.width ∧ (∀ h w, Table h w b.ints → Table h w b'.ints) ∧ ∀ h w, Table h w b.floats → Table h w b'.floats

theorem storeInto_ok (I : FloatImpl) {d : Dim} {scale : F32} {mods : List (List (List Int))} {v : Nat → Nat → Nat → Int}
    (hm : ∀ c m, mods[c]? = some m → HoldsPlane d.height d.width (v c) m) {c : Nat} (hc : c < mods.length) {isB : Bool} (hB : isB = true → 2 < mods.length) {b : ImageBuffer}
    (hb : b.Room d) (hf : isB = true → b.bufferType = 1) :
    ∃ b', storeInto I d scale isB mods c b = .ok b' ∧ SameKind b b' ∧
      (b.bufferType = 0 → Stores d (fun y x => F32.toI32 I.big (F32.mul scale (F32.ofInt (v c y x)))) b.ints b'.ints) ∧
      (b.bufferType = 1 → Stores d (fun y x => F32.mul scale (F32.ofInt (if isB then i32 (v 0 y x + v 2 y x) else v c y x))) b.floats b'.floats) := by
  have at_ : ∀ {k m}, mods[k]? = some m → ∀ y x, y < d.height → x < d.width → at2 m (y : Int) (x : Int) = .ok (v k y x) :=
    fun hk y x hy hx => at2_sample ((hm _ _ hk).2 y x hy hx)
  unfold storeInto
  cases isB with
  | true =>
    have t1 := hf rfl
    have h2 := hB rfl
    rcases hb with ⟨t0, -⟩ | ⟨-, room⟩
    · rw [t0] at t1; cases t1
    have e0 := List.getElem?_eq_getElem (l := mods) (i := 0) (by omega)
    have e2 := List.getElem?_eq_getElem (l := mods) (i := 2) h2
    obtain ⟨m', e, s, t⟩ := corner_fill room (fun y x => do
        let a ← at2 (mods[0]'(by omega)) (y : Int) (x : Int)
        let b ← at2 (mods[2]'h2) (y : Int) (x : Int)
        .ok (F32.mul scale (F32.ofInt (i32 (a + b))))) (fun y x => F32.mul scale (F32.ofInt (i32 (v 0 y x + v 2 y x)))) (fun y x hy hx => by
      rw [at_ e0 y x hy hx, Res.bind_ok, at_ e2 y x hy hx, Res.bind_ok])
    refine ⟨{ b with floats := m' }, ?_, ⟨rfl, rfl, rfl, fun _ _ h => h, t⟩, fun h0 => ?_, fun _ => s⟩
    · rw [if_pos rfl, show (0 : Int) = ((0 : Nat) : Int) from rfl, idx_nat e0, Res.bind_ok, show (2 : Int) = ((2 : Nat) : Int) from rfl, idx_nat e2, Res.bind_ok]
      unfold storeB
      rw [e, Res.bind_ok]
    · rw [h0] at t1; cases t1
  | false =>
    have ec := List.getElem?_eq_getElem (l := mods) (i := c) hc
    rw [if_neg (by decide)]
    rcases hb with ⟨t0, room⟩ | ⟨t1, room⟩
    · obtain ⟨m', e, s, t⟩ := corner_fill room (fun y x => do
          let v ← at2 (mods[c]'hc) (y : Int) (x : Int)
          .ok (F32.toI32 I.big (F32.mul scale (F32.ofInt v)))) (fun y x => F32.toI32 I.big (F32.mul scale (F32.ofInt (v c y x)))) (fun y x hy hx => by
        rw [at_ ec y x hy hx, Res.bind_ok])
      refine ⟨{ b with ints := m' }, ?_, ⟨rfl, rfl, rfl, t, fun _ _ h => h⟩, fun _ => s, fun h1 => ?_⟩
      · rw [if_neg (by unfold ImageBuffer.isFloat; rw [t0]; decide), idx_nat ec, Res.bind_ok]
        unfold storeInts
        rw [e, Res.bind_ok]
      · rw [t0] at h1; cases h1
    · obtain ⟨m', e, s, t⟩ := corner_fill room (fun y x => do
          let v ← at2 (mods[c]'hc) (y : Int) (x : Int)
          .ok (F32.mul scale (F32.ofInt v))) (fun y x => F32.mul scale (F32.ofInt (v c y x))) (fun y x hy hx => by
        rw [at_ ec y x hy hx, Res.bind_ok])
      refine ⟨{ b with floats := m' }, ?_, ⟨rfl, rfl, rfl, fun _ _ h => h, t⟩, fun h0 => ?_, fun _ => s⟩
      · rw [if_pos (by unfold ImageBuffer.isFloat; rw [t1]; decide), idx_nat ec, Res.bind_ok]
        unfold storeFloats
        rw [e, Res.bind_ok]
      · rw [t1] at h0; cases h0

/-- C80, for integer samples below 2^24 and for XYB: every channel of the modular stream is stored in its plane, in the corner of the size of the frame; the other planes, and
the rest of the planes, stay as they are. Integer planes get the decoded integers, float planes get them as floats. In XYB frames the samples are multiplied by the factors of the
channels, and the B channel is coded as a difference from Y. Not for gray frames that are YCbCr (`C80_gray_panics`). What is missing: larger integers
(`C80_large_fails`), the meaning of the integers in float images (`C80_float_image_fails`), and channels that are smaller than the frame (`C80_sizes_fail`). -/
theorem C80_planes_partial (I : FloatImpl) {h : ImageHeader} {f : FrameHeader} (henc : f.encoding = 0 ∨ f.encoding = 1) {mods : List (List (List Int))} {bufs : List ImageBuffer}
    {v : Nat → Nat → Nat → Int} (d : Nat → F32) (hn : bufs.length = frameColourCount h f.encoding + h.extra.length)
    (hm : mods.length = (globalChannels h f).length) (hgray : f.encoding = 1 → modularColours h f = frameColourCount h f.encoding)
    (hmods : ∀ c m, mods[c]? = some m → HoldsPlane f.size.height f.size.width (v c) m) (hbufs : ∀ b ∈ bufs, b.Room f.size)
    (hxyb : f.encoding = 1 → h.xyb = true → ∀ c b, c < 3 → bufs[c]? = some b → b.bufferType = 1) :
    ∃ out, storeModular I h f [d 0, d 1, d 2] mods bufs = .ok out ∧ out.length = bufs.length ∧
      (∀ i, (∀ c, c < mods.length → planeFor (frameColourCount h f.encoding) h.xyb (f.encoding == 1) c ≠ i) → out[i]? = bufs[i]?) ∧
      ∀ c, c < mods.length → ∃ b b', bufs[planeFor (frameColourCount h f.encoding) h.xyb (f.encoding == 1) c]? = some b ∧
        out[planeFor (frameColourCount h f.encoding) h.xyb (f.encoding == 1) c]? = some b' ∧ SameKind b b' ∧
        (¬ (h.xyb = true ∧ f.encoding = 1 ∧ c < 3) → (∀ y x, y < f.size.height → x < f.size.width → |v c y x| < 2 ^ 24) →
          (b.bufferType = 0 → Stores f.size (v c) b.ints b'.ints) ∧ (b.bufferType = 1 → Stores f.size (fun y x => .fin (v c y x)) b.floats b'.floats)) ∧
        (h.xyb = true ∧ f.encoding = 1 ∧ c < 3 → (∀ y x, y < f.size.height → x < f.size.width → |v 0 y x + v 2 y x| < 2 ^ 31) →
          Stores f.size (fun y x => F32.mul (d (planeFor 3 true true c)) (F32.ofInt (if c = 2 then v 0 y x + v 2 y x else v c y x))) b.floats b'.floats) := by
  have hml : mods.length = modularColours h f + h.extra.length := by rw [hm]; simp [globalChannels]
  generalize hk : frameColourCount h f.encoding = k at *
  have hx3 : h.xyb = true → k = 3 := by
    intro hx
    rw [← hk]
    unfold frameColourCount
    rw [hx]
    rfl
  -- where the channels go
  have target : ∀ c, c < mods.length → planeFor k h.xyb (f.encoding == 1) c < bufs.length ∧
      outputIndex (h.xyb && (f.encoding == 1 && decide (c < k))) bufs.length mods.length c = .ok (planeFor k h.xyb (f.encoding == 1) c : Int) := by
    intro c hc
    rcases henc with he | he
    · have h0 : modularColours h f = 0 := by unfold modularColours; rw [he]; rfl
      have hb : (f.encoding == 1) = false := by rw [he]; rfl
      rw [hb]
      unfold planeFor outputIndex
      rw [if_neg (by decide), Bool.false_and, Bool.and_false, if_neg (by decide), Res.bind_ok]
      refine ⟨by omega, ?_⟩
      show Res.ok _ = Res.ok _
      congr 1
      push_cast
      omega
    · have hb : (f.encoding == 1) = true := by rw [he]; rfl
      have hg := hgray he
      rw [hb]
      unfold planeFor outputIndex
      rw [if_pos rfl, Bool.true_and]
      have hlen : (bufs.length : Int) - (mods.length : Int) = 0 := by omega
      rw [hlen]
      cases hx : h.xyb with
      | false =>
        rw [Bool.false_and, Bool.false_and, Bool.false_and, if_neg (by decide), if_neg (by decide), if_neg (by decide), Res.bind_ok]
        exact ⟨by omega, by simp⟩
      | true =>
        have h3 := hx3 hx
        rw [h3] at hn hg ⊢
        rw [Bool.true_and, Bool.true_and, Bool.true_and]
        by_cases c0 : c = 0
        · subst c0
          exact ⟨by rw [if_pos (by decide)]; omega, rfl⟩
        · by_cases c1 : c = 1
          · subst c1
            exact ⟨by rw [if_neg (by decide), if_pos (by decide)]; omega, rfl⟩
          · rw [if_neg (by simpa using c0), if_neg (by simpa using c1)]
            refine ⟨by omega, ?_⟩
            by_cases c2 : c < 3
            · obtain rfl : c = 2 := by omega
              rfl
            · rw [if_neg (by simpa using c2), Res.bind_ok]
              simp
  obtain ⟨out, e, h1, h2, h3⟩ := scatter_list (f := fun c bufs => storeChannel I h f [d 0, d 1, d 2] mods c bufs) (l := bufs) (planeFor k h.xyb (f.encoding == 1))
    (fun c b' => ∃ b, bufs[planeFor k h.xyb (f.encoding == 1) c]? = some b ∧ SameKind b b' ∧
        (¬ (h.xyb = true ∧ f.encoding = 1 ∧ c < 3) → (∀ y x, y < f.size.height → x < f.size.width → |v c y x| < 2 ^ 24) →
          (b.bufferType = 0 → Stores f.size (v c) b.ints b'.ints) ∧ (b.bufferType = 1 → Stores f.size (fun y x => .fin (v c y x)) b.floats b'.floats)) ∧
        (h.xyb = true ∧ f.encoding = 1 ∧ c < 3 → (∀ y x, y < f.size.height → x < f.size.width → |v 0 y x + v 2 y x| < 2 ^ 31) →
          Stores f.size (fun y x => F32.mul (d (planeFor 3 true true c)) (F32.ofInt (if c = 2 then v 0 y x + v 2 y x else v c y x))) b.floats b'.floats))
    mods.length (by
      intro a b _ _ hab
      unfold planeFor at hab
      cases hm1 : (f.encoding == 1) <;> cases hx : h.xyb <;> simp only [hm1, hx, Bool.false_and, Bool.true_and, decide_eq_true_eq] at hab
      · simpa using hab
      · simpa using hab
      · simpa using hab
      · simp only [if_true] at hab
        split at hab <;> split at hab <;> (try split at hab) <;> (try split at hab) <;> omega) (fun c hc => (target c hc).1) (by
      intro c m hc hl hget
      obtain ⟨tl, hto⟩ := target c hc
      have eb := List.getElem?_eq_getElem tl
      have room := hbufs _ (List.mem_of_getElem? eb)
      by_cases hxc : h.xyb = true ∧ f.encoding = 1 ∧ c < 3
      · obtain ⟨x1, x2, x3⟩ := hxc
        have h3 := hx3 x1
        have hg := hgray x2
        have hb1 : (f.encoding == 1) = true := by rw [x2]; rfl
        have hcond : (h.xyb && (f.encoding == 1 && decide (c < k))) = true := by rw [x1, hb1, h3]; simpa using x3
        have tgt : planeFor k h.xyb (f.encoding == 1) c = planeFor 3 true true c := by rw [x1, hb1, h3]
        have t3 : planeFor 3 true true c < 3 := by
          unfold planeFor
          rw [if_pos rfl, Bool.true_and, Bool.true_and]
          split <;> (try split) <;> omega
        have ft : (bufs[planeFor k h.xyb (f.encoding == 1) c]'tl).bufferType = 1 := hxyb x2 x1 _ _ (by rw [tgt]; exact t3) eb
        obtain ⟨b', e', sk, -, s1⟩ := storeInto_ok I (scale := d (planeFor 3 true true c)) hmods hc (isB := c == 2) (fun _ => by omega) room (fun _ => ft)
        refine ⟨b', ?_, _, eb, sk, fun hno => absurd ⟨x1, x2, x3⟩ hno, fun _ hr => ?_⟩
        · unfold storeChannel
          dsimp only
          rw [hk, hl, hto, Res.bind_ok]
          rw [hcond]
          unfold outputScale
          rw [if_pos rfl, tgt]
          have hd : idx [d 0, d 1, d 2] ((planeFor 3 true true c : Nat) : Int) = .ok (d (planeFor 3 true true c)) := by
            have : planeFor 3 true true c = 0 ∨ planeFor 3 true true c = 1 ∨ planeFor 3 true true c = 2 := by omega
            rcases this with h | h | h <;> rw [h] <;> rfl
          have hi : m[planeFor 3 true true c]? = some (bufs[planeFor k h.xyb (f.encoding == 1) c]'tl) := by rw [← tgt]; exact hget.trans eb
          rw [hd, Res.bind_ok, idx_nat hi, Res.bind_ok, Bool.true_and, e', Res.bind_ok]
          unfold setAt
          rw [if_neg (by omega), if_pos (by rw [Int.toNat_natCast, hl, ← tgt]; exact tl), Int.toNat_natCast]
        · refine (s1 ft).congr fun y x hy hx => ?_
          congr 2
          by_cases c2 : c = 2
          · subst c2
            have := abs_lt.1 (hr y x hy hx)
            rw [if_pos (by decide), if_pos rfl, i32_id (by omega) (by omega)]
          · rw [if_neg (by simpa using c2), if_neg c2]
      · have hcond : (h.xyb && (f.encoding == 1 && decide (c < k))) = false := by
          rw [Bool.and_eq_false_iff, Bool.and_eq_false_iff]
          cases hx : h.xyb with
          | false => exact Or.inl rfl
          | true =>
            rw [hx3 hx]
            rcases henc with he | he
            · exact Or.inr (Or.inl (by rw [he]; rfl))
            · exact Or.inr (Or.inr (by
                have : ¬ c < 3 := fun h => hxc ⟨hx, he, h⟩
                simpa using this))
        obtain ⟨b', e', sk, s0, s1⟩ := storeInto_ok I (scale := .fin 1) hmods hc (isB := false) (fun h => by cases h) room (fun h => by cases h)
        refine ⟨b', ?_, _, eb, sk, fun _ hr => ⟨fun t => ?_, fun t => ?_⟩, fun hyes => absurd hyes hxc⟩
        · unfold storeChannel
          dsimp only
          rw [hk, hl, hto, Res.bind_ok, hcond]
          unfold outputScale
          rw [if_neg (by decide), Res.bind_ok, idx_nat (hget.trans eb), Res.bind_ok, Bool.false_and, e', Res.bind_ok]
          unfold setAt
          rw [if_neg (by omega), if_pos (by rw [Int.toNat_natCast, hl]; exact tl), Int.toNat_natCast]
        · refine (s0 t).congr fun y x hy hx => ?_
          rw [one_times (hr y x hy hx), toI32_fin _ (hr y x hy hx)]
        · refine (s1 t).congr fun y x hy hx => ?_
          rw [if_neg (by decide), one_times (hr y x hy hx)])
  refine ⟨out, e, h1, h3, fun c hc => ?_⟩
  obtain ⟨b', hb', b, hb, rest⟩ := h2 c hc
  exact ⟨b, b', hb, hb', rest⟩


/-- The converse of the hypothesis on gray frames: a gray modular frame that claims to be YCbCr has planes for one colour and three coded ones. Storing its samples crashes. -/
theorem C80_gray_panics (I : FloatImpl) {h : ImageHeader} {f : FrameHeader} (hx : h.xyb = false) (hs : h.colour.space = 1) (he : f.encoding = 1) (hy : f.doYCbCr = true)
    (dq : List F32) {mods : List (List (List Int))} {bufs : List ImageBuffer} (hn : bufs.length = frameColourCount h f.encoding + h.extra.length)
    (hm : mods.length = (globalChannels h f).length) : storeModular I h f dq mods bufs = .panic := by
  have hml : mods.length = 3 + h.extra.length := by
    rw [hm]
    simp [globalChannels, modularColours, he, hy]
    omega
  have hbl : bufs.length = 1 + h.extra.length := by
    rw [hn]
    simp [frameColourCount, hx, he, ImageHeader.colourCount, hs]
  unfold storeModular
  obtain ⟨n, e⟩ : ∃ n, mods.length = n + 1 := ⟨2 + h.extra.length, by omega⟩
  rw [e, forFrom]
  have : storeChannel I h f dq mods 0 bufs = .panic := by
    unfold storeChannel
    dsimp only
    rw [hx, Bool.false_and]
    have neg : idx bufs (((0 : Nat) : Int) + ((bufs.length : Int) - (mods.length : Int))) = .panic := by
      unfold idx
      rw [if_pos (by omega)]
    unfold outputIndex outputScale
    rw [if_neg (by decide)]
    show (idx bufs _ >>= _) = _
    rw [neg]
    rfl
  rw [this]
  rfl

/-- A gray image of one pixel, with the given depth. -/
def grayPixel (bits expBits : Nat) : ImageHeader := { sampleHeader with size := ⟨1, 1⟩, bitDepth := ⟨bits, expBits, expBits != 0⟩ }

/-- Integers beyond 2^24 do not arrive: the sample 16777217 of an image of 32 bits is stored as 16777216. -/
theorem C80_large_fails (I : FloatImpl) : storeModular I (grayPixel 32 0) (frameSized 1 1) [] [[[16777217]]] [⟨1, 1, 0, [], [[0]]⟩] =
    .ok [⟨1, 1, 0, [], [[16777216]]⟩] := by
  have e : F32.mul (.fin 1) (F32.ofInt 16777217) = .fin 16777216 := by decide +kernel
  change (Res.ok [⟨1, 1, 0, [], [[F32.toI32 I.big (F32.mul (.fin 1) (F32.ofInt 16777217))]]⟩] : Res (List ImageBuffer)) = _
  rw [e, show (16777216 : ℚ) = ((16777216 : Int) : ℚ) by norm_num]
  rfl

/-- The samples of float images are numbers in their binary representation. They are stored as if they were integers: 1 becomes 1065353216. -/
theorem C80_float_image_fails (I : FloatImpl) : patternValue 8 23 1065353216 = 1 ∧ framePlanes (grayPixel 32 8) (frameSized 1 1) = .ok [⟨1, 1, 1, [[.fin 0]], []⟩] ∧
    storeModular I (grayPixel 32 8) (frameSized 1 1) [] [[[1065353216]]] [⟨1, 1, 1, [[.fin 0]], []⟩] = .ok [⟨1, 1, 1, [[.fin 1065353216]], []⟩] := by
  refine ⟨?_, by decide +kernel, ?_⟩
  · norm_num [patternValue]
  · have e : F32.mul (.fin 1) (F32.ofInt 1065353216) = .fin 1065353216 := by decide +kernel
    change (Res.ok [⟨1, 1, 1, [[F32.mul (.fin 1) (F32.ofInt 1065353216)]], []⟩] : Res (List ImageBuffer)) = _
    rw [e]

/-- A modular frame with subsampled colours crashes: its coded channels have the size of the frame, its planes do not. -/
theorem C80_subsampled_panics (I : FloatImpl) :
    let h := { sampleHeader with colour := ColourEncoding.dflt }
    let f := { frameSized 2 1 with doYCbCr := true, jpegX := [1, 0, 1] }
    globalChannels h f = [(⟨2, 1⟩, 0), (⟨2, 1⟩, 0), (⟨2, 1⟩, 0)] ∧
    framePlanes h f = .ok [⟨1, 1, 0, [], [[0]]⟩, ⟨2, 1, 0, [], [[0, 0]]⟩, ⟨1, 1, 0, [], [[0]]⟩] ∧
    storeModular I h f [] [[[1, 2]], [[3, 4]], [[5, 6]]] [⟨1, 1, 0, [], [[0]]⟩, ⟨2, 1, 0, [], [[0, 0]]⟩, ⟨1, 1, 0, [], [[0]]⟩] = .panic := by
  refine ⟨by decide +kernel, by decide +kernel, rfl⟩

/-- An extra channel that is to be upsampled is coded smaller: in a frame of 4 by 4 pixels, one with the factor 2 has 2 by 2 samples. The stream gives it those of the frame. -/
theorem C80_sizes_fail :
    let h := { sampleHeader with extra := [⟨[], 0, 0, 0, [], BitDepth.dflt, false⟩] }
    let f := { frameSized 4 4 with ecUpsampling := [2] }
    globalChannels h f = [(⟨4, 4⟩, 0), (⟨4, 4⟩, 0)] ∧ extraSize f.size f.upsampling 2 = ⟨2, 2⟩ := by decide +kernel

/-- A gray modular frame of two pixels with an alpha channel, and an XYB frame of one pixel, meet the hypotheses. -/
example : (∀ b ∈ [four 0 0 0 0, four 0 0 0 0], b.Room (frameSized 2 2).size) ∧ [four 0 0 0 0, four 0 0 0 0].length = frameColourCount grayAlpha 1 + grayAlpha.extra.length ∧
    (globalChannels grayAlpha (frameSized 2 2)).length = 2 ∧ modularColours grayAlpha (frameSized 2 2) = frameColourCount grayAlpha 1 ∧
    storeModular ⟨false, fun _ => 0⟩ grayAlpha (frameSized 2 2) [] [[[1, 2], [3, 4]], [[5, 6], [7, 8]]] [four 0 0 0 0, four 0 0 0 0] = .ok [four 1 2 3 4, four 5 6 7 8] := by
  refine ⟨?_, by decide, by decide, by decide, by decide +kernel⟩
  intro b hb
  obtain rfl : b = four 0 0 0 0 := by simpa using hb
  exact Or.inl ⟨rfl, 2, 2, ⟨rfl, by decide⟩, le_refl _, le_refl _⟩

example : ∃ out, storeModular ⟨false, fun _ => 0⟩ { sampleHeader with xyb := true } (frameSized 1 1) [.fin (1 / 4), .fin (1 / 2), .fin 1] [[[6]], [[7]], [[8]]]
    [⟨1, 1, 1, [[.fin 0]], []⟩, ⟨1, 1, 1, [[.fin 0]], []⟩, ⟨1, 1, 1, [[.fin 0]], []⟩] = .ok out ∧
    out = [⟨1, 1, 1, [[.fin (7 / 4)]], []⟩, ⟨1, 1, 1, [[.fin 3]], []⟩, ⟨1, 1, 1, [[.fin 14]], []⟩] := ⟨_, by decide +kernel, rfl⟩

end Jxl
