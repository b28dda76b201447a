import Verif.Model.FrameDecode
import Verif.Spec.FrameDecode
import Verif.Proofs.LFCoefficients
import Verif.Proofs.Output
import Verif.Proofs.PNGSize

namespace Jxl

section
variable {α : Type} [Arith α]

theorem widen_row {h w : Nat} {f g : Nat → Nat → α} {m : List (List α)} {y : Nat} (hy : y < h) {row : List α} (hl : row.length = w)
    (hr : ∀ x, x < w → idx row (x : Int) = .ok (f y x)) (hm : HoldsMat h (2 * w) g m) :
    ∃ m', forFrom (fun x m => widenStep row y x m) row.length 0 m = .ok m' ∧ HoldsMat h (2 * w) (fun j k => if j = y then wider w f j k else g j k) m' := by
  rw [hl]
  obtain ⟨m', e, hm'⟩ := forFrom_inv (f := fun x m => widenStep row y x m) (fun x m => HoldsMat h (2 * w) (fun j k => if j = y ∧ k < 2 * x then wider w f j k else g j k) m) w 0 m
    (hm.congr fun j k _ _ => by rw [if_neg (by omega)]) (by
      intro x m _ hx hm
      have hx : x < w := by omega
      have e1 : idx row (if x ≠ 0 then (x : Int) - 1 else 0) = .ok (f y (x - 1)) := by
        rw [show (if x ≠ 0 then (x : Int) - 1 else 0) = ((x - 1 : Nat) : Int) by split <;> omega]
        exact hr _ (by omega)
      have e2 : idx row (if x + 1 = row.length then (row.length : Int) - 1 else (x : Int) + 1) = .ok (f y (min (x + 1) (w - 1))) := by
        rw [hl, show (if x + 1 = w then (w : Int) - 1 else (x : Int) + 1) = ((min (x + 1) (w - 1) : Nat) : Int) by split <;> omega]
        exact hr _ (by omega)
      obtain ⟨m1, s1, h1⟩ := hm.set hy (x := 2 * x) (by omega) (Arith.lit (3 / 4) * f y x + Arith.lit (1 / 4) * f y (x - 1))
      obtain ⟨m2, s2, h2⟩ := h1.set hy (x := 2 * x + 1) (by omega) (Arith.lit (3 / 4) * f y x + Arith.lit (1 / 4) * f y (min (x + 1) (w - 1)))
      refine ⟨m2, ?_, h2.congr fun j k hj hk => ?_⟩
      · unfold widenStep
        rw [hr x hx, Res.bind_ok, e1, Res.bind_ok]
        rw [show (2 * (x : Int)) = ((2 * x : Nat) : Int) by omega, s1, Res.bind_ok, e2, Res.bind_ok,
          show ((2 * x : Nat) : Int) + 1 = ((2 * x + 1 : Nat) : Int) by omega, s2]
      · by_cases hjy : j = y
        · subst hjy
          by_cases k1 : k = 2 * x + 1
          · subst k1
            rw [if_pos ⟨rfl, rfl⟩, if_pos ⟨rfl, by omega⟩]
            unfold wider secondNearest
            rw [if_neg (by omega), show (2 * x + 1) / 2 = x by omega]
          · rw [if_neg (by omega)]
            by_cases k0 : k = 2 * x
            · subst k0
              rw [if_pos ⟨rfl, rfl⟩, if_pos ⟨rfl, by omega⟩]
              unfold wider secondNearest
              rw [if_pos (by omega), show (2 * x) / 2 = x by omega]
            · rw [if_neg (by omega)]
              by_cases k2 : k < 2 * x
              · rw [if_pos ⟨rfl, k2⟩, if_pos ⟨rfl, by omega⟩]
              · rw [if_neg (by omega), if_neg (by omega)]
        · rw [if_neg (by omega), if_neg (by omega), if_neg (by omega), if_neg (by omega)])
  refine ⟨m', e, hm'.congr fun j k _ hk => ?_⟩
  by_cases hj : j = y
  · rw [if_pos ⟨hj, by omega⟩, if_pos hj]
  · rw [if_neg (by omega), if_neg hj]

theorem widenPlane_ok {h w : Nat} {f g : Nat → Nat → α} {old m : List (List α)} (ho : HoldsMat h w f old) (hm : HoldsMat h (2 * w) g m) :
    ∃ m', widenPlane old m = .ok m' ∧ HoldsMat h (2 * w) (wider w f) m' := by
  unfold widenPlane
  rw [ho.1.1]
  obtain ⟨m', e, hm'⟩ := forFrom_inv (f := fun y m => do
    let row ← idx old (y : Int)
    forFrom (fun x m => widenStep row y x m) row.length 0 m) (fun y m => HoldsMat h (2 * w) (fun j k => if j < y then wider w f j k else g j k) m) h 0 m
    (hm.congr fun j k _ _ => by rw [if_neg (by omega)]) (by
      intro y m _ hy hm
      obtain ⟨row, e, hl, hr⟩ := ho.row (y := y) (by omega)
      obtain ⟨m', e', hm'⟩ := widen_row (y := y) (by omega) hl hr hm
      refine ⟨m', by rw [e, Res.bind_ok, e'], hm'.congr fun j k _ _ => ?_⟩
      by_cases hj : j = y
      · rw [if_pos hj, if_pos (by omega)]
      · rw [if_neg hj]
        by_cases hlt : j < y
        · rw [if_pos hlt, if_pos (by omega)]
        · rw [if_neg hlt, if_neg (by omega)])
  exact ⟨m', e, hm'.congr fun j k hj _ => by rw [if_pos (by omega)]⟩

theorem heightenPlane_ok {h w : Nat} {f g : Nat → Nat → α} {old m : List (List α)} (ho : HoldsMat h w f old) (hm : HoldsMat (2 * h) w g m) :
    ∃ m', heightenPlane old m = .ok m' ∧ HoldsMat (2 * h) w (higher h f) m' := by
  unfold heightenPlane
  rw [ho.1.1]
  obtain ⟨m', e, hm'⟩ := forFrom_inv (f := fun y m => do
    let row ← idx old (y : Int)
    let prev ← idx old (if y = 0 then 0 else (y : Int) - 1)
    let next ← idx old (if y + 1 = h then (h : Int) - 1 else (y : Int) + 1)
    forFrom (fun x m => heightenStep row prev next y x m) row.length 0 m)
    (fun y m => HoldsMat (2 * h) w (fun j k => if j < 2 * y then higher h f j k else g j k) m) h 0 m
    (hm.congr fun j k _ _ => by rw [if_neg (by omega)]) (by
      intro y m _ hy hm
      have hy : y < h := by omega
      obtain ⟨row, e, hl, hr⟩ := ho.row (y := y) hy
      obtain ⟨prev, ep, -, hp⟩ := ho.row (y := y - 1) (by omega)
      obtain ⟨next, en, -, hn⟩ := ho.row (y := min (y + 1) (h - 1)) (by omega)
      rw [e, Res.bind_ok, show (if y = 0 then 0 else (y : Int) - 1) = ((y - 1 : Nat) : Int) by split <;> omega, ep, Res.bind_ok,
        show (if y + 1 = h then (h : Int) - 1 else (y : Int) + 1) = ((min (y + 1) (h - 1) : Nat) : Int) by split <;> omega, en, Res.bind_ok, hl]
      obtain ⟨m', e', hm'⟩ := forFrom_inv (f := fun x m => heightenStep row prev next y x m)
        (fun x m => HoldsMat (2 * h) w (fun j k => if j < 2 * y ∨ (j < 2 * y + 2 ∧ k < x) then higher h f j k else g j k) m) w 0 m
        (hm.congr fun j k _ _ => by
          by_cases hj : j < 2 * y
          · rw [if_pos hj, if_pos (Or.inl hj)]
          · rw [if_neg hj, if_neg (by omega)]) (by
          intro x m _ hx hm
          have hx : x < w := by omega
          obtain ⟨m1, s1, h1⟩ := hm.set (y := 2 * y) (x := x) (by omega) hx (Arith.lit (3 / 4) * f y x + Arith.lit (1 / 4) * f (y - 1) x)
          obtain ⟨m2, s2, h2⟩ := h1.set (y := 2 * y + 1) (x := x) (by omega) hx (Arith.lit (3 / 4) * f y x + Arith.lit (1 / 4) * f (min (y + 1) (h - 1)) x)
          refine ⟨m2, ?_, h2.congr fun j k hj hk => ?_⟩
          · unfold heightenStep
            rw [hr x hx, Res.bind_ok, hp x hx, Res.bind_ok, show (2 * (y : Int)) = ((2 * y : Nat) : Int) by omega, s1, Res.bind_ok, hn x hx, Res.bind_ok,
              show ((2 * y : Nat) : Int) + 1 = ((2 * y + 1 : Nat) : Int) by omega, s2]
          · by_cases k1 : j = 2 * y + 1 ∧ k = x
            · obtain ⟨rfl, rfl⟩ := k1
              rw [if_pos ⟨rfl, rfl⟩, if_pos (by omega)]
              unfold higher secondNearest
              rw [if_neg (by omega), show (2 * y + 1) / 2 = y by omega]
            · rw [if_neg k1]
              by_cases k0 : j = 2 * y ∧ k = x
              · obtain ⟨rfl, rfl⟩ := k0
                rw [if_pos ⟨rfl, rfl⟩, if_pos (by omega)]
                unfold higher secondNearest
                rw [if_pos (by omega), show (2 * y) / 2 = y by omega]
              · rw [if_neg k0]
                by_cases k2 : j < 2 * y ∨ (j < 2 * y + 2 ∧ k < x)
                · rw [if_pos k2, if_pos (by omega)]
                · rw [if_neg k2, if_neg (by omega)])
      refine ⟨m', e', hm'.congr fun j k _ _ => ?_⟩
      by_cases hj : j < 2 * (y + 1)
      · rw [if_pos (by omega), if_pos hj]
      · rw [if_neg (by omega), if_neg hj])
  exact ⟨m', e, hm'.congr fun j k hj _ => by rw [if_pos (by omega)]⟩

end

theorem floatBuffer_new {h w : Nat} (hh : h ≤ 1073741824) (hw : w ≤ 1073741824) : newImageBuffer 1 (h : Int) (w : Int) =
    .ok ⟨w, h, 1, List.replicate h (List.replicate w (F32.fin 0)), []⟩ := by
  unfold newImageBuffer
  rw [if_neg (by omega), if_neg (by omega), if_neg (by omega), makeMatrix_table, Res.bind_ok]

theorem HoldsMat.replicate {α : Type} (v : α) (h w : Nat) : HoldsMat h w (fun _ _ => v) (List.replicate h (List.replicate w v)) := by
  refine ⟨table_replicate v h w, fun y x hy hx => ?_⟩
  simp [sample, List.getElem?_replicate, hy, hx]

theorem widenBuffer_float {H W depth : Nat} {f : Nat → Nat → F32} {b : ImageBuffer} (hb : ShowsFloats H W f b) (hh : H ≤ 1073741824) (hw : 2 * W ≤ 1073741824) :
    ∃ b', widenBuffer depth b = .ok b' ∧ ShowsFloats H (2 * W) (wider W f) b' := by
  obtain ⟨⟨t, h1, h2, -⟩, hf⟩ := hb
  obtain ⟨m, e, hm⟩ := widenPlane_ok hf (HoldsMat.replicate (F32.fin 0) H (2 * W))
  refine ⟨⟨((2 * W : Nat) : Int), H, 1, m, []⟩, ?_, ⟨rfl, rfl, rfl, hm.1⟩, hm⟩
  unfold widenBuffer castToFloatIfMax
  rw [if_pos t, Res.bind_ok, h1, h2, i32_id (by omega) (by omega), show (W : Int) * 2 = ((2 * W : Nat) : Int) by omega, floatBuffer_new hh hw, Res.bind_ok]
  dsimp only
  rw [e, Res.bind_ok]

theorem heightenBuffer_float {H W depth : Nat} {f : Nat → Nat → F32} {b : ImageBuffer} (hb : ShowsFloats H W f b) (hh : 2 * H ≤ 1073741824) (hw : W ≤ 1073741824) :
    ∃ b', heightenBuffer depth b = .ok b' ∧ ShowsFloats (2 * H) W (higher H f) b' := by
  obtain ⟨⟨t, h1, h2, -⟩, hf⟩ := hb
  obtain ⟨m, e, hm⟩ := heightenPlane_ok hf (HoldsMat.replicate (F32.fin 0) (2 * H) W)
  refine ⟨⟨W, ((2 * H : Nat) : Int), 1, m, []⟩, ?_, ⟨rfl, rfl, rfl, hm.1⟩, hm⟩
  unfold heightenBuffer castToFloatIfMax
  rw [if_pos t, Res.bind_ok, h1, h2, i32_id (by omega) (by omega), show (H : Int) * 2 = ((2 * H : Nat) : Int) by omega, floatBuffer_new hh hw, Res.bind_ok]
  dsimp only
  rw [e, Res.bind_ok]

/-! ## Planes of any kind -/

theorem px_float {d H W : Nat} {b : ImageBuffer} (hb : b.FloatPicture H W) : ShowsFloats H W (Spec.px d b) b := by
  refine ⟨hb, hb.2.2.2, fun y x hy hx => ?_⟩
  obtain ⟨v, hv⟩ := hb.2.2.2.sample hy hx
  unfold Spec.px Spec.value
  rw [hb.1, if_neg (by omega), hv]
  rfl

theorem cast_px {d H W : Nat} {b : ImageBuffer} (hb : b.Picture H W) (hd : 1 ≤ d ∧ d ≤ 31) :
    ∃ b', castToFloatIfMax b (mask32 d) = .ok b' ∧ ShowsFloats H W (Spec.px d b) b' := by
  obtain ⟨b', e, hf, e1, e0⟩ := cast_channel hb (d := d) (fun _ => hd)
  refine ⟨b', e, hf, hf.2.2.2, fun y x hy hx => ?_⟩
  rcases hb with hb | hb
  · rw [e0 hb.1 y x hy hx]
    obtain ⟨v, hv⟩ := hb.2.2.2.sample hy hx
    unfold Spec.px Spec.value
    rw [if_pos hb.1, hv]
    rfl
  · rw [e1 hb.1]
    exact (px_float (d := d) hb).2.2 y x hy hx

theorem widenBuffer_ok {H W depth : Nat} (hd : 1 ≤ depth ∧ depth ≤ 31) {b : ImageBuffer} (hb : b.Picture H W) (hh : H ≤ 1073741824) (hw : 2 * W ≤ 1073741824) :
    ∃ b', widenBuffer depth b = .ok b' ∧ ShowsFloats H (2 * W) (wider W (Spec.px depth b)) b' := by
  obtain ⟨b1, e1, h1⟩ := cast_px hb hd
  obtain ⟨b', e, h⟩ := widenBuffer_float (depth := depth) h1 hh hw
  refine ⟨b', ?_, h⟩
  rw [← e]
  unfold widenBuffer
  rw [e1, Res.bind_ok, castToFloatIfMax, if_pos h1.1.1, Res.bind_ok]

theorem heightenBuffer_ok {H W depth : Nat} (hd : 1 ≤ depth ∧ depth ≤ 31) {b : ImageBuffer} (hb : b.Picture H W) (hh : 2 * H ≤ 1073741824) (hw : W ≤ 1073741824) :
    ∃ b', heightenBuffer depth b = .ok b' ∧ ShowsFloats (2 * H) W (higher H (Spec.px depth b)) b' := by
  obtain ⟨b1, e1, h1⟩ := cast_px hb hd
  obtain ⟨b', e, h⟩ := heightenBuffer_float (depth := depth) h1 hh hw
  refine ⟨b', ?_, h⟩
  rw [← e]
  unfold heightenBuffer
  rw [e1, Res.bind_ok, castToFloatIfMax, if_pos h1.1.1, Res.bind_ok]

theorem widenN_float {depth : Nat} (n i : Nat) : ∀ {H W : Nat} {f : Nat → Nat → F32} {b : ImageBuffer}, ShowsFloats H W f b → H ≤ 1073741824 → 2 ^ n * W ≤ 1073741824 →
    ∃ b', forFrom (fun _ b => widenBuffer depth b) n i b = .ok b' ∧ ShowsFloats H (2 ^ n * W) (widerBy n W f) b' := by
  induction n generalizing i with
  | zero =>
    intro H W f b hb _ _
    exact ⟨b, rfl, by simpa [widerBy] using hb⟩
  | succ n ih =>
    intro H W f b hb hh hw
    have h2 : 2 ^ n * (2 * W) = 2 ^ (n + 1) * W := by rw [pow_succ]; ring
    have h1 : 1 ≤ 2 ^ n := Nat.one_le_two_pow
    obtain ⟨b1, e1, s1⟩ := widenBuffer_float (depth := depth) hb hh (Nat.le_trans (Nat.le_mul_of_pos_left _ h1) (h2 ▸ hw))
    obtain ⟨b2, e2, s2⟩ := ih (i + 1) s1 hh (by rw [h2]; exact hw)
    refine ⟨b2, ?_, ?_⟩
    · rw [forFrom, e1, Res.bind_ok, e2]
    · rw [h2] at s2
      exact s2

theorem heightenN_float {depth : Nat} (n i : Nat) : ∀ {H W : Nat} {f : Nat → Nat → F32} {b : ImageBuffer}, ShowsFloats H W f b → 2 ^ n * H ≤ 1073741824 → W ≤ 1073741824 →
    ∃ b', forFrom (fun _ b => heightenBuffer depth b) n i b = .ok b' ∧ ShowsFloats (2 ^ n * H) W (higherBy n H f) b' := by
  induction n generalizing i with
  | zero =>
    intro H W f b hb _ _
    exact ⟨b, rfl, by simpa [higherBy] using hb⟩
  | succ n ih =>
    intro H W f b hb hh hw
    have h2 : 2 ^ n * (2 * H) = 2 ^ (n + 1) * H := by rw [pow_succ]; ring
    have h1 : 1 ≤ 2 ^ n := Nat.one_le_two_pow
    obtain ⟨b1, e1, s1⟩ := heightenBuffer_float (depth := depth) hb (Nat.le_trans (Nat.le_mul_of_pos_left _ h1) (h2 ▸ hh)) hw
    obtain ⟨b2, e2, s2⟩ := ih (i + 1) s1 (by rw [h2]; exact hh) hw
    refine ⟨b2, ?_, ?_⟩
    · rw [forFrom, e1, Res.bind_ok, e2]
    · rw [h2] at s2
      exact s2

/-- One plane. -/
theorem subsampled_ok {H W depth x y : Nat} (hd : 1 ≤ depth ∧ depth ≤ 31) {b : ImageBuffer} (hb : b.Picture H W) (hh : 2 ^ y * H ≤ 1073741824) (hw : 2 ^ x * W ≤ 1073741824)
    (hs : x ≠ 0 ∨ y ≠ 0) :
    ∃ b1 b2, forFrom (fun _ b => widenBuffer depth b) x 0 b = .ok b1 ∧ forFrom (fun _ b => heightenBuffer depth b) y 0 b1 = .ok b2 ∧
      ShowsFloats (2 ^ y * H) (2 ^ x * W) (fullSize x y H W (Spec.px depth b)) b2 := by
  have hh1 : H ≤ 1073741824 := Nat.le_trans (Nat.le_mul_of_pos_left _ Nat.one_le_two_pow) hh
  cases x with
  | zero =>
    cases y with
    | zero => omega
    | succ y =>
      have h2 : 2 ^ y * (2 * H) = 2 ^ (y + 1) * H := by rw [pow_succ]; ring
      obtain ⟨b1, e1, s1⟩ := heightenBuffer_ok hd hb (Nat.le_trans (Nat.le_mul_of_pos_left _ (Nat.one_le_two_pow (n := y))) (h2 ▸ hh)) (by simpa using hw)
      obtain ⟨b2, e2, s2⟩ := heightenN_float (depth := depth) y (0 + 1) s1 (by rw [h2]; exact hh) (by simpa using hw)
      refine ⟨b, b2, rfl, ?_, ?_⟩
      · rw [forFrom, e1, Res.bind_ok, e2]
      · rw [h2] at s2
        rw [pow_zero, one_mul]
        exact s2
  | succ x =>
    have h2 : 2 ^ x * (2 * W) = 2 ^ (x + 1) * W := by rw [pow_succ]; ring
    obtain ⟨b1, e1, s1⟩ := widenBuffer_ok hd hb hh1 (Nat.le_trans (Nat.le_mul_of_pos_left _ (Nat.one_le_two_pow (n := x))) (h2 ▸ hw))
    obtain ⟨b2, e2, s2⟩ := widenN_float (depth := depth) x (0 + 1) s1 hh1 (by rw [h2]; exact hw)
    rw [h2] at s2
    obtain ⟨b3, e3, s3⟩ := heightenN_float (depth := depth) y 0 s2 hh hw
    refine ⟨b2, b3, ?_, e3, s3⟩
    rw [forFrom, e1, Res.bind_ok, e2]

/-- A loop of steps on one buffer. -/
theorem onBuffer_loop {g : ImageBuffer → Res ImageBuffer} {c : Nat} (n : Nat) : ∀ (i : Nat) {l : List ImageBuffer} {b b' : ImageBuffer}, l[c]? = some b →
    forFrom (fun _ b => g b) n i b = .ok b' → forFrom (fun _ l => onBuffer g c l) n i l = .ok (l.set c b') := by
  induction n with
  | zero =>
    intro i l b b' hl h
    injection h with h
    subst h
    obtain ⟨hl', ev⟩ := List.getElem?_eq_some_iff.1 hl
    rw [← ev, List.set_getElem_self]
    rfl
  | succ n ih =>
    intro i l b b' hl h
    rw [forFrom] at h
    obtain ⟨b1, e1, e2⟩ := Res.of_bind h
    have hc : c < l.length := (List.getElem?_eq_some_iff.1 hl).1
    have e : onBuffer g c l = .ok (l.set c b1) := by
      unfold onBuffer
      rw [idx_nat hl, Res.bind_ok, e1, Res.bind_ok]
      unfold setAt
      rw [if_neg (by omega), if_pos (by simpa using hc), Int.toNat_natCast]
    rw [forFrom, e, Res.bind_ok, ih (i + 1) (b := b1) (b' := b') (by simp [hc]) e2, List.set_set]

/-- One channel of `invertSubsampling`. -/
theorem subsampling_step {depth c x y : Nat} {jx jy : List Nat} {l : List ImageBuffer} (hx : jx[c]? = some x) (hy : jy[c]? = some y) :
    (x = 0 → y = 0 → (do
      let x ← idx jx (c : Int)
      let y ← idx jy (c : Int)
      let l ← forFrom (fun _ l => onBuffer (widenBuffer depth) c l) x 0 l
      forFrom (fun _ l => onBuffer (heightenBuffer depth) c l) y 0 l : Res (List ImageBuffer)) = .ok l) ∧
    ∀ b b1 b2, l[c]? = some b → forFrom (fun _ b => widenBuffer depth b) x 0 b = .ok b1 → forFrom (fun _ b => heightenBuffer depth b) y 0 b1 = .ok b2 → (do
      let x ← idx jx (c : Int)
      let y ← idx jy (c : Int)
      let l ← forFrom (fun _ l => onBuffer (widenBuffer depth) c l) x 0 l
      forFrom (fun _ l => onBuffer (heightenBuffer depth) c l) y 0 l : Res (List ImageBuffer)) = .ok (l.set c b2) := by
  rw [idx_nat hx, Res.bind_ok, idx_nat hy, Res.bind_ok]
  constructor
  · rintro rfl rfl
    rfl
  · intro b b1 b2 hb e1 e2
    rw [onBuffer_loop x 0 hb e1, Res.bind_ok]
    have hc : c < l.length := (List.getElem?_eq_some_iff.1 hb).1
    rw [onBuffer_loop y 0 (b := b1) (b' := b2) (by simp [hc]) e2, List.set_set]

end Jxl
