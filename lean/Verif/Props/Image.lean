import Verif.Proofs.Image
import Verif.Spec.ImageHeader

/-! # Orientation (C33) -/
namespace Jxl

/-- One element type: all eight orientations put every sample where EXIF says, and nothing else is displayed. -/
theorem transposeMatrix_ok {α : Type} (z : α) (src : List (List α)) (h w o : Nat) (rs cs : Side) (hT : Table h w src) (hh : 0 < h) (hw : 0 < w)
    (ho : exif o = some (rs, cs)) :
    ∃ dst, transposeMatrix z src o = .ok dst ∧ Table (shownSize rs h w).1 (shownSize rs h w).2 dst ∧
      ∀ y x, y < h → x < w → sample dst (shown rs cs h w y x).1 (shown rs cs h w y x).2 = sample src y x := by
  obtain ⟨r, hr, hl⟩ := hT.row hh
  have h0 : idx src 0 = .ok r := by simp [idx, hr]
  have hlen := hT.1
  have hg : ∀ y x, ∃ v, y < h → x < w → sample src y x = some v := by
    intro y x
    by_cases hyx : y < h ∧ x < w
    · obtain ⟨v, hv⟩ := hT.sample hyx.1 hyx.2
      exact ⟨v, fun _ _ => hv⟩
    · exact ⟨z, fun a b => absurd ⟨a, b⟩ hyx⟩
  choose g hg' using hg
  have hget : ∀ y x, y < h → x < w → at2 src (y : Int) (x : Int) = .ok (g y x) := fun y x hy hx => at2_sample (hg' y x hy hx)
  have hflat := table_replicate z h w
  have htall := table_replicate z w h
  have e1 : (h : Int) - 1 = ((h - 1 : Nat) : Int) := by omega
  have e2 : (w : Int) - 1 = ((w - 1 : Nat) : Int) := by omega
  have hcases : o = 1 ∨ o = 2 ∨ o = 3 ∨ o = 4 ∨ o = 5 ∨ o = 6 ∨ o = 7 ∨ o = 8 := by
    unfold exif at ho
    split at ho <;> first | omega | cases ho
  unfold transposeMatrix
  simp only [h0, Res.bind_ok, hl, hlen, makeMatrix_table, e1, e2]
  rcases hcases with rfl | rfl | rfl | rfl | rfl | rfl | rfl | rfl <;> (simp only [exif, Option.some.injEq, Prod.mk.injEq] at ho; obtain ⟨rfl, rfl⟩ := ho)
  · exact ⟨src, rfl, hT, fun y x _ _ => rfl⟩
  · obtain ⟨d, e, t, s, _⟩ := scatterTo_ok (h := h) (w := w) (fun y x => ((y : Int), ((w - 1 : Nat) : Int) - x)) (fun (y x : Nat) => at2 src y x)
      (fun y _ => y) (fun _ x => w - 1 - x) g _ hflat (fun y x hy hx => by simp only [Prod.mk.injEq, true_and]; omega) (fun y x hy hx => ⟨hy, by omega⟩) hget
      (fun y x y' x' _ _ _ _ a b => by omega)
    exact ⟨d, e, t, fun y x hy hx => by rw [hg' y x hy hx]; exact s y x hy hx⟩
  · obtain ⟨d, e, t, s, _⟩ := scatterTo_ok (h := h) (w := w) (fun y x => (((h - 1 : Nat) : Int) - y, ((w - 1 : Nat) : Int) - x)) (fun (y x : Nat) => at2 src y x)
      (fun y _ => h - 1 - y) (fun _ x => w - 1 - x) g _ hflat (fun y x hy hx => by simp only [Prod.mk.injEq]; omega) (fun y x hy hx => ⟨by omega, by omega⟩) hget
      (fun y x y' x' _ _ _ _ a b => by omega)
    exact ⟨d, e, t, fun y x hy hx => by rw [hg' y x hy hx]; exact s y x hy hx⟩
  · obtain ⟨d, e, t, s, _⟩ := scatterTo_ok (h := h) (w := w) (fun y x => (((h - 1 : Nat) : Int) - y, (x : Int))) (fun (y x : Nat) => at2 src y x)
      (fun y _ => h - 1 - y) (fun _ x => x) g _ hflat (fun y x hy hx => by simp only [Prod.mk.injEq, and_true]; omega) (fun y x hy hx => ⟨by omega, by omega⟩) hget
      (fun y x y' x' _ _ _ _ a b => by omega)
    exact ⟨d, e, t, fun y x hy hx => by rw [hg' y x hy hx]; exact s y x hy hx⟩
  · obtain ⟨d, e, t, s, _⟩ := scatterTo_ok (h := h) (w := w) (fun y x => ((x : Int), (y : Int))) (fun (y x : Nat) => at2 src y x)
      (fun _ x => x) (fun y _ => y) g _ htall (fun y x hy hx => rfl) (fun y x hy hx => ⟨by omega, by omega⟩) hget
      (fun y x y' x' _ _ _ _ a b => by omega)
    exact ⟨d, e, t, fun y x hy hx => by rw [hg' y x hy hx]; exact s y x hy hx⟩
  · obtain ⟨d, e, t, s, _⟩ := scatterTo_ok (h := h) (w := w) (fun y x => ((x : Int), ((h - 1 : Nat) : Int) - y)) (fun (y x : Nat) => at2 src y x)
      (fun _ x => x) (fun y _ => h - 1 - y) g _ htall (fun y x hy hx => by simp only [Prod.mk.injEq, true_and]; omega) (fun y x hy hx => ⟨by omega, by omega⟩) hget
      (fun y x y' x' _ _ _ _ a b => by omega)
    exact ⟨d, e, t, fun y x hy hx => by rw [hg' y x hy hx]; exact s y x hy hx⟩
  · obtain ⟨d, e, t, s, _⟩ := scatterTo_ok (h := h) (w := w) (fun y x => (((w - 1 : Nat) : Int) - x, ((h - 1 : Nat) : Int) - y)) (fun (y x : Nat) => at2 src y x)
      (fun _ x => w - 1 - x) (fun y _ => h - 1 - y) g _ htall (fun y x hy hx => by simp only [Prod.mk.injEq]; omega) (fun y x hy hx => ⟨by omega, by omega⟩) hget
      (fun y x y' x' _ _ _ _ a b => by omega)
    exact ⟨d, e, t, fun y x hy hx => by rw [hg' y x hy hx]; exact s y x hy hx⟩
  · obtain ⟨d, e, t, s, _⟩ := scatterTo_ok (h := h) (w := w) (fun y x => (((w - 1 : Nat) : Int) - x, (y : Int))) (fun (y x : Nat) => at2 src y x)
      (fun _ x => w - 1 - x) (fun y _ => y) g _ htall (fun y x hy hx => by simp only [Prod.mk.injEq, and_true]; omega) (fun y x hy hx => ⟨by omega, by omega⟩) hget
      (fun y x y' x' _ _ _ _ a b => by omega)
    exact ⟨d, e, t, fun y x hy hx => by rw [hg' y x hy hx]; exact s y x hy hx⟩

theorem shownSize_pos {rs : Side} {h w : Nat} (hh : 0 < h) (hw : 0 < w) : 0 < (shownSize rs h w).1 ∧ 0 < (shownSize rs h w).2 := by
  unfold shownSize
  split <;> exact ⟨by assumption, by assumption⟩

theorem shownSize_le {rs : Side} {h w n : Nat} (hh : h < n) (hw : w < n) : (shownSize rs h w).1 < n ∧ (shownSize rs h w).2 < n := by
  unfold shownSize
  split <;> exact ⟨by assumption, by assumption⟩

theorem i32_nat {n : Nat} (h : n < 2147483648) : i32 (n : Int) = n := by
  unfold i32
  omega

/-- C33: an integer picture of any size is oriented as EXIF prescribes: the result has the displayed size, every
stored sample is displayed at its place, … -/
theorem C33_ints (b : ImageBuffer) (h w o : Nat) (rs cs : Side) (hb : b.IntPicture h w) (hh : 0 < h) (hw : 0 < w)
    (hh' : h < 2 ^ 31) (hw' : w < 2 ^ 31) (ho : exif o = some (rs, cs)) :
    ∃ b', transposeBuffer b o = .ok b' ∧ b'.IntPicture (shownSize rs h w).1 (shownSize rs h w).2 ∧
      ∀ y x, y < h → x < w → sample b'.ints (shown rs cs h w y x).1 (shown rs cs h w y x).2 = sample b.ints y x := by
  obtain ⟨hbt, _, _, hT⟩ := hb
  obtain ⟨d, e, t, s⟩ := transposeMatrix_ok 0 b.ints h w o rs cs hT hh hw ho
  have hp := shownSize_pos (rs := rs) hh hw
  have hle := shownSize_le (rs := rs) hh' hw'
  obtain ⟨r, hr, hl⟩ := t.row hp.1
  have h0 : idx d 0 = .ok r := by simp [idx, hr]
  refine ⟨⟨i32 r.length, i32 d.length, 0, [], d⟩, ?_, ⟨rfl, ?_, ?_, t⟩, s⟩
  · unfold transposeBuffer ImageBuffer.isInt
    rw [hbt, if_pos (by rfl), e, Res.bind_ok, bufferFromInts, h0]
    rfl
  · show i32 d.length = _
    rw [t.1]
    exact i32_nat hle.1
  · show i32 r.length = _
    rw [hl]
    exact i32_nat hle.2

/-- … and the same for float pictures. -/
theorem C33_floats (b : ImageBuffer) (h w o : Nat) (rs cs : Side) (hb : b.FloatPicture h w) (hh : 0 < h) (hw : 0 < w)
    (hh' : h < 2 ^ 31) (hw' : w < 2 ^ 31) (ho : exif o = some (rs, cs)) :
    ∃ b', transposeBuffer b o = .ok b' ∧ b'.FloatPicture (shownSize rs h w).1 (shownSize rs h w).2 ∧
      ∀ y x, y < h → x < w → sample b'.floats (shown rs cs h w y x).1 (shown rs cs h w y x).2 = sample b.floats y x := by
  obtain ⟨hbt, _, _, hT⟩ := hb
  obtain ⟨d, e, t, s⟩ := transposeMatrix_ok (.fin 0) b.floats h w o rs cs hT hh hw ho
  have hp := shownSize_pos (rs := rs) hh hw
  have hle := shownSize_le (rs := rs) hh' hw'
  obtain ⟨r, hr, hl⟩ := t.row hp.1
  have h0 : idx d 0 = .ok r := by simp [idx, hr]
  refine ⟨⟨i32 r.length, i32 d.length, 1, d, []⟩, ?_, ⟨rfl, ?_, ?_, t⟩, s⟩
  · unfold transposeBuffer ImageBuffer.isInt
    rw [hbt, if_neg (by decide), e, Res.bind_ok, bufferFromFloats, h0]
    rfl
  · show i32 d.length = _
    rw [t.1]
    exact i32_nat hle.1
  · show i32 r.length = _
    rw [hl]
    exact i32_nat hle.2

/-- The displayed places are exactly the places of the displayed picture, each taken once: orientation is a
permutation of the pixels. -/
theorem C33_permutation (o h w : Nat) (rs cs : Side) (ho : exif o = some (rs, cs)) :
    (∀ y x, y < h → x < w → (shown rs cs h w y x).1 < (shownSize rs h w).1 ∧ (shown rs cs h w y x).2 < (shownSize rs h w).2) ∧
    (∀ y x y' x', y < h → x < w → y' < h → x' < w → shown rs cs h w y x = shown rs cs h w y' x' → y = y' ∧ x = x') ∧
    (∀ r c, r < (shownSize rs h w).1 → c < (shownSize rs h w).2 → ∃ y x, y < h ∧ x < w ∧ shown rs cs h w y x = (r, c)) := by
  have hcases : o = 1 ∨ o = 2 ∨ o = 3 ∨ o = 4 ∨ o = 5 ∨ o = 6 ∨ o = 7 ∨ o = 8 := by
    unfold exif at ho
    split at ho <;> first | omega | cases ho
  rcases hcases with rfl | rfl | rfl | rfl | rfl | rfl | rfl | rfl <;>
    (simp only [exif, Option.some.injEq, Prod.mk.injEq] at ho; obtain ⟨rfl, rfl⟩ := ho
     simp only [shown, shownSize, Side.vertical, Side.place, if_true, Bool.false_eq_true, if_false, Prod.mk.injEq]
     refine ⟨fun y x _ _ => by omega, fun y x y' x' _ _ _ _ _ => by omega, fun r c hr hc => ?_⟩)
  · exact ⟨r, c, by omega⟩
  · exact ⟨r, w - 1 - c, by omega⟩
  · exact ⟨h - 1 - r, w - 1 - c, by omega⟩
  · exact ⟨h - 1 - r, c, by omega⟩
  · exact ⟨c, r, by omega⟩
  · exact ⟨h - 1 - c, r, by omega⟩
  · exact ⟨h - 1 - c, w - 1 - r, by omega⟩
  · exact ⟨c, w - 1 - r, by omega⟩

/-- Other orientations are rejected with an error, for every picture with at least one row. -/
theorem C33_rejected (b : ImageBuffer) (o : Nat) (ho : exif o = none)
    (hb : (b.bufferType = 0 ∧ b.ints ≠ []) ∨ (b.bufferType = 1 ∧ b.floats ≠ [])) : transposeBuffer b o = .err := by
  have key : ∀ {α : Type} (z : α) (m : List (List α)), m ≠ [] → transposeMatrix z m o = .err := by
    intro α z m hm
    cases m with
    | nil => exact absurd rfl hm
    | cons r rs =>
      unfold transposeMatrix
      have h0 : idx (r :: rs) 0 = .ok r := rfl
      simp only [h0, Res.bind_ok, makeMatrix_table]
      unfold exif at ho
      split at ho <;> first | (cases ho; done) | skip
      rw [if_neg (by omega), if_neg (by omega), if_neg (by omega), if_neg (by omega), if_neg (by omega), if_neg (by omega), if_neg (by omega), if_neg (by omega)]
  unfold transposeBuffer ImageBuffer.isInt
  rcases hb with ⟨ht, hm⟩ | ⟨ht, hm⟩
  · rw [ht, if_pos (by rfl), key 0 b.ints hm]
    rfl
  · rw [ht, if_neg (by decide), key (.fin 0) b.floats hm]
    rfl

/-- All channels of the canvas of an `h × w` image come out with the displayed size that the image header announces. -/
theorem C33_canvas (bs : List ImageBuffer) (h w o : Nat) (rs cs : Side) (hh : 0 < h) (hw : 0 < w) (hh' : h < 2 ^ 31) (hw' : w < 2 ^ 31)
    (ho : exif o = some (rs, cs)) (hb : ∀ b ∈ bs, b.IntPicture h w ∨ b.FloatPicture h w) :
    ∃ bs', orientCanvas bs o = .ok bs' ∧ bs'.length = bs.length ∧
      ∀ b' ∈ bs', b'.IntPicture (shownSize rs h w).1 (shownSize rs h w).2 ∨ b'.FloatPicture (shownSize rs h w).1 (shownSize rs h w).2 := by
  induction bs with
  | nil => exact ⟨[], rfl, rfl, fun _ h => absurd h List.not_mem_nil⟩
  | cons b bs ih =>
    obtain ⟨bs', e, hl, hp⟩ := ih (fun b hb' => hb b (List.mem_cons_of_mem _ hb'))
    have : ∃ b', transposeBuffer b o = .ok b' ∧
        (b'.IntPicture (shownSize rs h w).1 (shownSize rs h w).2 ∨ b'.FloatPicture (shownSize rs h w).1 (shownSize rs h w).2) := by
      rcases hb b List.mem_cons_self with hi | hf
      · obtain ⟨b', e', p, _⟩ := C33_ints b h w o rs cs hi hh hw hh' hw' ho
        exact ⟨b', e', Or.inl p⟩
      · obtain ⟨b', e', p, _⟩ := C33_floats b h w o rs cs hf hh hw hh' hw' ho
        exact ⟨b', e', Or.inr p⟩
    obtain ⟨b', e', p⟩ := this
    refine ⟨b' :: bs', ?_, by simp only [List.length_cons, hl], ?_⟩
    · rw [orientCanvas, e', Res.bind_ok, e]
      rfl
    · intro x hx
      rcases List.mem_cons.1 hx with rfl | hx
      · exact p
      · exact hp x hx

/-- The displayed size is the one the image header announces (C56). -/
theorem C33_header (o : Nat) (rs cs : Side) (ho : exif o = some (rs, cs)) (d : Dim) :
    shownSize rs d.height d.width = ((orientedSize o d).height, (orientedSize o d).width) := by
  unfold exif at ho
  split at ho <;> (cases ho <;> rfl)

/-- The hypotheses hold for a 2×3 picture; rotating it by 90° clockwise (orientation 6) gives the expected rows. -/
example : (⟨3, 2, 0, [], [[1, 2, 3], [4, 5, 6]]⟩ : ImageBuffer).IntPicture 2 3 ∧ exif 6 = some (.right, .top) ∧
    transposeBuffer ⟨3, 2, 0, [], [[1, 2, 3], [4, 5, 6]]⟩ 6 = .ok ⟨2, 3, 0, [], [[4, 1], [5, 2], [6, 3]]⟩ := by
  refine ⟨⟨rfl, rfl, rfl, rfl, by decide⟩, rfl, by decide⟩
example : exif 9 = none ∧ exif 0 = none := ⟨rfl, rfl⟩

end Jxl
