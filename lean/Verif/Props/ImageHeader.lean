import Verif.Proofs.ImageHeader
import Verif.Proofs.Safe
/-!
# C38, C39, C56: image sizes and the image header
-/
namespace Jxl
open Spec

/-! ## No stream crashes the reader -/

theorem safe_enum : Safe readEnum (fun v => v ≤ 63) := by
  unfold readEnum
  refine Safe.bind (safe_u32 _ _ _ _ _ _ _ _) (fun c _ => ?_)
  split
  · exact Safe.fail
  · exact Safe.pure (by omega)

theorem safe_u64Loop (k : Nat) : ∀ v, k ≤ 6 → Safe (readU64Loop (60 - 8 * k) v) (fun _ => True) := by
  induction k with
  | zero =>
    intro v _ s
    unfold readU64Loop
    have hb := safe_bool s
    rcases hr : readBool s with ⟨_ | _ | _, s'⟩
    · simp only
      split
      · trivial
      · rw [if_pos trivial]
        have h4 := safe_bits 4 s'
        rcases hr4 : readBits 4 s' with ⟨_ | _ | _, s''⟩
        · trivial
        · trivial
        · rw [hr4] at h4; exact h4
    · trivial
    · rw [hr] at hb; exact hb
  | succ k ih =>
    intro v hk s
    unfold readU64Loop
    have hb := safe_bool s
    rcases hr : readBool s with ⟨_ | _ | _, s'⟩
    · simp only
      split
      · trivial
      · rw [if_neg (by omega), if_neg (by omega)]
        have h4 := safe_bits 8 s'
        rcases hr4 : readBits 8 s' with ⟨_ | _ | _, s''⟩
        · simp only
          rw [show 60 - 8 * (k + 1) + 8 = 60 - 8 * k by omega]
          exact ih _ (by omega) s''
        · trivial
        · rw [hr4] at h4; exact h4
    · trivial
    · rw [hr] at hb; exact hb

theorem safe_u64 : Safe readU64 (fun _ => True) := by
  unfold readU64
  refine Safe.bind (safe_bits 2) (fun i _ => ?_)
  split
  · exact Safe.pure trivial
  · split
    · exact Safe.bind (safe_bits 4) (fun _ _ => Safe.pure trivial)
    · split
      · exact Safe.bind (safe_bits 8) (fun _ _ => Safe.pure trivial)
      · exact Safe.bind (safe_bits 12) (fun v _ => safe_u64Loop 6 v (by decide))

theorem safe_f16 : Safe readF16 (fun _ => True) := by
  unfold readF16
  refine Safe.bind (safe_bits 16) (fun b _ => ?_)
  dsimp only
  split
  · exact Safe.fail
  · split
    · exact Safe.pure trivial
    · exact Safe.pure trivial

theorem safe_if {α : Type} {c : Bool} {m : Rd α} {d : α} {Q : α → Prop} (h : Safe m Q) (hd : Q d) : Safe (readIf c m d) Q := by
  unfold readIf
  split
  · exact h
  · exact Safe.pure hd

theorem safe_list {α : Type} {m : Rd α} {Q : α → Prop} (h : Safe m Q) : ∀ n, Safe (readList m n) (fun l => l.length = n ∧ ∀ a ∈ l, Q a)
  | 0 => Safe.pure ⟨rfl, fun _ h => absurd h (by simp)⟩
  | n + 1 => Safe.bind h (fun a ha => Safe.bind (safe_list h n) (fun l hl => Safe.pure ⟨by simp [hl.1], by
      intro x hx
      rcases List.mem_cons.mp hx with rfl | hx
      · exact ha
      · exact hl.2 _ hx⟩))

theorem safe_list' {α : Type} {m : Rd α} {Q : α → Prop} (h : Safe m Q) (n : Nat) : Safe (readList m n) (fun _ => True) := (safe_list h n).mono (fun _ _ => trivial)

theorem safe_check {α : Type} (c : Bool) (a : α) : Safe (check c a) (fun b => b = a ∧ c = true) := by
  unfold check
  split
  · exact Safe.pure ⟨rfl, by assumption⟩
  · exact Safe.fail

theorem safe_ratio (ratio h : Nat) (hh : h < 2 ^ 32) : SafeRes (getWidthFromRatio ratio h) (fun w => w < 2 ^ 32) := by
  unfold getWidthFromRatio
  split
  · exact hh
  · split
    · exact lt_of_le_of_lt (Nat.div_le_self _ _) (Nat.mod_lt _ (by decide))
    · split
      · exact lt_of_le_of_lt (Nat.div_le_self _ _) (Nat.mod_lt _ (by decide))
      · split
        · exact lt_of_le_of_lt (Nat.div_le_self _ _) (Nat.mod_lt _ (by decide))
        · split
          · exact lt_of_le_of_lt (Nat.div_le_self _ _) (Nat.mod_lt _ (by decide))
          · split
            · exact lt_of_le_of_lt (Nat.div_le_self _ _) (Nat.mod_lt _ (by decide))
            · split
              · exact Nat.mod_lt _ (by decide)
              · trivial

theorem safe_side (div8 : Bool) : Safe (readSide div8) (fun v => v < 2 ^ 32) := by
  unfold readSide
  split
  · exact Safe.bind (safe_bits 5) (fun v _ => Safe.pure (Nat.mod_lt _ (by decide)))
  · exact safe_u32 _ _ _ _ _ _ _ _

theorem safe_width {side : Rd Nat} (hs : Safe side (fun v => v < 2 ^ 32)) (h : Nat) (hh : h < 2 ^ 32) : Safe (readWidth side h) (fun v => v < 2 ^ 32) := by
  unfold readWidth
  refine Safe.bind (safe_bits 3) (fun r _ => ?_)
  split
  · exact Safe.lift (safe_ratio r h hh)
  · exact hs

theorem safe_size (level : Int) : Safe (readSizeHeader level) (fun d => d.width ≤ maxSide level ∧ d.height ≤ maxSide level ∧
    (d.width * d.height < 2 ^ 32 → d.width * d.height ≤ maxPixels level)) := by
  unfold readSizeHeader
  refine Safe.bind safe_bool (fun b _ => Safe.bind (safe_side b) (fun h hh => Safe.bind (safe_width (safe_side b) h hh) (fun w hw => Safe.lift ?_)))
  unfold checkSize
  show SafeRes (if w > maxSide level ∨ h > maxSide level then .err else if u32 (w * h) > maxPixels level then .err else .ok ({ width := w, height := h } : Dim)) _
  by_cases h1 : w > maxSide level ∨ h > maxSide level
  · rw [if_pos h1]; trivial
  · rw [if_neg h1]
    by_cases h2 : u32 (w * h) > maxPixels level
    · rw [if_pos h2]; trivial
    · rw [if_neg h2]
      refine ⟨Nat.le_of_not_lt (fun h => h1 (Or.inl h)), Nat.le_of_not_lt (fun h => h1 (Or.inr h)), fun hp => ?_⟩
      dsimp only at hp ⊢
      rw [show u32 (w * h) = w * h from Nat.mod_eq_of_lt hp] at h2
      exact Nat.le_of_not_lt h2

/-! ## C38 -/

/-- C38, in part. Every size that is accepted, from any stream, is within the limit for one side; and within the limit for the number of
pixels when that number is below 2^32. Missing: the limit on pixels in general, which the code does not enforce (`C38_violated`). -/
theorem C38_limits_partial (level : Int) (s s' : BR) (d : Dim) (h : readSizeHeader level s = (.ok d, s')) :
    d.width ≤ maxSide level ∧ d.height ≤ maxSide level ∧ (d.width * d.height < 2 ^ 32 → d.width * d.height ≤ maxPixels level) :=
  (safe_size level).of_ok h

/-- A header of 2^15 by 2^14 pixels at level 5: below 2^32 pixels, and within the limit. -/
example : (readSizeHeader 5 (BR.new [0xFC, 0xFF, 0x01, 0xFE, 0xFF, 0x01])).1 = .ok ⟨2 ^ 15, 2 ^ 14⟩ ∧ 2 ^ 15 * 2 ^ 14 < 2 ^ 32 := by
  refine ⟨?_, ?_⟩ <;> decide +kernel

/-- C38. Sizes within the limits of the level are accepted, and read as the format defines. -/
theorem C38_accepts (level : Int) : Follows (readSizeHeader level) (decSizeLimited level) := follows_size level

example : decSizeLimited 5 (bitsFrom [0xFC, 0xFF, 0x01, 0xFE, 0xFF, 0x01] 0) = some (⟨2 ^ 15, 2 ^ 14⟩, bitsFrom [0xFC, 0xFF, 0x01, 0xFE, 0xFF, 0x01] 44) := by decide +kernel

/-- C38 is false of the code at level 5: 2^18 by 2^18 pixels are accepted, 64 times the limit, because the product is computed modulo 2^32. -/
theorem C38_violated : (readSizeHeader 5 (BR.new [0xFC, 0xFF, 0x1F, 0xFE, 0xFF, 0x0F])).1 = .ok ⟨2 ^ 18, 2 ^ 18⟩ ∧ 64 * maxPixels 5 ≤ 2 ^ 18 * 2 ^ 18 := by
  refine ⟨?_, ?_⟩ <;> decide +kernel

/-- C38 is false of the code at level 10: no size is ever rejected because of its number of pixels. -/
theorem C38_violated_level10 (level : Int) (hl : 5 < level) (d : Dim) (hw : d.width ≤ maxSide level) (hh : d.height ≤ maxSide level) :
    checkSize level d = .ok d ∧ (d = ⟨2 ^ 28, 2 ^ 28⟩ → maxPixels level < d.width * d.height) := by
  have hl' : ¬ level ≤ 5 := by omega
  simp only [maxSide, if_neg hl'] at hw hh
  refine ⟨?_, ?_⟩
  · unfold checkSize
    simp only [if_neg hl']
    rw [if_neg (by omega), if_neg]
    have : u32 (d.width * d.height) < 2 ^ 32 := Nat.mod_lt _ (by decide)
    have : (2:Nat) ^ 32 ≤ 2 ^ 40 := by decide
    omega
  · rintro rfl
    simp only [maxPixels, if_neg hl']
    decide

/-- No stream crashes the reading of a size. -/
theorem C38_no_crash (level : Int) (s : BR) : (readSizeHeader level s).1 ≠ .panic := (safe_size level).noPanic s

/-! ## C39 -/

/-- What an action returned is what its decoder of bit strings decodes. -/
theorem Implements.of_ok {α : Type} {m : Rd α} {f : Dec α} (hi : Implements m f) {s s' : BR} {p : Nat} (hs : AtBit s p) {a : α} (h : m s = (.ok a, s')) :
    ∃ p', f (bitsFrom s.data p) = some (a, bitsFrom s.data p') ∧ AtBit s' p' ∧ s'.data = s.data := by
  have := hi s p hs
  cases hd : f (bitsFrom s.data p) with
  | none =>
    rw [hd] at this
    rw [h] at this
    cases this
  | some x =>
    obtain ⟨a', r⟩ := x
    rw [hd] at this
    obtain ⟨s1, p', e1, e2, e3, e4, _⟩ := this
    rw [h] at e1
    simp only [Prod.mk.injEq, Res.ok.injEq] at e1
    obtain ⟨rfl, rfl⟩ := e1
    exact ⟨p', by rw [e4], e2, e3⟩

theorem Rd.of_bind {α β : Type} {m : Rd α} {f : α → Rd β} {s s' : BR} {b : β} (h : (m >>= f) s = (.ok b, s')) :
    ∃ a s1, m s = (.ok a, s1) ∧ f a s1 = (.ok b, s') := by
  rw [Rd.bind_eq] at h
  rcases hm : m s with ⟨a | _ | _, s1⟩
  · rw [hm] at h; exact ⟨a, s1, rfl, h⟩
  · rw [hm] at h; cases h
  · rw [hm] at h; cases h

/-- C39, in part. The width named by a ratio is exact for every height below 2^28, and for 2^28 as well unless the ratio is 16:9; the
reader then stands behind the ratio. Missing: 16:9 with a height of 2^28, the largest one (`C39_violated`). -/
theorem C39_exact_partial (ratio h num den : Nat) (ha : aspect ratio = some (num, den)) (h5 : ratio = 5 → h < 2 ^ 28) (hh : h ≤ 2 ^ 28)
    (side : Rd Nat) (s : BR) (p : Nat) (hs : AtBit s p) (r : List Bool) (hr : decBits 3 (bitsFrom s.data p) = some (ratio, r)) :
    ∃ s' p', readWidth side h s = (.ok (h * num / den), s') ∧ AtBit s' p' ∧ s'.data = s.data ∧ bitsFrom s.data p' = r := by
  obtain ⟨s', p', a1, a2, a3, a4, _⟩ := (implements_bits 3 (by decide)).follows s p hs _ _ hr
  have hne : ratio ≠ 0 := by rintro rfl; cases ha
  refine ⟨s', p', ?_, a2, a3, a4.symm⟩
  unfold readWidth
  rw [Rd.bind_ok a1, if_pos hne, ratio_exact ratio h num den ha h5 hh]
  rfl

example : aspect 5 = some (16, 9) ∧ 1080 ≤ 2 ^ 28 ∧ 1080 * 16 / 9 = 1920 ∧ decBits 3 (bitsFrom [0xBA, 0x21, 0x05] 16) = some (5, bitsFrom [0xBA, 0x21, 0x05] 19) := by decide

/-- C39, in part. Every size that is accepted, from any stream, is the one the format defines, unless the height is 2^28 and the width,
wrongly, 0. -/
theorem C39_sound_partial (level : Int) (s s' : BR) (p : Nat) (hs : AtBit s p) (d : Dim) (h : readSizeHeader level s = (.ok d, s')) :
    (∃ r, decSize (bitsFrom s.data p) = some (d, r)) ∨ (5 < level ∧ d = ⟨0, 2 ^ 28⟩) := by
  have hlim := (safe_size level).of_ok h
  unfold readSizeHeader at h
  obtain ⟨b, s1, h1, h⟩ := Rd.of_bind h
  obtain ⟨hgt, s2, h2, h⟩ := Rd.of_bind h
  obtain ⟨w, s4, h3, h⟩ := Rd.of_bind h
  unfold readWidth at h3
  obtain ⟨ratio, s3, h4, h3⟩ := Rd.of_bind h3
  obtain ⟨p1, a1, a2, a3⟩ := implements_bool.of_ok hs h1
  obtain ⟨p2, b1, b2, b3⟩ := (implements_side b).of_ok a2 h2
  obtain ⟨p3, c1, c2, c3⟩ := (implements_bits 3 (by decide)).of_ok b2 h4
  rw [a3] at b1 b3
  rw [b3] at c1 c3
  have hr8 : ratio < 2 ^ 3 := decBits_lt c1
  have hd : d = ⟨w, hgt⟩ := by
    unfold Rd.lift checkSize at h
    simp only [Prod.mk.injEq] at h
    have h' : (if w > maxSide level ∨ hgt > maxSide level then .err else if u32 (w * hgt) > maxPixels level then .err else .ok (⟨w, hgt⟩ : Dim)) = Res.ok d := h.1
    split at h'
    · cases h'
    · split at h'
      · cases h'
      · exact (Res.ok.inj h').symm
  subst hd
  have hms : maxSide level ≤ 2 ^ 28 := by unfold maxSide; split <;> decide
  have hm5 : ¬ 5 < level → maxSide level < 2 ^ 28 := by
    intro h5
    unfold maxSide
    rw [if_pos (by omega)]
    decide
  obtain ⟨hl1, hl2, _⟩ := hlim
  dsimp only at hl1 hl2
  unfold decSize decWidth
  simp only [Dec.bind_eq, a1, b1, c1]
  by_cases h0 : ratio = 0
  · subst h0
    rw [if_neg (by decide)] at h3
    obtain ⟨p4, d1, _, _⟩ := (implements_side b).of_ok c2 h3
    rw [c3] at d1
    left
    simp only [aspect, d1]
    exact ⟨_, rfl⟩
  · rw [if_pos h0] at h3
    have hq : ∃ num den, aspect ratio = some (num, den) := by
      have : ratio = 1 ∨ ratio = 2 ∨ ratio = 3 ∨ ratio = 4 ∨ ratio = 5 ∨ ratio = 6 ∨ ratio = 7 := by omega
      rcases this with rfl | rfl | rfl | rfl | rfl | rfl | rfl <;> exact ⟨_, _, rfl⟩
    obtain ⟨num, den, hq⟩ := hq
    by_cases hx : ratio = 5 ∧ hgt = 2 ^ 28
    · right
      obtain ⟨rfl, rfl⟩ := hx
      refine ⟨by by_contra hc; have := hm5 hc; omega, ?_⟩
      have hw : (Rd.lift (getWidthFromRatio 5 (2 ^ 28)) s3 : Res Nat × BR) = (.ok 0, s3) := by
        unfold Rd.lift
        rw [show getWidthFromRatio 5 (2 ^ 28) = .ok 0 by decide +kernel]
      rw [hw] at h3
      simp only [Prod.mk.injEq, Res.ok.injEq] at h3
      rw [← h3.1]
    · left
      rw [ratio_exact ratio hgt num den hq (fun h5 => by omega) (by omega)] at h3
      unfold Rd.lift at h3
      simp only [Prod.mk.injEq, Res.ok.injEq] at h3
      rw [hq]
      exact ⟨_, by rw [← h3.1]; rfl⟩

example : (readSizeHeader 5 (BR.new [0xBA, 0x21, 0x05])).1 = .ok ⟨1920, 1080⟩ := by decide +kernel

/-- C39 is false of the code for 16:9 and a height of 2^28: the size is accepted at level 10, with a width of 0. -/
theorem C39_violated : (readSizeHeader 10 (BR.new [0xFE, 0xFF, 0xFF, 0x7F, 0x0A])).1 = .ok ⟨0, 2 ^ 28⟩ ∧
    (decSize (bitsFrom [0xFE, 0xFF, 0xFF, 0x7F, 0x0A] 0)).map (·.1) = some ⟨477218588, 2 ^ 28⟩ := by
  refine ⟨?_, ?_⟩ <;> decide +kernel

/-! ## C56 -/

/-- C56, in part. Every image header (up to its colour profile) that the format defines is read as the format defines, field by field, at
both levels. Missing, because the code does not do it: previews in units of eight (`C56_preview_violated`), extensions with a payload
(`C56_extensions_violated`), animations (rejected); and colour encodings that declare XYB without a profile. -/
theorem C56_header_partial (level : Int) (hl : level = 5 ∨ level = 10) : Follows (readImageHeaderFields level) (decImageHeader level) :=
  follows_header level hl

/-- A header that is all default, and one with orientation 6, 16 bits, an alpha channel and no XYB. -/
example : (decImageHeader 5 (bitsFrom [0xFF, 0x0A, 0xBA, 0x21, 0x1D] 0)).map (fun x => (x.1.size, x.1.orientation, x.1.xyb)) = some (⟨1920, 1080⟩, 1, true) ∧
    (decImageHeader 10 (bitsFrom [0xFF, 0x0A, 0xBA, 0x21, 0xB5, 0xF0, 0xA3, 0x26] 0)).map (fun x => (x.1.orientation, x.1.orientedSize, x.1.bitDepth.bits, x.1.alphaIndices, x.1.xyb)) =
      some (6, ⟨1080, 1920⟩, 16, [0], false) := by
  refine ⟨?_, ?_⟩ <;> decide +kernel

/-- C56 is false of the code for previews in units of eight: the sides are not multiplied by eight. -/
theorem C56_preview_violated : decPreview (bitsFrom [0x09] 0) = some (⟨128, 128⟩, bitsFrom [0x09] 6) ∧ (readPreviewHeader (BR.new [0x09])).1 = .ok ⟨16, 16⟩ := by
  refine ⟨?_, ?_⟩ <;> decide +kernel

/-- C56 is false of the code for extensions with a payload: the lengths are in bits, and the code reads as many bytes. Here an extension of 8
bits cannot be read. -/
theorem C56_extensions_violated : (decExtensions (bitsFrom [0x41, 0xB7, 0x0A] 0)).map (fun x => (x.1.1, x.1.2.headD [])) =
      some (1, [true, true, false, true, false, true, false, true]) ∧ (readExtensions (BR.new [0x41, 0xB7, 0x0A])).1 = .err := by
  refine ⟨?_, ?_⟩ <;> decide +kernel

theorem safe_previewSide (b : Bool) : Safe (readPreviewSide b) (fun v => v < 2 ^ 32) := by
  unfold readPreviewSide
  split <;> exact safe_u32 _ _ _ _ _ _ _ _

theorem safe_preview : Safe readPreviewHeader (fun _ => True) := by
  unfold readPreviewHeader
  refine Safe.bind safe_bool (fun b _ => Safe.bind (safe_previewSide b) (fun h hh => Safe.bind (safe_width (safe_previewSide b) h hh) (fun w _ => ?_)))
  split
  · exact Safe.fail
  · exact Safe.pure trivial

theorem safe_bitDepth : Safe readBitDepth (fun _ => True) := by
  unfold readBitDepth
  refine Safe.bind safe_bool (fun b _ => ?_)
  split
  · exact Safe.bind (safe_u32 _ _ _ _ _ _ _ _) (fun _ _ => Safe.bind (safe_bits 4) (fun _ _ => Safe.pure trivial))
  · exact Safe.bind (safe_u32 _ _ _ _ _ _ _ _) (fun _ _ => Safe.pure trivial)

theorem safe_byte8 : Safe readByte8 (fun _ => True) := Safe.bind (safe_bits 8) (fun _ _ => Safe.pure trivial)

theorem safe_extraFields : Safe readExtraFields (fun _ => True) := by
  unfold readExtraFields
  refine Safe.bind safe_enum (fun t _ => ?_)
  split
  · exact Safe.fail
  · exact Safe.bind safe_bitDepth (fun _ _ => Safe.bind (safe_u32 _ _ _ _ _ _ _ _) (fun _ _ => Safe.bind (safe_u32 _ _ _ _ _ _ _ _) (fun n _ =>
      Safe.bind (safe_list' safe_byte8 n) (fun _ _ => Safe.bind (safe_if safe_bool trivial) (fun _ _ => Safe.pure trivial)))))

theorem safe_extraChannel : Safe readExtraChannel (fun _ => True) :=
  Safe.bind safe_bool (fun _ _ => Safe.bind (safe_if safe_extraFields trivial) (fun _ _ => Safe.bind (safe_if (safe_list' safe_f16 4) trivial) (fun _ _ =>
    Safe.bind (safe_if ((safe_u32 _ _ _ _ _ _ _ _).mono (fun _ _ => trivial)) trivial) (fun _ _ => Safe.pure trivial))))

theorem safe_extLengths (key : Nat) : ∀ n i, Safe (readExtLengths key n i) (fun _ => True)
  | 0, _ => Safe.pure trivial
  | n + 1, i => by
    unfold readExtLengths
    refine Safe.bind (safe_if safe_u64 trivial) (fun l _ => ?_)
    split
    · exact Safe.fail
    · exact Safe.bind (safe_extLengths key n (i + 1)) (fun _ _ => Safe.pure trivial)

theorem safe_payloads : ∀ ls, Safe (readPayloads ls) (fun _ => True)
  | [] => Safe.pure trivial
  | l :: ls => Safe.bind (safe_list' safe_byte8 l) (fun _ _ => Safe.bind (safe_payloads ls) (fun _ _ => Safe.pure trivial))

theorem safe_extensions : Safe readExtensions (fun _ => True) :=
  Safe.bind safe_u64 (fun k _ => Safe.bind (safe_extLengths k 64 0) (fun ls _ => Safe.bind (safe_payloads ls) (fun _ _ => Safe.pure trivial)))

theorem safe_tone : Safe readToneMapping (fun _ => True) := by
  unfold readToneMapping
  refine Safe.bind safe_bool (fun b _ => ?_)
  split
  · exact Safe.pure trivial
  · refine Safe.bind safe_f16 (fun it _ => ?_)
    split
    · exact Safe.fail
    · refine Safe.bind safe_f16 (fun mn _ => ?_)
      split
      · exact Safe.fail
      · split
        · exact Safe.fail
        · refine Safe.bind safe_bool (fun r _ => Safe.bind safe_f16 (fun lb _ => ?_))
          split
          · exact Safe.fail
          · split
            · exact Safe.fail
            · exact Safe.pure trivial

theorem safe_custom : Safe readCustom (fun _ => True) := Safe.bind (safe_u32 _ _ _ _ _ _ _ _) (fun _ _ => Safe.pure trivial)

theorem safe_any {α : Type} {m : Rd α} {Q : α → Prop} (h : Safe m Q) : Safe m (fun _ => True) := h.mono (fun _ _ => trivial)

theorem safe_transfer : Safe readTransfer (fun _ => True) := by
  unfold readTransfer
  refine Safe.bind safe_bool (fun b _ => ?_)
  split
  · exact safe_any (safe_bits 24)
  · exact Safe.bind safe_enum (fun _ _ => Safe.pure trivial)

theorem safe_tfIntent : Safe readTfIntent (fun _ => True) :=
  Safe.bind safe_transfer (fun _ _ => Safe.bind (safe_check _ _) (fun _ _ => Safe.bind safe_enum (fun _ _ => Safe.bind (safe_check _ _) (fun _ _ => Safe.pure trivial))))

theorem safe_colour : Safe readColourEncoding (fun _ => True) :=
  Safe.bind safe_bool (fun _ _ => Safe.bind (safe_if safe_bool trivial) (fun _ _ => Safe.bind (safe_if (safe_any safe_enum) trivial) (fun _ _ => Safe.bind (safe_check _ _) (fun _ _ =>
    Safe.bind (safe_if (safe_any safe_enum) trivial) (fun _ _ => Safe.bind (safe_check _ _) (fun _ _ => Safe.bind (safe_if (safe_list' safe_custom 2) trivial) (fun _ _ =>
      Safe.bind (safe_if (safe_any safe_enum) trivial) (fun _ _ => Safe.bind (safe_check _ _) (fun _ _ => Safe.bind (safe_if (safe_list' safe_custom 6) trivial) (fun _ _ =>
        Safe.bind (safe_if safe_tfIntent trivial) (fun _ _ => Safe.pure trivial)))))))))))

theorem safe_opsin : Safe readOpsin (fun _ => True) := by
  unfold readOpsin
  refine Safe.bind safe_bool (fun b _ => ?_)
  split
  · exact Safe.pure trivial
  · exact Safe.bind (safe_list' safe_f16 16) (fun _ _ => Safe.pure trivial)

theorem safe_extraImage (level : Int) : Safe (readExtraImageFields level) (fun _ => True) := by
  unfold readExtraImageFields
  refine Safe.bind (safe_bits 3) (fun o _ => Safe.bind safe_bool (fun hi _ => ?_))
  refine Safe.bind (P := fun _ => True) (safe_if (Safe.bind (safe_size level) (fun _ _ => Safe.pure trivial)) trivial) (fun intr _ => Safe.bind safe_bool (fun hp _ => ?_))
  refine Safe.bind (P := fun _ => True) (safe_if (Safe.bind safe_preview (fun _ _ => Safe.pure trivial)) trivial) (fun prev _ => Safe.bind safe_bool (fun anim _ => ?_))
  split
  · exact Safe.fail
  · exact Safe.pure trivial

theorem safe_imageFields : Safe readImageFields (fun _ => True) :=
  Safe.bind safe_bitDepth (fun _ _ => Safe.bind safe_bool (fun _ _ => Safe.bind (safe_u32 _ _ _ _ _ _ _ _) (fun n _ => Safe.bind (safe_list' safe_extraChannel n) (fun _ _ =>
    Safe.bind safe_bool (fun _ _ => Safe.bind safe_colour (fun _ _ => Safe.pure trivial))))))

theorem safe_weights (c : Bool) (n : Nat) : Safe (readWeights c n) (fun _ => True) :=
  safe_if (Safe.bind (safe_list' safe_f16 n) (fun _ _ => Safe.pure trivial)) trivial

theorem safe_header (level : Int) : Safe (readImageHeaderFields level) (fun h => h.size.width ≤ maxSide level ∧ h.size.height ≤ maxSide level) :=
  Safe.bind (safe_bits 16) (fun _ _ => Safe.bind (safe_check _ _) (fun _ _ => Safe.bind (safe_check _ _) (fun _ _ => Safe.bind (safe_size level) (fun _ hs =>
    Safe.bind safe_bool (fun _ _ => Safe.bind (safe_if safe_bool trivial) (fun _ _ => Safe.bind (safe_if (safe_extraImage level) trivial) (fun _ _ =>
      Safe.bind (safe_if safe_imageFields trivial) (fun _ _ => Safe.bind (safe_if safe_tone trivial) (fun _ _ => Safe.bind (safe_if safe_extensions trivial) (fun _ _ =>
        Safe.bind safe_bool (fun _ _ => Safe.bind (safe_if safe_opsin trivial) (fun _ _ => Safe.bind (safe_if (safe_any (safe_bits 3)) trivial) (fun _ _ =>
          Safe.bind (safe_weights _ _) (fun _ _ => Safe.bind (safe_weights _ _) (fun _ _ => Safe.bind (safe_weights _ _) (fun _ _ => Safe.pure ⟨hs.1, hs.2.1⟩))))))))))))))))

/-- C56. No stream, however malformed, crashes the reading of an image header, at any level; and the size of an accepted image is within the
limits for one side. -/
theorem C56_no_crash (level : Int) (s : BR) : (readImageHeaderFields level s).1 ≠ .panic ∧
    ∀ h s', readImageHeaderFields level s = (.ok h, s') → h.size.width ≤ maxSide level ∧ h.size.height ≤ maxSide level :=
  ⟨(safe_header level).noPanic s, fun _ _ e => (safe_header level).of_ok e⟩

end Jxl
