import Verif.Model.JXLImage
import Verif.Props.Copy
import Verif.Proofs.PNGSize
import Verif.Proofs.F32
import Verif.Proofs.Permutation
import Mathlib.Order.Bounds.Defs

/-!
# C103: the largest sample of a buffer and the peak of an image
-/
namespace Jxl

/-- The samples of a plane. -/
def Spec.samplesOf {α : Type} (m : List (List α)) : Set α := {s | ∃ r ∈ m, s ∈ r}

/-- A loop that keeps the larger one of what it has and what it meets. -/
theorem keep_largest {α : Type} (lt : α → α → Bool) (P : α → α → Prop) (refl : ∀ a, P a a) (trans : ∀ a b c, P a b → P b c → P a c) (no : ∀ a b, lt a b = false → P b a)
    (yes : ∀ a b, lt a b = true → P a b) : ∀ (l : List α) (a : α), P a (l.foldl (fun a v => if lt a v then v else a) a) ∧
      (∀ s ∈ l, P s (l.foldl (fun a v => if lt a v then v else a) a)) ∧
      (l.foldl (fun a v => if lt a v then v else a) a = a ∨ l.foldl (fun a v => if lt a v then v else a) a ∈ l)
  | [], a => ⟨refl a, fun s hs => absurd hs (by simp), Or.inl rfl⟩
  | x :: l, a => by
    obtain ⟨h1, h2, h3⟩ := keep_largest lt P refl trans no yes l (if lt a x then x else a)
    have ha : P a (if lt a x then x else a) := by
      cases h : lt a x
      · exact refl a
      · exact yes a x h
    have hx : P x (if lt a x then x else a) := by
      cases h : lt a x
      · exact no a x h
      · exact refl x
    rw [List.foldl_cons]
    refine ⟨trans _ _ _ ha h1, fun s hs => ?_, ?_⟩
    · rcases List.mem_cons.1 hs with rfl | hs
      · exact trans _ _ _ hx h1
      · exact h2 s hs
    · rcases h3 with h3 | h3
      · cases h : lt a x
        · left; rw [h] at h3; exact h3
        · right; rw [h] at h3
          exact List.mem_cons.2 (Or.inl h3)
      · exact Or.inr (List.mem_cons_of_mem _ h3)

/-- The same for the rows of a plane. -/
theorem keep_rows {α : Type} (lt : α → α → Bool) (m : List (List α)) (a : α) :
    m.foldl (fun a r => r.foldl (fun a v => if lt a v then v else a) a) a = m.flatten.foldl (fun a v => if lt a v then v else a) a := by
  induction m generalizing a with
  | nil => rfl
  | cons r m ih => rw [List.foldl_cons, List.flatten_cons, List.foldl_append]; exact ih _

theorem maxInt_flat (m : List (List Int)) : maxInt m = m.flatten.foldl (fun a v => if decide (a < v) then v else a) 0 := by
  rw [← keep_rows (fun a v : Int => decide (a < v))]
  unfold maxInt
  simp only [decide_eq_true_eq]

/-- **C103**, integers: no sample is larger than the result, and the result is a sample or 0; it is never negative. -/
theorem C103_max_int (m : List (List Int)) :
    0 ≤ maxInt m ∧ maxInt m ∈ upperBounds (Spec.samplesOf m) ∧ (maxInt m = 0 ∨ maxInt m ∈ Spec.samplesOf m) := by
  rw [maxInt_flat]
  obtain ⟨h1, h2, h3⟩ := keep_largest (fun a v : Int => decide (a < v)) (· ≤ ·) le_refl (fun _ _ _ => le_trans)
    (fun a b h => by simpa using h) (fun a b h => le_of_lt (by simpa using h)) m.flatten 0
  exact ⟨h1, fun s ⟨r, hr, hs⟩ => h2 s (List.mem_flatten.2 ⟨r, hr, hs⟩), h3.imp id fun h => List.mem_flatten.1 h⟩

/-- **C103**, integers: the result is the largest sample, for a plane with a sample that is not negative. `_partial`: see `C103_max_int_fails`. -/
theorem C103_max_int_partial (m : List (List Int)) (h : ∃ s ∈ Spec.samplesOf m, 0 ≤ s) : IsGreatest (Spec.samplesOf m) (maxInt m) := by
  obtain ⟨h0, h1, h2⟩ := C103_max_int m
  refine ⟨?_, h1⟩
  rcases h2 with h2 | h2
  · obtain ⟨s, hs, hs0⟩ := h
    have := h1 hs
    have e : s = maxInt m := by omega
    exact e ▸ hs
  · exact h2

/-- **C103** fails for a plane of negative samples: the result is 0, which is no sample. -/
theorem C103_max_int_fails (m : List (List Int)) (h : ∀ s ∈ Spec.samplesOf m, s < 0) : maxInt m = 0 ∧ maxInt m ∉ Spec.samplesOf m := by
  obtain ⟨h0, _, h2⟩ := C103_max_int m
  have hn : maxInt m ∉ Spec.samplesOf m := fun hm => by have := h _ hm; omega
  exact ⟨h2.resolve_right hn, hn⟩

example : maxInt [[3, -9], [], [40, 7]] = 40 ∧ maxInt [[-5, -2]] = 0 := by decide

/-- Not smaller, of numbers and infinities; NaN is below everything. -/
def F32.NotAbove : F32 → F32 → Prop
  | .nan, _ => True
  | _, .nan => False
  | .fin a, .fin b => a ≤ b
  | .fin _, .inf s => s = false
  | .inf s, .fin _ => s = true
  | .inf s, .inf t => s = true ∨ t = false

/-- **C103**, floats: no sample is above the result, the result is a sample or 0, it is not below 0 and it is not NaN. -/
theorem C103_max_float (m : List (List F32)) :
    (∀ s ∈ Spec.samplesOf m, s.NotAbove (maxFloat m)) ∧ (F32.fin 0).NotAbove (maxFloat m) ∧ maxFloat m ≠ .nan ∧ (maxFloat m = .fin 0 ∨ maxFloat m ∈ Spec.samplesOf m) := by
  have hflat : maxFloat m = m.flatten.foldl (fun a v => if F32.lt a v then v else a) (.fin 0) := keep_rows F32.lt m _
  -- the loop keeps something that is not NaN
  have key : ∀ (l : List F32) (a : F32), a ≠ .nan →
      a.NotAbove (l.foldl (fun a v => if F32.lt a v then v else a) a) ∧ l.foldl (fun a v => if F32.lt a v then v else a) a ≠ .nan ∧
      (∀ s ∈ l, s.NotAbove (l.foldl (fun a v => if F32.lt a v then v else a) a)) ∧
      (l.foldl (fun a v => if F32.lt a v then v else a) a = a ∨ l.foldl (fun a v => if F32.lt a v then v else a) a ∈ l) := by
    have refl : ∀ a : F32, a.NotAbove a := fun a => by cases a with
      | fin q => exact le_refl q
      | inf s => cases s <;> simp [F32.NotAbove]
      | nan => trivial
    have trans : ∀ a b c : F32, a.NotAbove b → b.NotAbove c → a.NotAbove c := by
      intro a b c
      cases a with
      | nan => exact fun _ _ => trivial
      | fin q => cases b with
        | nan => exact fun h _ => h.elim
        | fin r => cases c with
          | nan => exact fun _ h => h
          | fin t => exact fun h k => le_trans (show q ≤ r from h) k
          | inf t => exact fun _ k => k
        | inf s => cases c with
          | nan => exact fun _ h => h
          | fin t => intro h k; rw [show s = false from h] at k; exact absurd (show false = true from k) (by decide)
          | inf t => intro h k; rw [show s = false from h] at k; exact (show false = true ∨ t = false from k).resolve_left (by decide)
      | inf s => cases b with
        | nan => exact fun h _ => h.elim
        | fin r => cases c with
          | nan => exact fun _ h => h
          | fin t => exact fun h _ => h
          | inf t => exact fun h _ => Or.inl h
        | inf u => cases c with
          | nan => exact fun _ h => h
          | fin t => intro h k; rw [show u = true from k] at h; exact (show s = true ∨ true = false from h).resolve_right (by decide)
          | inf t => intro h k
                     rcases (show s = true ∨ u = false from h) with h | h
                     · exact Or.inl h
                     · rw [h] at k; exact Or.inr ((show false = true ∨ t = false from k).resolve_left (by decide))
    intro l
    induction l with
    | nil => exact fun a ha => ⟨refl a, ha, fun s hs => absurd hs (by simp), Or.inl rfl⟩
    | cons x l ih =>
      intro a ha
      have hx : (if F32.lt a x then x else a) ≠ .nan ∧ a.NotAbove (if F32.lt a x then x else a) ∧ x.NotAbove (if F32.lt a x then x else a) := by
        cases a with
        | nan => exact absurd rfl ha
        | fin q => cases x with
          | nan => exact ⟨by simp [F32.lt], by simp [F32.lt, F32.NotAbove], by simp [F32.NotAbove]⟩
          | fin r =>
            by_cases hq : q < r
            · simp only [F32.lt, hq, decide_true, if_true]; exact ⟨by simp, le_of_lt hq, le_refl r⟩
            · simp only [F32.lt, hq, decide_false, Bool.false_eq_true, if_false]; exact ⟨by simp, le_refl q, not_lt.1 hq⟩
          | inf s => cases s <;> simp [F32.lt, F32.NotAbove]
        | inf t => cases x with
          | nan => cases t <;> simp [F32.lt, F32.NotAbove]
          | fin r => cases t <;> simp [F32.lt, F32.NotAbove]
          | inf s => cases s <;> cases t <;> simp [F32.lt, F32.NotAbove]
      obtain ⟨g1, g2, g3, g4⟩ := ih _ hx.1
      rw [List.foldl_cons]
      refine ⟨trans _ _ _ hx.2.1 g1, g2, fun s hs => ?_, ?_⟩
      · rcases List.mem_cons.1 hs with rfl | hs
        · exact trans _ _ _ hx.2.2 g1
        · exact g3 s hs
      · rcases g4 with g4 | g4
        · cases h : F32.lt a x
          · left; rw [h] at g4; exact g4
          · right; rw [h] at g4; exact List.mem_cons.2 (Or.inl g4)
        · exact Or.inr (List.mem_cons_of_mem _ g4)
  rw [hflat]
  obtain ⟨h1, h2, h3, h4⟩ := key m.flatten (.fin 0) (by simp)
  exact ⟨fun s ⟨r, hr, hs⟩ => h3 s (List.mem_flatten.2 ⟨r, hr, hs⟩), h1, h2, h4.imp id fun h => List.mem_flatten.1 h⟩

example : maxFloat [[.fin (1 / 2), .nan], [.fin (-3), .fin (3 / 4)]] = .fin (3 / 4) := by decide +kernel

/-- The channel whose peak counts: gray, or green. -/
def Spec.peakChannel (img : JXLImage) : Nat := if img.colourEncoding = 1 then 0 else 1

/-- **C103**, the peak of a linear image with integer samples of up to 24 bits, one of which is not negative: the largest sample of the gray or green channel as
a part of full scale, rounded once. -/
theorem C103_peak_int (img : JXLImage) (hl : img.transfer = tfLinear) (b : ImageBuffer) (d : Nat) (v : Int) (hb : img.buffers[Spec.peakChannel img]? = some b) (hi : b.bufferType = 0)
    (hd : img.bitDepths[Spec.peakChannel img]? = some d) (h1 : 1 ≤ d) (h24 : d ≤ 24) (hv : IsGreatest (Spec.samplesOf b.ints) v) (hv0 : 0 ≤ v) (hv1 : v < 2 ^ 24) :
    determinePeak img = .ok (F32.round ((v : ℚ) / ((2 ^ d - 1 : ℤ) : ℚ))) := by
  have hmax : maxInt b.ints = v := (C103_max_int_partial _ ⟨v, hv.1, hv0⟩).unique hv
  have hp : (2 : ℤ) ^ d ≤ 2 ^ 24 := pow_le_pow_right₀ (by norm_num) h24
  have hp1 : (2 : ℤ) ^ 1 ≤ 2 ^ d := pow_le_pow_right₀ (by norm_num) h1
  unfold determinePeak
  rw [if_neg (by simpa using hl)]
  have hc : (if img.colourEncoding ≠ 1 then (1 : Int) else 0) = (Spec.peakChannel img : Int) := by
    unfold Spec.peakChannel
    by_cases h : img.colourEncoding = 1 <;> simp [h]
  dsimp only
  rw [hc, idx_of_getElem? _ _ _ hb, Res.bind_ok, show b.isInt = true by unfold ImageBuffer.isInt; simp [hi], if_pos rfl, idx_of_getElem? _ _ _ hd, Res.bind_ok, hmax, if_neg (by omega)]
  unfold F32.ofInt
  rw [F32.round_int v (by rw [abs_of_nonneg hv0]; norm_num at hv1 ⊢; exact hv1), F32.round_int (2 ^ d - 1) (by rw [abs_of_nonneg (by omega)]; norm_num at hp ⊢; omega)]
  unfold F32.div
  dsimp only
  rw [if_neg (by
    have : (2 ^ d - 1 : ℤ) ≠ 0 := by omega
    exact_mod_cast this)]

/-- A gray image of depth 8 with samples 51 and 204 has the peak 4/5. -/
def peakExample : JXLImage :=
  ⟨[⟨2, 1, 0, [], [[51, 204]]⟩], none, [8], priSRGB, wpD65, sampleHeader, 2, 1, 1, -1, 1, 1, tfLinear, tfPQ, false⟩

example : determinePeak peakExample = .ok (F32.round (204 / 255)) := by
  have h := C103_peak_int peakExample rfl ⟨2, 1, 0, [], [[51, 204]]⟩ 8 204 rfl rfl rfl (by decide) (by decide)
    ⟨⟨_, List.mem_cons_self, by simp⟩, fun s ⟨r, hr, hs⟩ => by
      rw [List.mem_singleton.1 hr] at hs
      rcases List.mem_cons.1 hs with rfl | hs
      · decide
      · exact le_of_eq (List.mem_singleton.1 hs)⟩ (by decide) (by decide)
  rw [h]
  norm_num

/-- **C103**, the peak of a linear image with float samples: the number of `C103_max_float`. -/
theorem C103_peak_float (img : JXLImage) (hl : img.transfer = tfLinear) (b : ImageBuffer) (hb : img.buffers[Spec.peakChannel img]? = some b) (hf : b.bufferType = 1) :
    ∃ v, determinePeak img = .ok v ∧ (∀ s ∈ Spec.samplesOf b.floats, s.NotAbove v) ∧ v ≠ .nan ∧ (v = .fin 0 ∨ v ∈ Spec.samplesOf b.floats) := by
  obtain ⟨h1, _, h3, h4⟩ := C103_max_float b.floats
  refine ⟨_, ?_, h1, h3, h4⟩
  unfold determinePeak
  rw [if_neg (by simpa using hl)]
  have hc : (if img.colourEncoding ≠ 1 then (1 : Int) else 0) = (Spec.peakChannel img : Int) := by
    unfold Spec.peakChannel
    by_cases h : img.colourEncoding = 1 <;> simp [h]
  dsimp only
  rw [hc, idx_of_getElem? _ _ _ hb, Res.bind_ok, show b.isInt = false by unfold ImageBuffer.isInt; simp [hf]]
  rfl

/-- **C103** fails for an image that is not linear: its peak is never found. -/
theorem C103_peak_fails (img : JXLImage) (hl : img.transfer ≠ tfLinear) : determinePeak img = .panic := if_pos hl

/-- **C103**: a linear image that was tagged as PQ and whose peak reaches full scale is not scaled before another curve is applied. -/
theorem C103_bright_kept (img : JXLImage) (tf : Nat) (p : F32) (hp : determinePeak img = .ok p) (hb : F32.lt (.fin 1) (F32.div (.fin 1) p) = false) : peakScale img tf = .ok img := by
  unfold peakScale
  split
  · rw [hp, Res.bind_ok]
    dsimp only
    rw [hb]
    rfl
  · rfl

/-- **C103** fails: a darker one should be brightened to full scale, but is never converted. -/
theorem C103_dim_fails (curve : Nat → F32 → F32) (img : JXLImage) (tf : Nat) (p : F32) (hl : img.transfer = tfLinear) (ht : img.taggedTransfer = tfPQ) (h1 : tf ≠ tfPQ) (h2 : tf ≠ tfLinear)
    (hp : determinePeak img = .ok p) (hb : F32.lt (.fin 1) (F32.div (.fin 1) p) = true) (img' : JXLImage) : transferImage curve img tf ≠ .ok img' := by
  intro h
  unfold transferImage at h
  rw [if_neg (by rw [hl]; exact h2)] at h
  unfold linearize at h
  rw [if_pos hl, Res.bind_ok] at h
  obtain ⟨a, ha, _⟩ := Res.of_bind h
  unfold peakScale at ha
  rw [if_pos ⟨ht, Or.inr hl, by rintro (e | e); exacts [h1 e, h2 e]⟩, hp, Res.bind_ok] at ha
  dsimp only at ha
  rw [hb, if_pos rfl] at ha
  rcases hc : castChannels mask32 (if img.colourEncoding = 1 then 1 else 3) img with c | _ | _
  · rw [C45_transfer_crashes _ img c hc] at ha
    cases ha
  all_goals
    unfold transferWithOp at ha
    dsimp only at ha
    rw [hc] at ha
    cases ha

/-- A black image is one of these: the quotient is infinite. -/
example : F32.lt (.fin 1) (F32.div (.fin 1) (.fin 0)) = true := by decide +kernel
/-- And so is an image whose brightest sample is half of full scale; an image that reaches full scale is not. -/
example : F32.lt (.fin 1) (F32.div (.fin 1) (.fin (1 / 2))) = true ∧ F32.lt (.fin 1) (F32.div (.fin 1) (.fin 1)) = false := by
  rw [show F32.div (.fin 1) (.fin (1 / 2)) = F32.round ((2 : ℤ) : ℚ) by unfold F32.div; norm_num, show F32.div (.fin 1) (.fin 1) = F32.round ((1 : ℤ) : ℚ) by unfold F32.div; norm_num,
    F32.round_int 2 (by norm_num), F32.round_int 1 (by norm_num)]
  decide +kernel

end Jxl
