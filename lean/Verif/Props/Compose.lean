import Verif.Proofs.Compose
import Verif.Spec.Compose
import Verif.Props.Blend

/-! # Reference frames (C64) -/
namespace Jxl
open Spec

theorem compareRow_self {α : Type} (cmp : α → α → Bool) : ∀ r : List α, (∀ v ∈ r, cmp v v = true) → compareRow cmp r r = true
  | [], _ => rfl
  | v :: r, h => by
    unfold compareRow
    rw [h v List.mem_cons_self]
    simpa using compareRow_self cmp r (fun x hx => h x (List.mem_cons_of_mem _ hx))

theorem compareRows_self {α : Type} (cmp : α → α → Bool) : ∀ m : List (List α), (∀ r ∈ m, ∀ v ∈ r, cmp v v = true) → compareRows cmp m m = true
  | [], _ => rfl
  | r :: m, h => by
    unfold compareRows
    rw [compareRow_self cmp r (h r List.mem_cons_self)]
    simpa using compareRows_self cmp m (fun x hx => h x (List.mem_cons_of_mem _ hx))

theorem F32.eq_self {v : F32} (h : v ≠ .nan) : F32.eq v v = true := by
  cases v <;> simp_all [F32.eq]

theorem proper_equals {b : ImageBuffer} (h : Proper b) : b.equals b = true := by
  obtain ⟨hh, w, hp, _, hn⟩ := h
  unfold ImageBuffer.equals
  rw [if_neg (by omega), if_neg (by omega)]
  rcases hp with hp | hp
  · rw [if_pos hp.1]
    unfold compareMatrix2D
    rw [if_neg (by omega)]
    exact compareRows_self _ _ (fun _ _ v _ => by simp)
  · rw [if_neg (by rw [hp.1]; decide), if_pos hp.1]
    unfold compareMatrix2D
    rw [if_neg (by omega)]
    refine compareRows_self _ _ ?_
    intro r hr v hv
    refine F32.eq_self ?_
    rintro rfl
    obtain ⟨y, hy⟩ := List.mem_iff_getElem?.mp hr
    obtain ⟨x, hx⟩ := List.mem_iff_getElem?.mp hv
    exact hn hp.1 y x (by unfold sample; rw [hy]; exact hx)

theorem sliceEquals_self : ∀ l : List ImageBuffer, (∀ b ∈ l, Proper b) → sliceEquals l l = true
  | [], _ => rfl
  | b :: l, h => by
    unfold sliceEquals
    rw [proper_equals (h b List.mem_cons_self), sliceEquals_self l (fun x hx => h x (List.mem_cons_of_mem _ hx))]
    rfl

theorem proper_nonempty {b : ImageBuffer} (h : Proper b) : ¬ (b.width = 0 ∧ b.height = 0) := by
  obtain ⟨hh, w, hp, hpos, _⟩ := h
  rcases hp with hp | hp
  · have := hp.2.1; omega
  · have := hp.2.1; omega

theorem converted_of_keep {b b' : ImageBuffer} (hk : Keep b b') (hb : Proper b) : Converted b b' := by
  rcases hk with hk | hk | ⟨m, hk⟩
  · exact absurd hk (proper_nonempty hb)
  · exact Or.inl hk
  · obtain ⟨hh, w, hp, _⟩ := hb
    rcases hp with hp | hp
    · by_cases hm : 1 ≤ m
      · obtain ⟨b1, e, p, s⟩ := (C36_to_float b hh w m hp).1 hm
        rw [hk] at e
        cases e
        exact Or.inr ⟨hh, w, m, hp, hm, p, s⟩
      · exfalso
        unfold castToFloatIfMax castToFloatBuffer at hk
        rw [if_neg (by rw [hp.1]; decide), if_neg (by rw [hp.1]; decide), if_pos (by omega)] at hk
        cases hk
    · rw [castToFloat_float hp.1] at hk
      cases hk
      exact Or.inl rfl

/-- The slot of a reference, and what it holds. -/
def Holding (s : Store) (i a : Nat) : Prop := s.refs[i]? = some (some a)

theorem buffer_lt {s : Store} {a i : Nat} {b : ImageBuffer} (h : buffer s a i = some b) : a < s.slices.length := by
  unfold buffer at h
  cases hl : s.slices[a]? with
  | none => rw [hl] at h; cases h
  | some l => exact getElem?_lt hl

/-- One frame that is not saved in slot `i`. -/
theorem composeFrame_keeps {I : BlendImpl} {h : ImageHeader} {ct : FrameHeader → List ImageBuffer → Res (List ImageBuffer)} {d : DecodedFrame} {s s' : Store} {i a : Nat}
    (e : composeFrame I h ct d s = .ok s') (hi : d.header.saveAsReference ≠ i ∨ d.header.frameType = 1) (hs : Sound s) (ha : Holding s i a)
    (hi4 : i < 4) : Holding s' i a ∧ ∀ c b, buffer s a c = some b → ∃ b', buffer s' a c = some b' ∧ Keep b b' := by
  unfold composeFrame at e
  split at e
  · cases e
    exact ⟨ha, fun c b hb => ⟨b, hb, Keep.refl b⟩⟩
  rename_i hlf
  have hi : d.header.saveAsReference ≠ i := by
    rcases hi with hi | hi
    · exact hi
    · exact absurd hi hlf
  obtain ⟨s1, e1, e⟩ := Res.of_bind e
  obtain ⟨s2, e2, e⟩ := Res.of_bind e
  obtain ⟨s3, e3, e⟩ := Res.of_bind e
  obtain ⟨s4, e4, e5⟩ := Res.of_bind e
  -- the slots
  have r1 : Holding s1 i a ∧ s1.slices = s.slices ++ [d.buffers] ∧ s1.canvas = s.canvas ∧ s1.frame = s.slices.length := by
    unfold saveEarly at e1
    split at e1
    · obtain ⟨r, er, e1⟩ := Res.of_bind e1
      cases e1
      obtain ⟨_, rfl⟩ := setAt_other er
      refine ⟨?_, rfl, rfl, rfl⟩
      unfold Holding
      dsimp only
      rw [List.getElem?_set_ne hi]
      exact ha
    · cases e1
      exact ⟨ha, rfl, rfl, rfl⟩
  obtain ⟨hr1, hs1, hc1, hf1⟩ := r1
  have r2 : s2.refs = s1.refs ∧ s2.canvas = s1.canvas ∧ s2.frame = s1.frame ∧ ∃ l, s2.slices = s1.slices.set s1.frame l := by
    unfold colourStep at e2
    obtain ⟨_, _, e2⟩ := Res.of_bind e2
    obtain ⟨l, _, e2⟩ := Res.of_bind e2
    obtain ⟨m, em, e2⟩ := Res.of_bind e2
    cases e2
    exact ⟨rfl, rfl, rfl, l, (setAt_other em).2⟩
  obtain ⟨hr2, hc2, hf2, l2, hs2⟩ := r2
  have b2 : ∀ a', a' < s.slices.length → s2.slices[a']? = s.slices[a']? := by
    intro a' hlt
    rw [hs2, hf1, List.getElem?_set_ne (by omega), hs1, List.getElem?_append_left hlt]
  have r3 : s3.refs = s2.refs ∧ s3.canvas = s2.canvas ∧ s3.frame = s2.frame ∧ s3.slices.length = s2.slices.length ∧
      (∀ a', a' ≠ s.canvas → s3.slices[a']? = s2.slices[a']?) ∧ (s.canvas < s.slices.length → s3.slices[s.canvas]? = s.slices[s.canvas]? ∨
        ∃ b, buffer s s.canvas 0 = some b ∧ b.width = 0 ∧ b.height = 0) := by
    unfold initCanvas at e3
    obtain ⟨l, el, e3⟩ := Res.of_bind e3
    obtain ⟨b, eb, e3⟩ := Res.of_bind e3
    split at e3
    · rename_i hz
      obtain ⟨fb, _, e3⟩ := Res.of_bind e3
      obtain ⟨n, _, e3⟩ := Res.of_bind e3
      obtain ⟨m, em, e3⟩ := Res.of_bind e3
      cases e3
      obtain ⟨_, rfl⟩ := setAt_other em
      refine ⟨rfl, rfl, rfl, by simp, ?_, ?_⟩
      · intro a' hne
        dsimp only
        rw [List.getElem?_set_ne (by rw [hc2, hc1]; omega)]
      · intro hlt
        refine Or.inr ⟨b, ?_, hz.2, hz.1⟩
        have h1 := idx_ok_some el
        rw [hc2, hc1, b2 _ hlt] at h1
        unfold buffer
        rw [h1, Option.bind_some]
        exact idx_ok_some (i := 0) eb
    · cases e3
      exact ⟨rfl, rfl, rfl, rfl, fun _ _ => rfl, fun hlt => Or.inl (b2 _ hlt)⟩
  obtain ⟨hr3, hc3, hf3, hlen3, b3, b3c⟩ := r3
  -- the slice of the reference is as it was
  have h3 : a < s.slices.length → s3.slices[a]? = s.slices[a]? := by
    intro hlt
    by_cases hac : a = s.canvas
    · subst hac
      rcases b3c hlt with hx | ⟨b, hb, hz⟩
      · exact hx
      · exact absurd hz (proper_nonempty (hs 0 b hb))
    · rw [b3 a hac, b2 a hlt]
  have key : s4.refs = s3.refs ∧ ∀ c b, a < s.slices.length → buffer s3 a c = some b → ∃ b', buffer s4 a c = some b' ∧ Keep b b' := by
    unfold paintFrame at e4
    split at e4
    · obtain ⟨s5, e5', e4⟩ := Res.of_bind e4
      have sp := blendFrame_spares e4
      unfold detachCanvas at e5'
      obtain ⟨l, el, e5'⟩ := Res.of_bind e5'
      split at e5'
      · cases e5'
        refine ⟨sp.refs, ?_⟩
        intro c b hlt hb
        have hlt3 := buffer_lt hb
        refine sp.bufs a c b (by dsimp only; omega) ?_
        unfold buffer at hb ⊢
        dsimp only
        rw [List.getElem?_append_left hlt3]
        exact hb
      · rename_i hno
        cases e5'
        refine ⟨sp.refs, ?_⟩
        intro c b hlt hb
        refine sp.bufs a c b ?_ hb
        intro hac
        apply hno
        have el' := idx_ok_some el
        have hl : s.slices[a]? = some l := by rw [← h3 hlt, hac]; exact el'
        unfold canvasSaved
        rw [List.any_eq_true]
        refine ⟨i, List.mem_range.mpr hi4, ?_⟩
        rw [Bool.and_eq_true]
        refine ⟨by simpa using fun hx => hi hx.symm, ?_⟩
        have hrf : s3.refs[i]? = some (some a) := by rw [hr3, hr2]; exact hr1
        rw [hrf, Option.join_some, Option.bind_some, h3 hlt, hl, Option.getD_some]
        refine sliceEquals_self l ?_
        intro b hb
        obtain ⟨j, hj⟩ := List.mem_iff_getElem?.mp hb
        refine hs j b ?_
        have : a = s.canvas := by rw [hac, hc3, hc2, hc1]
        unfold buffer
        rw [← this, hl, Option.bind_some, hj]
    · cases e4
      exact ⟨rfl, fun c b _ hb => ⟨b, hb, Keep.refl b⟩⟩
  obtain ⟨hr4, hk4⟩ := key
  have h4 : Holding s4 i a := by
    unfold Holding
    rw [hr4, hr3, hr2]
    exact hr1
  have fin : Holding s' i a ∧ s'.slices = s4.slices := by
    unfold saveLate at e5
    split at e5
    · obtain ⟨r, er, e5⟩ := Res.of_bind e5
      cases e5
      obtain ⟨_, rfl⟩ := setAt_other er
      refine ⟨?_, rfl⟩
      unfold Holding
      dsimp only
      rw [List.getElem?_set_ne hi]
      exact h4
    · cases e5
      exact ⟨h4, rfl⟩
  refine ⟨fin.1, ?_⟩
  intro c b hb
  have hlt := buffer_lt hb
  obtain ⟨b', hb', hk⟩ := hk4 c b hlt (by unfold buffer at hb ⊢; rw [h3 hlt]; exact hb)
  refine ⟨b', ?_, hk⟩
  unfold buffer at hb' ⊢
  rw [fin.2]
  exact hb'

/-- A frame saved as a reference stays as it was saved (integers may be converted to floats), however many frames follow, until another frame is saved in its slot,
as long as the canvas holds no NaN. -/
theorem C64_kept_partial (I : BlendImpl) (h : ImageHeader) (ct : FrameHeader → List ImageBuffer → Res (List ImageBuffer)) (i : Nat) (hi4 : i < 4) :
    ∀ (ds : List DecodedFrame) (s s' : Store), composeAll I h ct ds s = .ok s' →
      (∀ d ∈ ds, d.header.saveAsReference ≠ i ∨ d.header.frameType = 1) →
      (∀ pre d post, ds = pre ++ d :: post → (∀ x ∈ pre, x.header.isLast = false) → ∀ s1, composeAll I h ct pre s = .ok s1 → Sound s1) →
      ∀ c b, saved s i c = some b → Proper b → ∃ b', saved s' i c = some b' ∧ Converted b b' := by
  have key : ∀ (ds : List DecodedFrame) (s s' : Store), composeAll I h ct ds s = .ok s' →
      (∀ d ∈ ds, d.header.saveAsReference ≠ i ∨ d.header.frameType = 1) →
      (∀ pre d post, ds = pre ++ d :: post → (∀ x ∈ pre, x.header.isLast = false) → ∀ s1, composeAll I h ct pre s = .ok s1 → Sound s1) →
      ∀ a, Holding s i a → Holding s' i a ∧ ∀ c b, buffer s a c = some b → ∃ b', buffer s' a c = some b' ∧ Keep b b' := by
    intro ds
    induction ds with
    | nil =>
      intro s s' e _ _ a ha
      cases e
      exact ⟨ha, fun c b hb => ⟨b, hb, Keep.refl b⟩⟩
    | cons d ds ih =>
      intro s s' e hd hsnd a ha
      unfold composeAll at e
      obtain ⟨s1, e1, e⟩ := Res.of_bind e
      have h0 : Sound s := hsnd [] d ds rfl (fun x hx => by cases hx) s rfl
      obtain ⟨ha1, hk1⟩ := composeFrame_keeps e1 (hd d List.mem_cons_self) h0 ha hi4
      split at e
      · cases e
        exact ⟨ha1, hk1⟩
      · rename_i hl
        obtain ⟨ha2, hk2⟩ := ih s1 s' e (fun x hx => hd x (List.mem_cons_of_mem _ hx)) (by
          intro pre d' post hx hlast s2 e2
          refine hsnd (d :: pre) d' post (by rw [hx]; rfl) ?_ s2 ?_
          · intro x hx'
            rcases List.mem_cons.mp hx' with rfl | hx'
            · simpa using hl
            · exact hlast x hx'
          · unfold composeAll
            rw [e1, Res.bind_ok, if_neg hl]
            exact e2) a ha1
        refine ⟨ha2, ?_⟩
        intro c b hb
        obtain ⟨b1, hb1, k1⟩ := hk1 c b hb
        obtain ⟨b2, hb2, k2⟩ := hk2 c b1 hb1
        exact ⟨b2, hb2, k1.trans k2⟩
  intro ds s s' e hd hsnd c b hb hp
  unfold saved at hb
  cases hr : s.refs[i]? with
  | none => rw [hr] at hb; cases hb
  | some o =>
    cases o with
    | none => rw [hr] at hb; cases hb
    | some a =>
      rw [hr, Option.join_some, Option.bind_some] at hb
      obtain ⟨ha, hk⟩ := key ds s s' e hd hsnd a hr
      obtain ⟨b', hb', k⟩ := hk c b hb
      refine ⟨b', ?_, converted_of_keep k hp⟩
      unfold saved
      rw [ha, Option.join_some, Option.bind_some, hb']

/-- A frame saved after the colour transform: its slot holds the canvas. -/
theorem composeFrame_late {I : BlendImpl} {h : ImageHeader} {ct : FrameHeader → List ImageBuffer → Res (List ImageBuffer)} {d : DecodedFrame} {s s' : Store}
    (e : composeFrame I h ct d s = .ok s') (ht : d.header.frameType ≠ 1) (hl : d.header.isLast = false) (hb : d.header.saveBeforeCT = false) :
    Holding s' d.header.saveAsReference s'.canvas := by
  unfold composeFrame at e
  rw [if_neg ht] at e
  obtain ⟨s1, _, e⟩ := Res.of_bind e
  obtain ⟨s2, _, e⟩ := Res.of_bind e
  obtain ⟨s3, _, e⟩ := Res.of_bind e
  obtain ⟨s4, _, e⟩ := Res.of_bind e
  unfold saveLate at e
  rw [if_pos (by simp [FrameHeader.saves, hl, hb, ht])] at e
  obtain ⟨r, er, e⟩ := Res.of_bind e
  cases e
  obtain ⟨hlt, rfl⟩ := setAt_other er
  unfold Holding
  dsimp only
  rw [List.getElem?_set_self hlt]

/-- A frame that is saved: its slot shows, whatever follows, what the canvas showed after this frame. -/
theorem C64_reference_partial (I : BlendImpl) (h : ImageHeader) (ct : FrameHeader → List ImageBuffer → Res (List ImageBuffer)) (d : DecodedFrame)
    (ds : List DecodedFrame) (s s1 s2 : Store) (e : composeFrame I h ct d s = .ok s1) (e2 : composeAll I h ct ds s1 = .ok s2)
    (ht : d.header.frameType ≠ 1) (hl : d.header.isLast = false) (hb : d.header.saveBeforeCT = false) (h4 : d.header.saveAsReference < 4)
    (hd : ∀ x ∈ ds, x.header.saveAsReference ≠ d.header.saveAsReference ∨ x.header.frameType = 1)
    (hs : ∀ pre x post, ds = pre ++ x :: post → (∀ y ∈ pre, y.header.isLast = false) → ∀ t, composeAll I h ct pre s1 = .ok t → Sound t)
    (c : Nat) (b : ImageBuffer) (hc : buffer s1 s1.canvas c = some b) (hp : Proper b) :
    ∃ b', saved s2 d.header.saveAsReference c = some b' ∧ Converted b b' := by
  refine C64_kept_partial I h ct _ h4 ds s1 s2 e2 hd hs c b ?_ hp
  unfold saved
  rw [composeFrame_late e ht hl hb, Option.join_some, Option.bind_some, hc]

/-- A frame to be saved before the colour transform is saved with the samples after the transform: the buffers of the frame are saved, not a copy. -/
theorem C64_before_transform_wrong (I : BlendImpl) (h : ImageHeader) (ct : FrameHeader → List ImageBuffer → Res (List ImageBuffer)) (d : DecodedFrame)
    (s s' : Store) (e : composeFrame I h ct d s = .ok s') (ht : d.header.frameType ≠ 1) (hl : d.header.isLast = false) (hb : d.header.saveBeforeCT = true)
    (hcv : s.canvas < s.slices.length) :
    ∃ l, ct d.header d.buffers = .ok l ∧ ∀ (c : Nat) (b : ImageBuffer), l[c]? = some b → Proper b →
      ∃ b', saved s' d.header.saveAsReference c = some b' ∧ Converted b b' := by
  unfold composeFrame at e
  rw [if_neg ht] at e
  obtain ⟨s1, e1, e⟩ := Res.of_bind e
  obtain ⟨s2, e2, e⟩ := Res.of_bind e
  obtain ⟨s3, e3, e⟩ := Res.of_bind e
  obtain ⟨s4, e4, e5⟩ := Res.of_bind e
  unfold saveEarly at e1
  rw [if_pos (by simp [FrameHeader.saves, hl, hb, ht])] at e1
  obtain ⟨r, er, e1⟩ := Res.of_bind e1
  cases e1
  obtain ⟨hlt, rfl⟩ := setAt_other er
  unfold colourStep at e2
  obtain ⟨l0, el0, e2⟩ := Res.of_bind e2
  obtain ⟨l, el, e2⟩ := Res.of_bind e2
  obtain ⟨m, em, e2⟩ := Res.of_bind e2
  cases e2
  obtain ⟨hm, rfl⟩ := setAt_other em
  have hl0 := idx_ok_some el0
  dsimp only at hl0 hm hlt
  rw [List.getElem?_append_right (Nat.le_refl _), Nat.sub_self, List.getElem?_cons_zero] at hl0
  cases hl0
  refine ⟨l, el, ?_⟩
  intro c b hc hp
  -- the canvas is not the frame
  have r3 : s3.refs = s.refs.set d.header.saveAsReference (some s.slices.length) ∧ s3.canvas = s.canvas ∧ s3.slices[s.slices.length]? = some l := by
    unfold initCanvas at e3
    obtain ⟨l3, _, e3⟩ := Res.of_bind e3
    obtain ⟨b3, _, e3⟩ := Res.of_bind e3
    split at e3
    · obtain ⟨fb, _, e3⟩ := Res.of_bind e3
      obtain ⟨n, _, e3⟩ := Res.of_bind e3
      obtain ⟨m, em3, e3⟩ := Res.of_bind e3
      cases e3
      obtain ⟨_, rfl⟩ := setAt_other em3
      refine ⟨rfl, rfl, ?_⟩
      dsimp only
      rw [List.getElem?_set_ne (by omega), List.getElem?_set_self hm]
    · cases e3
      refine ⟨rfl, rfl, ?_⟩
      dsimp only
      rw [List.getElem?_set_self hm]
  obtain ⟨hr3, hc3, hf3⟩ := r3
  have hb3 : buffer s3 s.slices.length c = some b := by
    unfold buffer
    rw [hf3, Option.bind_some, hc]
  have key : s4.refs = s3.refs ∧ ∃ b', buffer s4 s.slices.length c = some b' ∧ Keep b b' := by
    unfold paintFrame at e4
    split at e4
    · obtain ⟨s5, e5', e4⟩ := Res.of_bind e4
      have sp := blendFrame_spares e4
      unfold detachCanvas at e5'
      obtain ⟨l5, el5, e5'⟩ := Res.of_bind e5'
      have hlt3 := buffer_lt hb3
      split at e5'
      · cases e5'
        refine ⟨sp.refs, sp.bufs _ c b (by dsimp only; omega) ?_⟩
        unfold buffer at hb3 ⊢
        dsimp only
        rw [List.getElem?_append_left hlt3]
        exact hb3
      · cases e5'
        exact ⟨sp.refs, sp.bufs _ c b (by omega) hb3⟩
    · cases e4
      exact ⟨rfl, b, hb3, Keep.refl b⟩
  obtain ⟨hr4, b', hb', hk⟩ := key
  unfold saveLate at e5
  rw [if_neg (by simp [hb])] at e5
  cases e5
  refine ⟨b', ?_, converted_of_keep hk hp⟩
  unfold saved
  rw [hr4, hr3, List.getElem?_set_self hlt, Option.join_some, Option.bind_some, hb']

/-- A frame that is only a reference and is saved after the colour transform: what is saved is the canvas before this frame, and the frame itself is lost. -/
theorem C64_reference_only_lost (I : BlendImpl) (h : ImageHeader) (ct : FrameHeader → List ImageBuffer → Res (List ImageBuffer)) (d : DecodedFrame)
    (s s' : Store) (e : composeFrame I h ct d s = .ok s') (ht : d.header.frameType = 2) (hl : d.header.isLast = false) (hb : d.header.saveBeforeCT = false)
    (hcv : s.canvas < s.slices.length) (hs : Sound s) (c : Nat) : saved s' d.header.saveAsReference c = buffer s s.canvas c := by
  have hold := composeFrame_late e (by omega) hl hb
  unfold composeFrame at e
  rw [if_neg (by omega)] at e
  obtain ⟨s1, e1, e⟩ := Res.of_bind e
  obtain ⟨s2, e2, e⟩ := Res.of_bind e
  obtain ⟨s3, e3, e⟩ := Res.of_bind e
  obtain ⟨s4, e4, e5⟩ := Res.of_bind e
  unfold saveEarly at e1
  rw [if_neg (by simp [hb])] at e1
  cases e1
  unfold colourStep at e2
  obtain ⟨l0, el0, e2⟩ := Res.of_bind e2
  obtain ⟨l, el, e2⟩ := Res.of_bind e2
  obtain ⟨m, em, e2⟩ := Res.of_bind e2
  cases e2
  obtain ⟨hm, rfl⟩ := setAt_other em
  have h2 : ((s.slices ++ [d.buffers]).set s.slices.length l)[s.canvas]? = s.slices[s.canvas]? := by
    rw [List.getElem?_set_ne (by omega), List.getElem?_append_left hcv]
  unfold paintFrame at e4
  rw [if_neg (by rw [ht]; decide)] at e4
  cases e4
  have h3 : s3.canvas = s.canvas ∧ s3.slices[s.canvas]? = s.slices[s.canvas]? := by
    unfold initCanvas at e3
    obtain ⟨l3, el3, e3⟩ := Res.of_bind e3
    obtain ⟨b3, eb3, e3⟩ := Res.of_bind e3
    have hl3 := idx_ok_some el3
    dsimp only at hl3
    rw [h2] at hl3
    split at e3
    · rename_i hz
      exfalso
      refine proper_nonempty (hs 0 b3 ?_) ⟨hz.2, hz.1⟩
      unfold buffer
      rw [hl3, Option.bind_some]
      exact idx_ok_some (i := 0) eb3
    · cases e3
      exact ⟨rfl, h2⟩
  unfold saveLate at e5
  rw [if_pos (by simp [FrameHeader.saves, hl, hb, ht])] at e5
  obtain ⟨r, er, e5⟩ := Res.of_bind e5
  cases e5
  unfold saved
  rw [hold, Option.join_some, Option.bind_some]
  dsimp only
  unfold buffer
  dsimp only
  rw [h3.1, h3.2]

/-- Regular frames, and regular frames that need not be shown while the image loads, are blended into the canvas as it was: `t` is the memory before, with the colours of
the frame transformed, and `t'` the memory after the blending that C25 is about. -/
theorem C64_painted (I : BlendImpl) (h : ImageHeader) (ct : FrameHeader → List ImageBuffer → Res (List ImageBuffer)) (d : DecodedFrame)
    (s s' : Store) (e : composeFrame I h ct d s = .ok s') (ht : d.header.frameType = 0 ∨ d.header.frameType = 3) (hcv : s.canvas < s.slices.length) (hs : Sound s) :
    ∃ l t t', ct d.header d.buffers = .ok l ∧ (∀ c, buffer t t.frame c = l[c]?) ∧ (∀ c, buffer t t.canvas c = buffer s s.canvas c) ∧
      blendFrame I h d.header t = .ok t' ∧ ∀ c, buffer s' s'.canvas c = buffer t' t'.canvas c := by
  unfold composeFrame at e
  rw [if_neg (by omega)] at e
  obtain ⟨s1, e1, e⟩ := Res.of_bind e
  obtain ⟨s2, e2, e⟩ := Res.of_bind e
  obtain ⟨s3, e3, e⟩ := Res.of_bind e
  obtain ⟨s4, e4, e5⟩ := Res.of_bind e
  have h1 : s1.slices = s.slices ++ [d.buffers] ∧ s1.frame = s.slices.length ∧ s1.canvas = s.canvas := by
    unfold saveEarly at e1
    split at e1
    · obtain ⟨r, er, e1⟩ := Res.of_bind e1
      cases e1
      exact ⟨rfl, rfl, rfl⟩
    · cases e1
      exact ⟨rfl, rfl, rfl⟩
  unfold colourStep at e2
  obtain ⟨l0, el0, e2⟩ := Res.of_bind e2
  obtain ⟨l, el, e2⟩ := Res.of_bind e2
  obtain ⟨m, em, e2⟩ := Res.of_bind e2
  cases e2
  obtain ⟨hm, rfl⟩ := setAt_other em
  have hl0 := idx_ok_some el0
  rw [h1.1, h1.2.1, List.getElem?_append_right (Nat.le_refl _), Nat.sub_self] at hl0
  cases hl0
  have h2 : (s1.slices.set s1.frame l)[s.canvas]? = s.slices[s.canvas]? := by
    rw [h1.1, h1.2.1, List.getElem?_set_ne (by omega), List.getElem?_append_left hcv]
  have h2f : (s1.slices.set s1.frame l)[s.slices.length]? = some l := by
    rw [h1.1, h1.2.1, List.getElem?_set_self (by simp)]
  have h3 : s3.canvas = s.canvas ∧ s3.frame = s.slices.length ∧ s3.slices[s.canvas]? = s.slices[s.canvas]? ∧ s3.slices[s.slices.length]? = some l := by
    unfold initCanvas at e3
    obtain ⟨l3, el3, e3⟩ := Res.of_bind e3
    obtain ⟨b3, eb3, e3⟩ := Res.of_bind e3
    have hl3 := idx_ok_some el3
    dsimp only at hl3
    rw [h1.2.2, h2] at hl3
    split at e3
    · rename_i hz
      exfalso
      refine proper_nonempty (hs 0 b3 ?_) ⟨hz.2, hz.1⟩
      unfold buffer
      rw [hl3, Option.bind_some]
      exact idx_ok_some (i := 0) eb3
    · cases e3
      exact ⟨h1.2.2, h1.2.1, h2, h2f⟩
  unfold paintFrame at e4
  rw [if_pos (by rcases ht with h | h <;> rw [h] <;> decide)] at e4
  obtain ⟨t, et, e4⟩ := Res.of_bind e4
  refine ⟨l, t, s4, el, ?_, ?_, e4, ?_⟩
  · intro c
    unfold detachCanvas at et
    obtain ⟨l4, el4, et⟩ := Res.of_bind et
    have hb : ∀ (t : Store), t.frame = s.slices.length → t.slices[s.slices.length]? = some l → buffer t t.frame c = l[c]? := by
      intro t h h'
      unfold buffer
      rw [h, h']
      rfl
    split at et
    · cases et
      refine hb _ h3.2.1 ?_
      show (s3.slices ++ [l4])[s.slices.length]? = _
      rw [List.getElem?_append_left (List.getElem?_eq_some_iff.1 h3.2.2.2).1, h3.2.2.2]
    · cases et
      exact hb _ h3.2.1 h3.2.2.2
  · intro c
    unfold detachCanvas at et
    obtain ⟨l4, el4, et⟩ := Res.of_bind et
    have hl4 := idx_ok_some el4
    rw [h3.1, h3.2.2.1] at hl4
    split at et
    · cases et
      unfold buffer
      dsimp only
      rw [hl4, List.getElem?_append_right (Nat.le_refl _), Nat.sub_self]
      rfl
    · cases et
      unfold buffer
      rw [h3.1, h3.2.2.1]
  · intro c
    unfold saveLate at e5
    split at e5
    · obtain ⟨r, er, e5⟩ := Res.of_bind e5
      cases e5
      rfl
    · cases e5
      rfl

/-- The memory before the first frame of an image with two channels. -/
def freshStore : Store := ⟨[[⟨0, 0, 0, [], []⟩, ⟨0, 0, 0, [], []⟩]], 0, 0, [none, none, none, none]⟩

/-- Frames that are not transformed. -/
def plainCT : FrameHeader → List ImageBuffer → Res (List ImageBuffer) := fun _ l => .ok l

/-- What slot `i` shows, in floats, after some frames. -/
def savedFloats (I : BlendImpl) (ds : List DecodedFrame) (i c : Nat) : Option (List (List F32)) :=
  match composeAll I grayAlpha plainCT ds freshStore with
  | .ok s => (saved s i c).map (·.floats)
  | _ => none

/-- The first frame: it replaces the canvas, and is saved in slot 0. -/
def firstFrame (v : ℚ) : DecodedFrame :=
  ⟨{ frameAt 0 0 ⟨0, 0, false, 0⟩ [⟨0, 0, false, 0⟩] with isLast := false, saveAsReference := 0 }, [fourF v v v v, fourF 0 0 0 0]⟩

/-- The second frame: blended with slot 0, saved in slot 1. -/
def secondFrame (mode : Nat) : DecodedFrame :=
  ⟨{ frameAt 0 0 ⟨mode, 0, false, 0⟩ [⟨0, 0, false, 0⟩] with isLast := false, saveAsReference := 1 }, [fourF 3 3 3 3, fourF 0 0 0 0]⟩

/-- The last frame: it replaces the canvas. -/
def thirdFrame : DecodedFrame := ⟨frameAt 0 0 ⟨0, 0, false, 0⟩ [⟨0, 0, false, 0⟩], [fourF 7 7 7 7, fourF 0 0 0 0]⟩

/-- Three frames: after the last one slot 0 still shows the first frame, and slot 1 the sum of the first two. -/
theorem C64_sample (fused left : Bool) : savedFloats (impl fused left) [firstFrame 5, secondFrame 1, thirdFrame] 0 0 = some (fourF 5 5 5 5).floats ∧
    savedFloats (impl fused left) [firstFrame 5, secondFrame 1, thirdFrame] 1 0 = some (fourF 8 8 8 8).floats := by
  have : ∀ fused left, savedFloats (impl fused left) [firstFrame 5, secondFrame 1, thirdFrame] 0 0 = some (fourF 5 5 5 5).floats ∧
    savedFloats (impl fused left) [firstFrame 5, secondFrame 1, thirdFrame] 1 0 = some (fourF 8 8 8 8).floats := by decide +kernel
  exact this fused left

/-- If the canvas holds a NaN when it is saved (here: transparent over transparent), the next frame is painted into the saved reference. -/
theorem C64_nan_overwritten (fused left : Bool) : savedFloats (impl fused left) [firstFrame 5, secondFrame 2] 1 0 = some [[.nan, .nan], [.nan, .nan]] ∧
    savedFloats (impl fused left) [firstFrame 5, secondFrame 2, thirdFrame] 1 0 = some (fourF 7 7 7 7).floats := by
  have : ∀ fused left, savedFloats (impl fused left) [firstFrame 5, secondFrame 2] 1 0 = some [[.nan, .nan], [.nan, .nan]] ∧
    savedFloats (impl fused left) [firstFrame 5, secondFrame 2, thirdFrame] 1 0 = some (fourF 7 7 7 7).floats := by decide +kernel
  exact this fused left

/-- A canvas that is also saved in slot 1. -/
def savedStore : Store := ⟨[[fourF 8 8 8 8, fourF 0 0 0 0]], 0, 0, [none, some 0, none, none]⟩

theorem proper_fourF (v : ℚ) : Proper (fourF v v v v) := by
  refine ⟨2, 2, Or.inr ⟨rfl, rfl, rfl, rfl, ?_⟩, by decide, ?_⟩
  · intro r hr
    simp only [fourF, List.mem_cons, List.not_mem_nil, or_false] at hr
    rcases hr with rfl | rfl <;> rfl
  · intro _ y x
    rcases y with _ | _ | y <;> rcases x with _ | _ | x <;> simp [sample, fourF]

/-- The hypotheses of `C64_painted` hold for a frame of type 3 over a canvas of eights. -/
example : (∃ s', composeFrame (impl false false) grayAlpha plainCT { thirdFrame with header := { thirdFrame.header with frameType := 3 } } savedStore = .ok s') ∧ Sound savedStore := by
  refine ⟨⟨_, rfl⟩, ?_⟩
  intro c b hb
  rcases c with _ | _ | c
  · cases hb; exact proper_fourF 8
  · cases hb; exact proper_fourF 0
  · simp [buffer, savedStore] at hb

/-- The hypotheses of `C64_kept_partial` hold for the last of the three frames: the canvas is saved in slot 1 when this frame is painted. -/
example : ∃ s', composeAll (impl false false) grayAlpha plainCT [thirdFrame] savedStore = .ok s' ∧
    (∀ d ∈ [thirdFrame], d.header.saveAsReference ≠ 1 ∨ d.header.frameType = 1) ∧
    (∀ pre d post, [thirdFrame] = pre ++ d :: post → (∀ x ∈ pre, x.header.isLast = false) →
      ∀ s1, composeAll (impl false false) grayAlpha plainCT pre savedStore = .ok s1 → Sound s1) ∧
    saved savedStore 1 0 = some (fourF 8 8 8 8) ∧ Proper (fourF 8 8 8 8) := by
  have hp := proper_fourF
  refine ⟨_, rfl, ?_, ?_, rfl, hp 8⟩
  · intro d hd
    rw [List.mem_singleton] at hd
    subst hd
    exact Or.inl (by decide)
  · intro pre d post hx _ s1 e1
    cases pre with
    | cons y pre => simp at hx
    | nil =>
      cases e1
      intro c b hb
      rcases c with _ | _ | c
      · cases hb; exact hp 8
      · cases hb; exact hp 0
      · simp [buffer, savedStore] at hb

end Jxl
