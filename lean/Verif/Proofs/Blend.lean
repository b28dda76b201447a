import Verif.Proofs.BlendLoops
import Verif.Proofs.PNGSize

/-! # Blending one channel -/
namespace Jxl
open Spec

/-- A buffer of `Holds` is a picture whose casts succeed. -/
theorem Spec.Holds.picture {h w d : Nat} {b : ImageBuffer} (hb : Holds h w d b) :
    ∃ h' w', b.Picture h' w' ∧ (b.bufferType = 0 → 1 ≤ d ∧ d ≤ 31) ∧ h ≤ h' ∧ w ≤ w' ∧ h' < 2 ^ 31 ∧ w' < 2 ^ 31 := by
  obtain ⟨h', w', hp, h1, h2, h3, h4⟩ := hb
  refine ⟨h', w', ?_, ?_, h1, h2, h3, h4⟩
  · rcases hp with hp | hp
    · exact Or.inr hp
    · exact Or.inl hp.1
  · intro ht
    rcases hp with hp | hp
    · rw [hp.1] at ht; cases ht
    · exact hp.2

theorem Spec.Holds.types {h w d : Nat} {b : ImageBuffer} (hb : Holds h w d b) : b.bufferType = 0 ∨ b.bufferType = 1 := by
  obtain ⟨_, _, hp, _⟩ := hb
  rcases hp with hp | hp
  · exact Or.inr hp.1
  · exact Or.inl hp.1.1

/-- `b'` is `b`, or `b` converted to floats (which may happen only if `T`). -/
def Like (T : Prop) (d : Nat) (b b' : ImageBuffer) : Prop := b' = b ∨ (T ∧ b.bufferType = 0 ∧ castToFloatIfMax b (mask32 d) = .ok b')

theorem Like.refl (T : Prop) (d : Nat) (b : ImageBuffer) : Like T d b b := Or.inl rfl

theorem castToFloat_type {b b' : ImageBuffer} {m : Int} (h : castToFloatIfMax b m = .ok b') : b'.bufferType = 1 := by
  unfold castToFloatIfMax at h
  split at h
  · cases h; assumption
  · unfold castToFloatBuffer at h
    rw [if_neg (by assumption)] at h
    split at h
    · cases h
    · obtain ⟨m1, _, h⟩ := Res.of_bind h
      obtain ⟨m2, _, h⟩ := Res.of_bind h
      cases h
      rfl

theorem castToFloat_float {b : ImageBuffer} {m : Int} (h : b.bufferType = 1) : castToFloatIfMax b m = .ok b := by
  unfold castToFloatIfMax
  rw [if_pos h]

theorem Like.trans {T : Prop} {d : Nat} {b b' b'' : ImageBuffer} (h1 : Like T d b b') (h2 : Like T d b' b'') : Like T d b b'' := by
  rcases h1 with rfl | ⟨ht, h0, hc⟩
  · exact h2
  · rcases h2 with rfl | ⟨_, h0', _⟩
    · exact Or.inr ⟨ht, h0, hc⟩
    · rw [castToFloat_type hc] at h0'
      cases h0'

theorem Like.float {T : Prop} {d : Nat} {b b' : ImageBuffer} (h : Like T d b b') (hb : b.bufferType = 1) : b' = b := by
  rcases h with h | ⟨_, h0, _⟩
  · exact h
  · rw [hb] at h0; cases h0

theorem Like.int {T : Prop} {d : Nat} {b b' : ImageBuffer} (h : Like T d b b') (hb : b'.bufferType = 0) : b' = b := by
  rcases h with h | ⟨_, _, hc⟩
  · exact h
  · rw [castToFloat_type hc] at hb; cases hb

theorem Like.not {T : Prop} {d : Nat} {b b' : ImageBuffer} (h : Like T d b b') (hT : ¬ T) : b' = b := by
  rcases h with h | ⟨ht, _⟩
  · exact h
  · exact absurd ht hT

/-- Conversion does not change the values. -/
theorem Like.value {T : Prop} {h w d : Nat} {b b' : ImageBuffer} (hl : Like T d b b') (hb : Holds h w d b) :
    Holds h w d b' ∧ (∀ y x, value d b' y x = value d b y x) ∧ ∀ h' w', b.Picture h' w' → b'.Picture h' w' := by
  rcases hl with rfl | ⟨_, h0, hc⟩
  · exact ⟨hb, fun _ _ => rfl, fun _ _ hp => hp⟩
  · obtain ⟨h', w', hp, hd, h1, h2, h3, h4⟩ := hb.picture
    obtain ⟨b1, e1, p1, _, s1⟩ := cast_channel hp hd
    rw [e1] at hc
    cases hc
    have hip : b.IntPicture h' w' := by
      rcases hp with hp | hp
      · exact hp
      · rw [hp.1] at h0; cases h0
    refine ⟨⟨h', w', Or.inl p1, h1, h2, h3, h4⟩, ?_, ?_⟩
    · intro y x
      unfold Spec.value
      rw [if_neg (by rw [p1.1]; decide), if_pos h0]
      by_cases hyx : y < h' ∧ x < w'
      · exact s1 h0 y x hyx.1 hyx.2
      · rw [p1.2.2.2.sample_none (by omega), hip.2.2.2.sample_none (by omega)]
        rfl
    · intro h'' w'' hp''
      have hip'' : b.IntPicture h'' w'' := by
        rcases hp'' with hp | hp
        · exact hp
        · rw [hp.1] at h0; cases h0
      obtain ⟨b2, e2, p2, _⟩ := cast_channel (d := d) (Or.inl hip'') hd
      rw [e1] at e2
      cases e2
      exact Or.inr p2

/-- Casting a buffer. -/
theorem cast_like {T : Prop} {h w d : Nat} {b : ImageBuffer} (hb : Holds h w d b) (hT : b.bufferType = 0 → T) :
    ∃ b', castToFloatIfMax b (mask32 d) = .ok b' ∧ Like T d b b' ∧ b'.bufferType = 1 := by
  obtain ⟨h', w', hp, hd, _⟩ := hb.picture
  obtain ⟨b1, e1, p1, i1, _⟩ := cast_channel hp hd
  refine ⟨b1, e1, ?_, p1.1⟩
  rcases hb.types with h0 | h0
  · exact Or.inr ⟨hT h0, h0, e1⟩
  · exact Or.inl (i1 h0)

/-! ## The memory -/

theorem Store.get_some {s : Store} {a i : Nat} {b : ImageBuffer} (h : buffer s a i = some b) : s.get a (i : Int) = .ok b := by
  unfold buffer at h
  cases hl : s.slices[a]? with
  | none => rw [hl] at h; cases h
  | some l =>
    rw [hl, Option.bind_some] at h
    rw [Store.get, idx_some hl, Res.bind_ok, idx_some h]

theorem Store.set_some {s : Store} {a i : Nat} {b b' : ImageBuffer} (h : buffer s a i = some b) :
    ∃ s', s.set a (i : Int) b' = .ok s' ∧ s'.canvas = s.canvas ∧ s'.frame = s.frame ∧ s'.refs = s.refs ∧
      ∀ a1 i1, buffer s' a1 i1 = if a1 = a ∧ i1 = i then some b' else buffer s a1 i1 := by
  unfold buffer at h
  cases hl : s.slices[a]? with
  | none => rw [hl] at h; cases h
  | some l =>
    rw [hl, Option.bind_some] at h
    have ha := getElem?_lt hl
    have hi := getElem?_lt h
    refine ⟨{ s with slices := s.slices.set a (l.set i b') }, ?_, rfl, rfl, rfl, ?_⟩
    · rw [Store.set, idx_some hl, Res.bind_ok]
      have e1 : setAt l (i : Int) b' = .ok (l.set i b') := by
        unfold setAt
        rw [if_neg (by omega), Int.toNat_natCast, if_pos hi]
      have e2 : setAt s.slices (a : Int) (l.set i b') = .ok (s.slices.set a (l.set i b')) := by
        unfold setAt
        rw [if_neg (by omega), Int.toNat_natCast, if_pos ha]
      rw [e1, Res.bind_ok, e2]
      rfl
    · intro a1 i1
      unfold buffer
      dsimp only
      by_cases h1 : a1 = a
      · subst h1
        rw [List.getElem?_set_self ha, hl, Option.bind_some, Option.bind_some]
        by_cases h2 : i1 = i
        · subst h2
          rw [List.getElem?_set_self hi, if_pos ⟨rfl, rfl⟩]
        · rw [List.getElem?_set_ne (by omega), if_neg (by omega)]
      · rw [List.getElem?_set_ne (by omega), if_neg (by omega)]

/-- Buffers are only converted: `t` becomes `t'`, `dep` gives the depth for each index, `T` the buffers that may be converted. -/
structure Evolves (T : Nat → Nat → Prop) (dep : Nat → Nat) (t t' : Store) : Prop where
  canvas : t'.canvas = t.canvas
  frame : t'.frame = t.frame
  refs : t'.refs = t.refs
  bufs : ∀ a i b, buffer t a i = some b → ∃ b', buffer t' a i = some b' ∧ Like (T a i) (dep i) b b'
  none : ∀ a i, buffer t a i = Option.none → buffer t' a i = Option.none

theorem Evolves.refl (T : Nat → Nat → Prop) (dep : Nat → Nat) (t : Store) : Evolves T dep t t :=
  ⟨rfl, rfl, rfl, fun _ _ b h => ⟨b, h, Like.refl _ _ _⟩, fun _ _ h => h⟩

theorem Evolves.trans {T : Nat → Nat → Prop} {dep : Nat → Nat} {t t' t'' : Store} (h1 : Evolves T dep t t') (h2 : Evolves T dep t' t'') : Evolves T dep t t'' := by
  refine ⟨h2.canvas.trans h1.canvas, h2.frame.trans h1.frame, h2.refs.trans h1.refs, ?_, fun a i h => h2.none a i (h1.none a i h)⟩
  intro a i b h
  obtain ⟨b1, e1, l1⟩ := h1.bufs a i b h
  obtain ⟨b2, e2, l2⟩ := h2.bufs a i b1 e1
  exact ⟨b2, e2, l1.trans l2⟩

/-- Replacing a buffer by its conversion. -/
theorem Evolves.of_set {T : Nat → Nat → Prop} {dep : Nat → Nat} {t : Store} {a i : Nat} {b b' : ImageBuffer} (h : buffer t a i = some b) (hl : Like (T a i) (dep i) b b') :
    ∃ t', t.set a (i : Int) b' = .ok t' ∧ Evolves T dep t t' ∧ buffer t' a i = some b' ∧ ∀ a1 i1, ¬ (a1 = a ∧ i1 = i) → buffer t' a1 i1 = buffer t a1 i1 := by
  obtain ⟨t', e, hc, hf, hr, hb⟩ := Store.set_some (b' := b') h
  refine ⟨t', e, ⟨hc, hf, hr, ?_, ?_⟩, by rw [hb, if_pos ⟨rfl, rfl⟩], fun a1 i1 hn => by rw [hb, if_neg hn]⟩
  · intro a1 i1 b1 h1
    by_cases hn : a1 = a ∧ i1 = i
    · obtain ⟨rfl, rfl⟩ := hn
      rw [h] at h1
      cases h1
      exact ⟨b', by rw [hb, if_pos ⟨rfl, rfl⟩], hl⟩
    · exact ⟨b1, by rw [hb, if_neg hn, h1], Like.refl _ _ _⟩
  · intro a1 i1 h1
    rw [hb, if_neg]
    · exact h1
    · rintro ⟨rfl, rfl⟩
      rw [h] at h1
      cases h1

theorem castInPlace_ok {T : Nat → Nat → Prop} {dep : Nat → Nat} {t : Store} {a i h w : Nat} {b : ImageBuffer} (hb : buffer t a i = some b) (hh : Holds h w (dep i) b)
    (hT : b.bufferType = 0 → T a i) :
    ∃ t' b', castInPlace t a i (mask32 (dep i)) = .ok t' ∧ Evolves T dep t t' ∧ buffer t' a i = some b' ∧ b'.bufferType = 1 := by
  obtain ⟨b', e, l, ht⟩ := cast_like hh hT
  obtain ⟨t', et, ev, hb', _⟩ := Evolves.of_set (dep := dep) hb l
  refine ⟨t', b', ?_, ev, hb', ht⟩
  rw [castInPlace, Store.get_some hb, Res.bind_ok, e, Res.bind_ok, et]

/-- A float buffer in memory stays as it is. -/
theorem castInPlace_float {T : Nat → Nat → Prop} {dep : Nat → Nat} {t : Store} {a i : Nat} {b : ImageBuffer} (m : Int) (hb : buffer t a i = some b) (ht : b.bufferType = 1) :
    ∃ t', castInPlace t a i m = .ok t' ∧ Evolves T dep t t' ∧ buffer t' a i = some b := by
  obtain ⟨t', et, ev, hb', _⟩ := Evolves.of_set (T := T) (dep := dep) hb (Like.refl _ _ _)
  refine ⟨t', ?_, ev, hb'⟩
  rw [castInPlace, Store.get_some hb, Res.bind_ok, castToFloat_float ht, Res.bind_ok, et]

end Jxl
