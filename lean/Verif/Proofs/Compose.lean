import Verif.Model.Compose
import Verif.Proofs.BlendFrame

/-! # Buffers outside the canvas are at most converted -/
namespace Jxl
open Spec

/-- What can happen to a buffer that is not painted. -/
def Keep (b b' : ImageBuffer) : Prop := (b.width = 0 ∧ b.height = 0) ∨ b' = b ∨ ∃ m, castToFloatIfMax b m = .ok b'

theorem castToFloat_size {b b' : ImageBuffer} {m : Int} (h : castToFloatIfMax b m = .ok b') : b'.width = b.width ∧ b'.height = b.height := by
  unfold castToFloatIfMax at h
  split at h
  · cases h; exact ⟨rfl, rfl⟩
  · unfold castToFloatBuffer at h
    rw [if_neg (by assumption)] at h
    split at h
    · cases h
    · obtain ⟨m1, _, h⟩ := Res.of_bind h
      obtain ⟨m2, _, h⟩ := Res.of_bind h
      cases h
      exact ⟨rfl, rfl⟩

theorem Keep.refl (b : ImageBuffer) : Keep b b := Or.inr (Or.inl rfl)

theorem Keep.trans {a b c : ImageBuffer} (h1 : Keep a b) (h2 : Keep b c) : Keep a c := by
  rcases h1 with h1 | rfl | ⟨m, h1⟩
  · exact Or.inl h1
  · exact h2
  · rcases h2 with h2 | rfl | ⟨m2, h2⟩
    · rw [(castToFloat_size h1).1, (castToFloat_size h1).2] at h2
      exact Or.inl h2
    · exact Or.inr (Or.inr ⟨m, h1⟩)
    · rw [castToFloat_float (castToFloat_type h1)] at h2
      cases h2
      exact Or.inr (Or.inr ⟨m, h1⟩)

/-- The memory changes only at the canvas, apart from conversions. -/
structure Spares (t t' : Store) : Prop where
  canvas : t'.canvas = t.canvas
  frame : t'.frame = t.frame
  refs : t'.refs = t.refs
  bufs : ∀ a i b, a ≠ t.canvas → buffer t a i = some b → ∃ b', buffer t' a i = some b' ∧ Keep b b'

theorem Spares.refl (t : Store) : Spares t t := ⟨rfl, rfl, rfl, fun _ _ b _ h => ⟨b, h, Keep.refl b⟩⟩

theorem Spares.trans {t t' t'' : Store} (h1 : Spares t t') (h2 : Spares t' t'') : Spares t t'' := by
  refine ⟨h2.canvas.trans h1.canvas, h2.frame.trans h1.frame, h2.refs.trans h1.refs, ?_⟩
  intro a i b ha hb
  obtain ⟨b1, e1, k1⟩ := h1.bufs a i b ha hb
  obtain ⟨b2, e2, k2⟩ := h2.bufs a i b1 (by rw [h1.canvas]; exact ha) e1
  exact ⟨b2, e2, k1.trans k2⟩

theorem Store.get_inv {s : Store} {a i : Nat} {b : ImageBuffer} (h : s.get a (i : Int) = .ok b) : buffer s a i = some b := by
  unfold Store.get at h
  obtain ⟨l, h1, h2⟩ := Res.of_bind h
  unfold buffer
  rw [idx_ok_some h1, Option.bind_some, idx_ok_some h2]

/-- An assignment that succeeds. -/
theorem Store.set_inv {s s' : Store} {a i : Nat} {b' : ImageBuffer} (h : s.set a (i : Int) b' = .ok s') :
    (∃ b, buffer s a i = some b) ∧ s'.canvas = s.canvas ∧ s'.frame = s.frame ∧ s'.refs = s.refs ∧
      ∀ a1 i1, buffer s' a1 i1 = if a1 = a ∧ i1 = i then some b' else buffer s a1 i1 := by
  have hx : ∃ b, buffer s a i = some b := by
    unfold Store.set at h
    obtain ⟨l, h1, h⟩ := Res.of_bind h
    obtain ⟨l', h2, h⟩ := Res.of_bind h
    unfold setAt at h2
    rw [if_neg (by omega), Int.toNat_natCast] at h2
    split at h2
    · rename_i hlt
      exact ⟨l[i], by unfold buffer; rw [idx_ok_some h1, Option.bind_some, List.getElem?_eq_getElem hlt]⟩
    · cases h2
  obtain ⟨b, hb⟩ := hx
  obtain ⟨s1, e, r⟩ := Store.set_some (b' := b') hb
  rw [h] at e
  cases e
  exact ⟨⟨b, hb⟩, r⟩

theorem Spares.of_canvas {s s' : Store} {i : Nat} {b' : ImageBuffer} (h : s.set s.canvas (i : Int) b' = .ok s') : Spares s s' := by
  obtain ⟨_, h1, h2, h3, h4⟩ := Store.set_inv h
  refine ⟨h1, h2, h3, ?_⟩
  intro a j b ha hb
  exact ⟨b, by rw [h4, if_neg (fun hx => ha hx.1), hb], Keep.refl b⟩

theorem Spares.of_keep {s s' : Store} {a i : Nat} {b b' : ImageBuffer} (hb : buffer s a i = some b) (hk : Keep b b') (h : s.set a (i : Int) b' = .ok s') : Spares s s' := by
  obtain ⟨_, h1, h2, h3, h4⟩ := Store.set_inv h
  refine ⟨h1, h2, h3, ?_⟩
  intro a1 j b1 _ hb1
  by_cases hx : a1 = a ∧ j = i
  · obtain ⟨rfl, rfl⟩ := hx
    rw [hb] at hb1
    cases hb1
    exact ⟨b', by rw [h4, if_pos ⟨rfl, rfl⟩], hk⟩
  · exact ⟨b1, by rw [h4, if_neg hx, hb1], Keep.refl b1⟩

theorem castInPlace_spares {s s' : Store} {a i : Nat} {m : Int} (h : castInPlace s a i m = .ok s') : Spares s s' := by
  unfold castInPlace at h
  obtain ⟨b, h1, h⟩ := Res.of_bind h
  obtain ⟨b', h2, h⟩ := Res.of_bind h
  exact Spares.of_keep (Store.get_inv h1) (Or.inr (Or.inr ⟨m, h2⟩)) h

theorem freshAlpha_spares {s s' : Store} {a i : Nat} {cb : ImageBuffer} (h : freshAlpha s a i cb = .ok s') : Spares s s' := by
  unfold freshAlpha at h
  obtain ⟨b, h1, h⟩ := Res.of_bind h
  split at h
  · rename_i hz
    obtain ⟨n, _, h⟩ := Res.of_bind h
    exact Spares.of_keep (Store.get_inv h1) (Or.inl hz) h
  · cases h; exact Spares.refl _

theorem freshReference_spares {s s' : Store} {a c : Nat} {ty : Int} (h : freshReference s a c ty = .ok s') : Spares s s' := by
  unfold freshReference at h
  obtain ⟨b, h1, h⟩ := Res.of_bind h
  split at h
  · rename_i hz
    obtain ⟨cb, _, h⟩ := Res.of_bind h
    obtain ⟨n, _, h⟩ := Res.of_bind h
    exact Spares.of_keep (Store.get_inv h1) (Or.inl hz) h
  · cases h; exact Spares.refl _

theorem blendAlpha_spares {h : ImageHeader} {s s' : Store} {a : Nat} {info : Blending} {cb : ImageBuffer} (e : blendAlpha h s a info cb = .ok s') : Spares s s' := by
  unfold blendAlpha at e
  split at e
  · obtain ⟨x, _, e⟩ := Res.of_bind e
    obtain ⟨s1, e1, e⟩ := Res.of_bind e
    obtain ⟨s2, e2, e⟩ := Res.of_bind e
    exact ((freshAlpha_spares e1).trans (castInPlace_spares e2)).trans (castInPlace_spares e)
  · cases e; exact Spares.refl _

theorem convertCanvas_spares {h : ImageHeader} {s : Store} {c fc fcol : Nat} {fb : ImageBuffer} {r : ImageBuffer × Store}
    (e : convertCanvas h s c fc fcol fb = .ok r) : Spares s r.2 := by
  unfold convertCanvas at e
  obtain ⟨cb, _, e⟩ := Res.of_bind e
  split at e
  · cases e; exact Spares.refl _
  · obtain ⟨_, _, e⟩ := Res.of_bind e
    obtain ⟨_, _, e⟩ := Res.of_bind e
    obtain ⟨_, _, e⟩ := Res.of_bind e
    obtain ⟨_, _, e⟩ := Res.of_bind e
    obtain ⟨s1, e1, e⟩ := Res.of_bind e
    cases e
    exact Spares.of_canvas e1

theorem convertReference_spares {h : ImageHeader} {s : Store} {c fc fcol : Nat} {info : Blending} {ref fb : ImageBuffer} {r : ImageBuffer × ImageBuffer × Store}
    (e : convertReference h s c fc fcol info ref fb = .ok r) : Spares s r.2.2 := by
  unfold convertReference at e
  split at e
  · obtain ⟨_, _, e⟩ := Res.of_bind e
    obtain ⟨_, _, e⟩ := Res.of_bind e
    obtain ⟨_, _, e⟩ := Res.of_bind e
    obtain ⟨_, _, e⟩ := Res.of_bind e
    obtain ⟨_, _, e⟩ := Res.of_bind e
    obtain ⟨s1, e1, e⟩ := Res.of_bind e
    obtain ⟨_, _, e⟩ := Res.of_bind e
    cases e
    exact Spares.of_canvas e1
  · cases e; exact Spares.refl _

theorem replaceChannel_spares {s s' : Store} {p : Place} {c : Nat} {fb : ImageBuffer} (e : replaceChannel s p c fb = .ok s') : Spares s s' := by
  unfold replaceChannel at e
  obtain ⟨_, _, e⟩ := Res.of_bind e
  obtain ⟨_, _, e⟩ := Res.of_bind e
  exact Spares.of_canvas e

theorem combineChannel_spares {I : BlendImpl} {h : ImageHeader} {s s' : Store} {p : Place} {a c fc fcol : Nat} {info : Blending} {ia pm : Bool} {fb : ImageBuffer}
    (e : combineChannel I h s p a c fc fcol info ia pm fb = .ok s') : Spares s s' := by
  unfold combineChannel at e
  obtain ⟨s1, e1, e⟩ := Res.of_bind e
  obtain ⟨_, _, e⟩ := Res.of_bind e
  obtain ⟨_, _, e⟩ := Res.of_bind e
  obtain ⟨s2, e2, e⟩ := Res.of_bind e
  obtain ⟨r, e3, e⟩ := Res.of_bind e
  obtain ⟨_, _, e⟩ := Res.of_bind e
  obtain ⟨_, _, e⟩ := Res.of_bind e
  exact (((freshReference_spares e1).trans (blendAlpha_spares e2)).trans (convertReference_spares e3)).trans (Spares.of_canvas e)

theorem blendChannel_spares {I : BlendImpl} {h : ImageHeader} {f : FrameHeader} {p : Place} {c : Nat} {s s' : Store}
    (e : blendChannel I h f p c s = .ok s') : Spares s s' := by
  unfold blendChannel at e
  dsimp only at e
  obtain ⟨_, _, e⟩ := Res.of_bind e
  obtain ⟨_, _, e⟩ := Res.of_bind e
  obtain ⟨_, _, e⟩ := Res.of_bind e
  obtain ⟨_, _, e⟩ := Res.of_bind e
  obtain ⟨ref, _, e⟩ := Res.of_bind e
  obtain ⟨r, e1, e⟩ := Res.of_bind e
  have h1 := convertCanvas_spares e1
  split at e
  · exact h1.trans (replaceChannel_spares e)
  · cases ref with
    | none => cases e
    | some a => exact h1.trans (combineChannel_spares e)

theorem forFrom_spares {f : Nat → Store → Res Store} (hf : ∀ c s s', f c s = .ok s' → Spares s s') : ∀ n i s s', forFrom f n i s = .ok s' → Spares s s'
  | 0, _, s, s', h => by cases h; exact Spares.refl _
  | n + 1, i, s, s', h => by
    unfold forFrom at h
    obtain ⟨s1, h1, h⟩ := Res.of_bind h
    exact (hf _ _ _ h1).trans (forFrom_spares hf n (i + 1) s1 s' h)

theorem blendFrame_spares {I : BlendImpl} {h : ImageHeader} {f : FrameHeader} {s s' : Store} (e : blendFrame I h f s = .ok s') : Spares s s' := by
  unfold blendFrame at e
  obtain ⟨l, _, e⟩ := Res.of_bind e
  exact forFrom_spares (fun c s s' he => blendChannel_spares he) _ _ _ _ e

end Jxl
