import Verif.Proofs.BitReader
/-! Compositional lemmas for `Reads` and `Implements`. -/
namespace Jxl
open Spec

theorem Rd.bind_eq {α β : Type} (m : Rd α) (f : α → Rd β) (s : BR) :
    (m >>= f) s = match m s with
      | (.ok a, s') => f a s'
      | (.err, s') => (.err, s')
      | (.panic, s') => (.panic, s') := rfl

theorem Rd.bind_ok {α β : Type} {m : Rd α} {f : α → Rd β} {s s' : BR} {a : α} (h : m s = (.ok a, s')) :
    (m >>= f) s = f a s' := by rw [Rd.bind_eq, h]

theorem Rd.pure_eq {α : Type} (a : α) (s : BR) : (Pure.pure a : Rd α) s = (.ok a, s) := rfl

theorem bitsFrom_drop (data : List UInt8) (p n : Nat) : (bitsFrom data p).drop n = bitsFrom data (p + n) := by
  simp [bitsFrom, List.drop_drop]

theorem prefix_append_split {α : Type} {a b l : List α} (h : a ++ b <+: l) : a <+: l ∧ b <+: l.drop a.length := by
  obtain ⟨t, rfl⟩ := h
  refine ⟨⟨b ++ t, by simp⟩, ⟨t, by simp⟩⟩

theorem Reads.pure {α : Type} (a : α) : Reads (Pure.pure a : Rd α) [] a := by
  intro s p h _
  exact ⟨s, rfl, by simpa using h, rfl⟩

theorem Reads.bind {α β : Type} {m : Rd α} {f : α → Rd β} {e1 e2 : List Bool} {a : α} {b : β}
    (h1 : Reads m e1 a) (h2 : Reads (f a) e2 b) : Reads (m >>= f) (e1 ++ e2) b := by
  intro s p h hp
  obtain ⟨hp1, hp2⟩ := prefix_append_split hp
  obtain ⟨s1, hm, ha1, hd1⟩ := h1 s p h hp1
  rw [bitsFrom_drop] at hp2
  obtain ⟨s2, hf, ha2, hd2⟩ := h2 s1 _ ha1 (by rw [hd1]; exact hp2)
  refine ⟨s2, ?_, ?_, by rw [hd2, hd1]⟩
  · rw [Rd.bind_ok hm]; exact hf
  · simpa [Nat.add_assoc] using ha2

theorem Reads.congr {α : Type} {m : Rd α} {e e' : List Bool} {a a' : α} (h : Reads m e a) (he : e = e') (ha : a = a') :
    Reads m e' a' := by subst he; subst ha; exact h

theorem reads_bits (n : Nat) (e : List Bool) (hn : n ≤ 64) (he : e.length = n) :
    Reads (readBits n) e (leVal e) := by
  intro s p h hp
  obtain ⟨t, ht⟩ := hp
  have hlen := congrArg List.length ht
  simp at hlen
  have hle := h.le
  obtain ⟨s', h1, h2, h3, _⟩ := (readBits_spec n s p h).2.1 hn (by omega)
  refine ⟨s', ?_, by rw [he]; exact h2, h3⟩
  rw [h1, ← ht, List.take_append_of_le_length (by omega), List.take_of_length_le (by omega)]

theorem reads_bitsOf (n v : Nat) (hn : n ≤ 64) (hv : v < 2 ^ n) : Reads (readBits n) (bitsOf n v) v :=
  (reads_bits n (bitsOf n v) hn (by simp)).congr rfl (leVal_bitsOf_of_lt hv)

theorem reads_bool (b : Bool) : Reads readBool [b] b := by
  intro s p h hp
  obtain ⟨t, ht⟩ := hp
  obtain ⟨s', h1, h2, h3, _⟩ := (readBit_spec s p h).1 b (by rw [← ht]; rfl)
  refine ⟨s', ?_, h2, h3⟩
  simp only [readBool]
  rw [Rd.bind_ok h1, Rd.pure_eq]
  cases b <;> rfl

/-! ### Implements -/

theorem Implements.bind {α β : Type} {m : Rd α} {f : α → Rd β} {d : Dec α} {e : α → Dec β}
    (h1 : Implements m d) (h2 : ∀ a, Implements (f a) (e a)) : Implements (m >>= f) (d >>= e) := by
  intro s p h
  have a1 := h1 s p h
  show match (match d (bitsFrom s.data p) with | some (a, r) => e a r | none => none) with
    | some (a, r) => _ | none => _
  cases hd : d (bitsFrom s.data p) with
  | none =>
    rw [hd] at a1
    simp only at a1 ⊢
    rw [Rd.bind_eq]
    split <;> rename_i heq <;> simp_all
  | some x =>
    obtain ⟨a, r⟩ := x
    rw [hd] at a1
    simp only at a1 ⊢
    obtain ⟨s', p', e1, e2, e3, e4, e5⟩ := a1
    have a2 := h2 a s' p' e2
    rw [Rd.bind_ok e1]
    rw [e3, ← e4] at a2
    cases he : e a r with
    | none => rw [he] at a2; exact a2
    | some y =>
      obtain ⟨b, r2⟩ := y
      rw [he] at a2
      simp only at a2 ⊢
      obtain ⟨s2, p2, f1, f2, f3, f4, f5⟩ := a2
      exact ⟨s2, p2, f1, f2, by rw [f3], f4, by omega⟩

theorem Implements.pure {α : Type} (a : α) : Implements (Pure.pure a : Rd α) (Pure.pure a : Dec α) := by
  intro s p h
  exact ⟨s, p, rfl, h, rfl, rfl, Nat.le_refl _⟩

theorem Implements.fail {α : Type} : Implements (Rd.fail : Rd α) (Dec.fail : Dec α) := by
  intro s p h
  rfl

theorem Implements.ite {α : Type} {c : Prop} [Decidable c] {m1 m2 : Rd α} {d1 d2 : Dec α}
    (h1 : c → Implements m1 d1) (h2 : ¬c → Implements m2 d2) :
    Implements (if c then m1 else m2) (if c then d1 else d2) := by
  by_cases hc : c
  · simp only [hc, if_true]; exact h1 hc
  · simp only [hc, if_false]; exact h2 hc

theorem implements_bits (n : Nat) (hn : n ≤ 64) : Implements (readBits n) (decBits n) := by
  intro s p h
  have hs := readBits_spec n s p h
  have hle := h.le
  unfold decBits
  by_cases hc : n ≤ (bitsFrom s.data p).length
  · simp only [hc, if_true]
    simp at hc
    obtain ⟨s', h1, h2, h3, _⟩ := hs.2.1 hn (by omega)
    exact ⟨s', p + n, h1, h2, h3, by rw [bitsFrom_drop], by omega⟩
  · simp only [hc, if_false]
    simp at hc
    exact hs.2.2 hn (by omega)

theorem implements_bool : Implements readBool decBool := by
  intro s p h
  have hs := readBit_spec s p h
  unfold decBool
  cases hb : bitsFrom s.data p with
  | nil =>
    simp only
    simp only [readBool, Rd.bind_eq, hs.2 hb]
  | cons b r =>
    simp only
    obtain ⟨s', h1, h2, h3, _⟩ := hs.1 b (by rw [hb]; rfl)
    refine ⟨s', p + 1, ?_, h2, h3, ?_, by omega⟩
    · simp only [readBool, Rd.bind_ok h1, Rd.pure_eq]
      cases b <;> rfl
    · rw [← bitsFrom_drop, hb]; rfl

/-- From a decoder equation to `Reads`. -/
theorem Implements.reads {α : Type} {m : Rd α} {d : Dec α} (h : Implements m d) {e : List Bool} {a : α}
    (he : ∀ r, d (e ++ r) = some (a, r)) : Reads m e a := by
  intro s p hs hp
  obtain ⟨t, ht⟩ := hp
  have h1 := h s p hs
  rw [← ht, he t] at h1
  simp only at h1
  obtain ⟨s', p', e1, e2, e3, e4, e5⟩ := h1
  refine ⟨s', e1, ?_, e3⟩
  have l1 := congrArg List.length ht
  have l2 := congrArg List.length e4
  have l3 := e2.le
  have l4 := hs.le
  simp at l1 l2
  rw [e3] at l3
  have : p' = p + e.length := by omega
  rw [← this]; exact e2

theorem Dec.bind_eq {α β : Type} (m : Dec α) (f : α → Dec β) (l : List Bool) :
    (m >>= f) l = match m l with | some (a, r) => f a r | none => none := rfl

theorem Dec.pure_eq {α : Type} (a : α) (l : List Bool) : (Pure.pure a : Dec α) l = some (a, l) := rfl

theorem decBits_append (n v : Nat) (hv : v < 2 ^ n) (r : List Bool) :
    decBits n (bitsOf n v ++ r) = some (v, r) := by
  simp [decBits, leVal_bitsOf_of_lt hv]

end Jxl
