import Verif.Proofs.Reads
/-! Lemmas on peeking, skipping and aligning. -/
namespace Jxl
open Spec

theorem BR.ext' {a b : BR} (h1 : a.data = b.data) (h2 : a.pos = b.pos) (h3 : a.bitsRead = b.bitsRead)
    (h4 : a.index = b.index) (h5 : a.cur = b.cur) : a = b := by
  cases a; cases b; simp_all

/-- Two states at the same position of the same data differ at most in the bit counter and in a stale cached byte. -/
theorem AtBit.same {a b : BR} {p : Nat} (ha : AtBit a p) (hb : AtBit b p) (hd : a.data = b.data) :
    a.index = b.index ∧ a.pos = b.pos ∧ (a.index ≠ 0 → a.cur = b.cur) := by
  have h1 := ha.mod
  have h2 := hb.mod
  have hi : a.index = b.index := by omega
  rcases ha with ⟨_, _, ha⟩ | ⟨a1, a2, a3, a4, a5⟩ <;> rcases hb with ⟨_, _, hb⟩ | ⟨b1, b2, b3, b4, b5⟩
  · exact ⟨hi, by omega, by omega⟩
  · omega
  · omega
  · have hp : a.pos = b.pos := by omega
    refine ⟨hi, hp, fun _ => ?_⟩
    rw [hd, hp] at a4
    rw [a4] at b4
    exact Option.some.inj b4

theorem skipLoop_spec (k : Nat) : ∀ (s : BR) (p : Nat), AtBit s p →
    (p + k ≤ 8 * s.data.length →
      ∃ s', skipLoop k s = (.ok (), s') ∧ AtBit s' (p + k) ∧ s'.data = s.data ∧ s'.bitsRead = s.bitsRead + k) ∧
    (8 * s.data.length < p + k → (skipLoop k s).1 = .err) := by
  induction k with
  | zero =>
    intro s p h
    have := h.le
    exact ⟨fun _ => ⟨s, rfl, h, rfl, rfl⟩, fun h => by omega⟩
  | succ k ih =>
    intro s p h
    have hs := readBit_spec s p h
    cases hb : bitsFrom s.data p with
    | nil =>
      have hl := congrArg List.length hb
      simp at hl
      have := h.le
      refine ⟨fun _ => by omega, fun _ => ?_⟩
      simp [skipLoop, hs.2 hb]
    | cons b r =>
      obtain ⟨s1, e1, e2, e3, e4⟩ := hs.1 b (by rw [hb]; rfl)
      have hi := ih s1 (p + 1) e2
      rw [e3] at hi
      constructor
      · intro hle
        obtain ⟨s2, f1, f2, f3, f4⟩ := hi.1 (by omega)
        refine ⟨s2, by simp [skipLoop, e1, f1], ?_, by rw [f3], by omega⟩
        have : p + (k + 1) = p + 1 + k := by omega
        rw [this]; exact f2
      · intro hlt
        have := hi.2 (by omega)
        simpa [skipLoop, e1] using this

theorem skipBits_spec (n : Nat) (s : BR) (p : Nat) (h : AtBit s p) (hle : p + n ≤ 8 * s.data.length) :
    ∃ s', skipBits n s = (.ok (), s') ∧ AtBit s' (p + n) ∧ s'.data = s.data ∧
      s'.bitsRead = s.bitsRead + n % 8 := by
  have hmod : n - n / 8 * 8 = n % 8 := by omega
  unfold skipBits
  simp only [hmod]
  by_cases h0 : 0 < n / 8
  · have hpl : s.pos + n / 8 ≤ s.data.length := by
      rcases h with ⟨_, _, h⟩ | ⟨a1, a2, a3, a4, a5⟩ <;> omega
    have hlen : ((s.data.drop s.pos).take (n / 8)).length = n / 8 := by simp; omega
    have hlast : ((s.data.drop s.pos).take (n / 8))[n / 8 - 1]? = s.data[s.pos + n / 8 - 1]? := by
      rw [List.getElem?_take, if_pos (by omega), List.getElem?_drop]
      congr 1; omega
    have hg : s.data[s.pos + n / 8 - 1]? = some s.data[s.pos + n / 8 - 1] := List.getElem?_eq_getElem (by omega)
    simp only [h0, if_true, show ¬ s.data.length ≤ s.pos by omega, if_false, hlen, hlast, hg]
    have hA : AtBit { s with pos := s.pos + n / 8, cur := s.data[s.pos + n / 8 - 1] } (p + 8 * (n / 8)) := by
      rcases h with ⟨a1, a2, a3⟩ | ⟨a1, a2, a3, a4, a5⟩
      · left; exact ⟨a1, by simp only; omega, by simp only; omega⟩
      · right; exact ⟨a1, a2, by simp only; omega, hg, by simp only; omega⟩
    obtain ⟨s', e1, e2, e3, e4⟩ := (skipLoop_spec (n % 8) _ _ hA).1 (by simp only; omega)
    refine ⟨s', e1, ?_, e3, e4⟩
    have : p + n = p + 8 * (n / 8) + n % 8 := by omega
    rw [this]; exact e2
  · have hn : n % 8 = n := by omega
    simp only [h0, if_false]
    obtain ⟨s', e1, e2, e3, e4⟩ := (skipLoop_spec (n % 8) s p h).1 (by omega)
    refine ⟨s', e1, by rw [hn] at e2; exact e2, e3, e4⟩

theorem showBits_spec (n : Nat) (s : BR) (p : Nat) (h : AtBit s p) (hn : n ≤ 64) :
    (p + n ≤ 8 * s.data.length → showBits n s = (.ok (leVal ((bitsFrom s.data p).take n)), s)) ∧
    (8 * s.data.length < p + n → (showBits n s).1 = .err) := by
  have hs := readBits_spec n s p h
  have hu : u32 n = n := by simp only [u32]; omega
  constructor
  · intro hle
    obtain ⟨s', e1, e2, e3, e4⟩ := hs.2.1 hn hle
    unfold showBits
    rw [hu, e1]
    simp only [Prod.mk.injEq, true_and]
    exact BR.ext' e3 rfl rfl rfl rfl
  · intro hlt
    have := hs.2.2 hn hlt
    unfold showBits
    rw [hu]
    split <;> rename_i heq <;> simp_all

theorem zeroPad_spec (s : BR) (p : Nat) (h : AtBit s p) :
    ∃ s', zeroPadToByte s = (.ok (), s') ∧ AtBit s' (8 * ((p + 7) / 8)) ∧ s'.data = s.data := by
  have hm := h.mod
  unfold zeroPadToByte
  by_cases hi : s.index = 0
  · simp only [hi, if_true]
    refine ⟨s, rfl, ?_, rfl⟩
    have : 8 * ((p + 7) / 8) = p := by omega
    rw [this]; exact h
  · simp only [hi, if_false]
    have hp := h.pos_le
    have hlt := h.index_lt
    have hle : p + (8 - s.index) ≤ 8 * s.data.length := by
      rcases h with ⟨a, _⟩ | ⟨a1, a2, a3, a4, a5⟩
      · exact absurd a hi
      · omega
    obtain ⟨s', e1, e2, e3, _⟩ := (readBits_spec (8 - s.index) s p h).2.1 (by omega) hle
    refine ⟨s', by rw [e1], ?_, e3⟩
    have : 8 * ((p + 7) / 8) = p + (8 - s.index) := by omega
    rw [this]; exact e2

end Jxl
