import Verif.Proofs.ReaderStream
/-!
# Lemmas about `jxlio/IOHelper.go`
-/
namespace Jxl

theorem read_moving {P : Policy} (h : P.Moving) {n : Nat} (hn : 0 < n) (s : ByteSource) (hl : s.pos < s.data.length) :
    ∃ g, 0 < g ∧ g ≤ n ∧ s.pos + g ≤ s.data.length ∧
      s.read P n = ((s.data.drop s.pos).take g, false, { s with pos := s.pos + g, calls := s.calls + 1 }) := by
  have h1 := h.moves s.calls n (s.data.length - s.pos) hn (by omega)
  have h2 := h.fits s.calls n (s.data.length - s.pos)
  have h3 := h.has s.calls n (s.data.length - s.pos)
  refine ⟨(P s.calls n (s.data.length - s.pos)).count, h1.1, h2, by omega, ?_⟩
  unfold ByteSource.read
  dsimp only
  rw [h1.2, List.length_take, List.length_drop, Nat.min_eq_left h3]

theorem read_moving_end {P : Policy} (h : P.Moving) {n : Nat} (hn : 0 < n) (s : ByteSource) (hl : s.data.length ≤ s.pos) :
    (s.read P n).2.1 = true := by
  unfold ByteSource.read
  dsimp only
  rw [show s.data.length - s.pos = 0 by omega]
  exact h.stops _ _ hn

/-- The loop of `ReadFullyWithOffset` collects consecutive bytes. -/
theorem fullyLoop_moving {P : Policy} (h : P.Moving) {want : Nat} (hw : 0 < want) :
    ∀ (fuel r : Nat) (acc : List UInt8) (s : ByteSource), r ≤ fuel → s.pos + r ≤ s.data.length →
      ∃ m s', r ≤ m ∧ s.pos + m ≤ s.data.length ∧ (m = 0 ∨ m < r + want) ∧
        fullyLoop P want fuel r acc s = (.ok ((r : Int) - m, acc ++ (s.data.drop s.pos).take m), s') ∧
        s'.data = s.data ∧ s'.pos = s.pos + m := by
  intro fuel
  induction fuel with
  | zero =>
    intro r acc s hr hd
    obtain rfl : r = 0 := by omega
    exact ⟨0, s, Nat.le_refl _, by omega, Or.inl rfl, by simp [fullyLoop], rfl, rfl⟩
  | succ fuel ih =>
    intro r acc s hr hd
    unfold fullyLoop
    by_cases h0 : r = 0
    · subst h0
      exact ⟨0, s, Nat.le_refl _, by omega, Or.inl rfl, by simp, rfl, rfl⟩
    · obtain ⟨g, hg0, hgn, hgl, hread⟩ := read_moving h hw s (by omega)
      rw [if_pos (by omega), hread]
      have hlen : (List.take g (List.drop s.pos s.data)).length = g := by
        rw [List.length_take, List.length_drop]; omega
      dsimp only
      rw [if_neg Bool.false_ne_true, hlen, if_neg (by omega)]
      by_cases hgr : g < r
      · obtain ⟨m, s', h1, h2, h3, h4, h5, h6⟩ := ih (r - g) (acc ++ List.take g (List.drop s.pos s.data))
          { s with pos := s.pos + g, calls := s.calls + 1 } (by omega) (by dsimp only; omega)
        dsimp only at h2 h4 h5 h6
        refine ⟨g + m, s', by omega, by omega, by omega, ?_, h5, by omega⟩
        rw [show (r : Int) - g = ((r - g : Nat) : Int) by omega, h4]
        refine congrArg (fun x => (Res.ok x, s')) (Prod.ext ?_ ?_)
        · push_cast; omega
        · dsimp only
          rw [List.append_assoc, List.take_add, List.drop_drop]
      · refine ⟨g, { s with pos := s.pos + g, calls := s.calls + 1 }, by omega, hgl, by omega, ?_, rfl, rfl⟩
        have : fullyLoop P want fuel ((r : Int) - g) (acc ++ List.take g (List.drop s.pos s.data))
            { s with pos := s.pos + g, calls := s.calls + 1 } =
            (.ok ((r : Int) - g, acc ++ List.take g (List.drop s.pos s.data)),
              { s with pos := s.pos + g, calls := s.calls + 1 }) := by
          cases fuel with
          | zero => rfl
          | succ f => unfold fullyLoop; rw [if_neg (by omega)]
        exact this

/-- The loop fails when the data ends before all is collected. -/
theorem fullyLoop_short {P : Policy} (h : P.Moving) {want : Nat} (hw : 0 < want) :
    ∀ (fuel r : Nat) (acc : List UInt8) (s : ByteSource), r ≤ fuel → 0 < r → s.data.length < s.pos + r →
      (fullyLoop P want fuel r acc s).1 = .err := by
  intro fuel
  induction fuel with
  | zero => intro r acc s hr hr0; omega
  | succ fuel ih =>
    intro r acc s hr hr0 hd
    unfold fullyLoop
    rw [if_pos (by omega)]
    by_cases hp : s.pos < s.data.length
    · obtain ⟨g, hg0, hgn, hgl, hread⟩ := read_moving h hw s hp
      rw [hread]
      have hlen : (List.take g (List.drop s.pos s.data)).length = g := by
        rw [List.length_take, List.length_drop]; omega
      dsimp only
      rw [if_neg Bool.false_ne_true, hlen, if_neg (by omega), show (r : Int) - g = ((r - g : Nat) : Int) by omega]
      exact ih _ _ _ (by omega) (by omega) (by dsimp only; omega)
    · have he := read_moving_end h hw s (by omega)
      revert he
      generalize s.read P want = x
      obtain ⟨a, b, c⟩ := x
      intro he
      dsimp only at he ⊢
      rw [if_pos he]

/-- A prompt reader hands over all that is wanted or left. -/
theorem read_prompt {P : Policy} (h : P.Prompt) {n : Nat} (hn : 0 < n) (s : ByteSource) (hl : s.pos < s.data.length) :
    s.read P n = ((s.data.drop s.pos).take (min n (s.data.length - s.pos)), false,
      { s with pos := s.pos + min n (s.data.length - s.pos), calls := s.calls + 1 }) := by
  unfold ByteSource.read
  rw [h _ _ _ hn]
  dsimp only [inMemory]
  rw [List.length_take, List.length_drop, decide_eq_false (by omega : ¬ s.data.length - s.pos = 0)]
  simp

/-- The first loop of `SkipFully` over a prompt reader: reads of `sz` bytes until `r` bytes or more are read. -/
theorem skipFullyLoop_prompt {P : Policy} (h : P.Prompt) {sz : Nat} (hsz : 0 < sz) :
    ∀ (fuel r : Nat) (s : ByteSource), r ≤ fuel → s.pos + r ≤ s.data.length →
      ∃ m s', m = min (s.data.length - s.pos) ((r + sz - 1) / sz * sz) ∧
        skipFullyLoop P sz fuel r s = (.ok ((r : Int) - m), s') ∧ s'.data = s.data ∧ s'.pos = s.pos + m := by
  intro fuel
  induction fuel with
  | zero =>
    intro r s hr hd
    obtain rfl : r = 0 := by omega
    refine ⟨0, s, ?_, by simp [skipFullyLoop], rfl, rfl⟩
    rw [Nat.div_eq_of_lt (by omega)]; simp
  | succ fuel ih =>
    intro r s hr hd
    unfold skipFullyLoop
    by_cases h0 : r = 0
    · subst h0
      refine ⟨0, s, ?_, by simp, rfl, rfl⟩
      rw [Nat.div_eq_of_lt (by omega)]; simp
    · rw [if_pos (by omega), read_prompt h hsz s (by omega)]
      have hlen : (List.take (min sz (s.data.length - s.pos)) (List.drop s.pos s.data)).length =
          min sz (s.data.length - s.pos) := by
        rw [List.length_take, List.length_drop]; omega
      dsimp only
      rw [if_neg Bool.false_ne_true, hlen, if_neg (by omega)]
      by_cases hgr : sz < r
      · have hm : min sz (s.data.length - s.pos) = sz := by omega
        rw [hm]
        obtain ⟨m, s', h1, h2, h3, h4⟩ := ih (r - sz) { s with pos := s.pos + sz, calls := s.calls + 1 } (by omega)
          (by dsimp only; omega)
        dsimp only at h1 h3 h4
        refine ⟨sz + m, s', ?_, ?_, h3, by omega⟩
        · rw [h1, show r + sz - 1 = (r - sz + sz - 1) + sz by omega, Nat.add_div_right _ hsz, Nat.succ_mul]
          omega
        · rw [show (r : Int) - sz = ((r - sz : Nat) : Int) by omega, h2]
          refine congrArg (fun x => (Res.ok x, s')) ?_
          push_cast; omega
      · refine ⟨min sz (s.data.length - s.pos),
          { s with pos := s.pos + min sz (s.data.length - s.pos), calls := s.calls + 1 }, ?_, ?_, rfl, rfl⟩
        · have : (r + sz - 1) / sz = 1 := by
            rw [show r + sz - 1 = (r - 1) + sz by omega, Nat.add_div_right _ hsz, Nat.div_eq_of_lt (by omega)]
          rw [this]; omega
        · cases fuel with
          | zero => rfl
          | succ f =>
            unfold skipFullyLoop
            rw [if_neg (by omega)]

theorem skipFullyLoop_short {P : Policy} (h : P.Prompt) {sz : Nat} (hsz : 0 < sz) :
    ∀ (fuel r : Nat) (s : ByteSource), r ≤ fuel → 0 < r → s.data.length < s.pos + r →
      (skipFullyLoop P sz fuel r s).1 = .err := by
  intro fuel
  induction fuel with
  | zero => intro r s hr hr0; omega
  | succ fuel ih =>
    intro r s hr hr0 hd
    unfold skipFullyLoop
    rw [if_pos (by omega)]
    by_cases hp : s.pos < s.data.length
    · rw [read_prompt h hsz s hp]
      have hlen : (List.take (min sz (s.data.length - s.pos)) (List.drop s.pos s.data)).length =
          min sz (s.data.length - s.pos) := by
        rw [List.length_take, List.length_drop]; omega
      dsimp only
      rw [if_neg Bool.false_ne_true, hlen, if_neg (by omega),
        show (r : Int) - (min sz (s.data.length - s.pos) : Nat) = ((r - min sz (s.data.length - s.pos) : Nat) : Int) by
          omega]
      exact ih _ _ (by omega) (by omega) (by dsimp only; omega)
    · have he : (s.read P sz).2.1 = true := by
        unfold ByteSource.read
        rw [h _ _ _ hsz]
        dsimp only [inMemory]
        exact decide_eq_true (by omega)
      revert he
      generalize s.read P sz = x
      obtain ⟨a, b, c⟩ := x
      intro he
      dsimp only at he ⊢
      rw [if_pos he]

end Jxl
