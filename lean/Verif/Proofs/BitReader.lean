import Verif.Spec.Reader
import Verif.Proofs.Bits
/-! Lemmas on the bit reader: refinement of the byte-level state to a bit position. -/
namespace Jxl
open Spec

theorem or_shift {a b k : Nat} (h : a < 2 ^ k) : a ||| (b <<< k) = a + 2 ^ k * b := by
  rw [Nat.or_comm, ← Nat.shiftLeft_add_eq_or_of_lt h, Nat.shiftLeft_eq]
  rw [Nat.mul_comm b, Nat.add_comm]

theorem and_mask (x k : Nat) : x &&& (1 <<< k - 1) = x % 2 ^ k := by
  rw [Nat.one_shiftLeft, Nat.and_two_pow_sub_one_eq_mod]

/-- The bits not yet read, in terms of the concrete state. -/
theorem AtBit.bitsFrom_eq {s : BR} {p : Nat} (h : AtBit s p) :
    bitsFrom s.data p =
      (if s.index = 0 then [] else (bitsOf 8 s.cur.toNat).drop s.index) ++ streamBits (s.data.drop s.pos) := by
  rcases h with ⟨hi, _, rfl⟩ | ⟨hi, hi8, hp, hc, rfl⟩
  · simp [bitsFrom, hi, drop_streamBits]
  · have hi0 : s.index ≠ 0 := by omega
    simp only [bitsFrom, hi0, if_false]
    rw [← List.drop_drop, drop_streamBits]
    have hlt : s.pos - 1 < s.data.length := by
      rcases Nat.lt_or_ge (s.pos - 1) s.data.length with h | h
      · exact h
      · rw [List.getElem?_eq_none h] at hc; cases hc
    have hd : s.data.drop (s.pos - 1) = s.cur :: s.data.drop s.pos := by
      rw [List.drop_eq_getElem_cons hlt]
      rw [List.getElem?_eq_getElem hlt] at hc
      have : s.pos - 1 + 1 = s.pos := by omega
      rw [this]; congr 1; exact Option.some.inj hc
    rw [hd, streamBits_cons, List.drop_append]
    simp only [length_bitsOf]
    have : s.index - 8 = 0 := by omega
    simp [this]

theorem AtBit.le {s : BR} {p : Nat} (h : AtBit s p) : p ≤ 8 * s.data.length := by
  rcases h with ⟨_, h, rfl⟩ | ⟨hi, hi8, hp, hc, rfl⟩
  · omega
  · have hlt : s.pos - 1 < s.data.length := by
      rcases Nat.lt_or_ge (s.pos - 1) s.data.length with h | h
      · exact h
      · rw [List.getElem?_eq_none h] at hc; cases hc
    omega

theorem AtBit.index_lt {s : BR} {p : Nat} (h : AtBit s p) : s.index < 8 := by
  rcases h with ⟨h, _⟩ | ⟨_, h, _⟩ <;> omega

theorem AtBit.pos_le {s : BR} {p : Nat} (h : AtBit s p) : s.pos ≤ s.data.length := by
  rcases h with ⟨_, h, rfl⟩ | ⟨hi, hi8, hp, hc, rfl⟩
  · omega
  · have hlt : s.pos - 1 < s.data.length := by
      rcases Nat.lt_or_ge (s.pos - 1) s.data.length with h | h
      · exact h
      · rw [List.getElem?_eq_none h] at hc; cases hc
    omega

theorem AtBit.mod {s : BR} {p : Nat} (h : AtBit s p) : p % 8 = s.index := by
  rcases h with ⟨h, _, rfl⟩ | ⟨_, h, _, _, rfl⟩ <;> omega

@[simp] theorem length_bitsFrom (data : List UInt8) (p : Nat) :
    (bitsFrom data p).length = 8 * data.length - p := by simp [bitsFrom]

theorem AtBit.new (data : List UInt8) : AtBit (BR.new data) 0 := by
  left; simp [BR.new]

/-- The byte loop of `ReadBits`. -/
theorem readBytesLoop_spec (need k acc : Nat) (s : BR) (hacc : acc < 2 ^ k) :
    (need / 8 ≤ s.data.length - s.pos →
      readBytesLoop need k acc s =
        (.ok (need % 8, k + 8 * (need / 8),
            acc + 2 ^ k * leVal (streamBits ((s.data.drop s.pos).take (need / 8)))),
          { s with pos := s.pos + need / 8, bitsRead := s.bitsRead + 8 * (need / 8) })) ∧
    (s.data.length - s.pos < need / 8 → (readBytesLoop need k acc s).1 = .err) := by
  fun_induction readBytesLoop need k acc s with
  | case1 need k acc s h hn =>
    have : s.data.length ≤ s.pos := by simpa using hn
    constructor
    · intro h1; omega
    · intro _; rfl
  | case2 need k acc s h b hb ih =>
    have hlt : s.pos < s.data.length := by
      rcases Nat.lt_or_ge s.pos s.data.length with h | h
      · exact h
      · rw [List.getElem?_eq_none h] at hb; cases hb
    rw [List.getElem?_eq_getElem hlt] at hb
    have hb := Option.some.inj hb
    have hb8 : b.toNat < 2 ^ 8 := b.toNat_lt
    rw [or_shift hacc] at ih ⊢
    have hacc' : acc + 2 ^ k * b.toNat < 2 ^ (k + 8) := by
      rw [Nat.pow_add]
      have : 2 ^ k * (b.toNat + 1) ≤ 2 ^ k * 2 ^ 8 := Nat.mul_le_mul_left _ hb8
      rw [Nat.mul_add] at this; omega
    obtain ⟨ih1, ih2⟩ := ih hacc'
    simp only at ih1 ih2
    have hq : need / 8 = (need - 8) / 8 + 1 := by omega
    constructor
    · intro h1
      rw [ih1 (by omega)]
      have hd : s.data.drop s.pos = b :: s.data.drop (s.pos + 1) := by
        rw [List.drop_eq_getElem_cons hlt, hb]
      rw [hd, hq]
      simp only [List.take_succ_cons, streamBits_cons, leVal_append, length_bitsOf, leVal_bitsOf_byte]
      congr 1
      · congr 1
        have : (need - 8) % 8 = need % 8 := by omega
        rw [this]
        simp only [Prod.mk.injEq, true_and]
        refine ⟨by omega, ?_⟩
        rw [Nat.mul_add, Nat.pow_add, Nat.add_assoc, Nat.mul_assoc]
      · congr 1 <;> omega
    · intro h1; exact ih2 (by omega)
  | case3 need k acc s h =>
    have : need / 8 = 0 := by omega
    have h8 : need % 8 = need := by omega
    constructor
    · intro _; simp [this, h8, leVal]
    · intro h1; omega

theorem readTail_spec (need k acc : Nat) (s : BR) (hacc : acc < 2 ^ k) (hn : need < 8) :
    (need = 0 → readTail need k acc s = (.ok acc, s)) ∧
    (0 < need → s.data.length ≤ s.pos → (readTail need k acc s).1 = .err) ∧
    (∀ b, 0 < need → s.data[s.pos]? = some b →
      readTail need k acc s = (.ok (acc + 2 ^ k * leVal ((bitsOf 8 b.toNat).take need)),
        { s with pos := s.pos + 1, cur := b, index := need, bitsRead := s.bitsRead + need })) := by
  refine ⟨?_, ?_, ?_⟩
  · rintro rfl; rfl
  · intro h0 h1
    simp [readTail, h0, List.getElem?_eq_none h1]
  · intro b h0 hb
    simp only [readTail, h0, if_true, hb]
    rw [and_mask, or_shift hacc, leVal_take, leVal_bitsOf_byte]

/-- Aligned reads. -/
theorem readAligned_spec (bits k acc : Nat) (s : BR) (hacc : acc < 2 ^ k) (hi : s.index = 0)
    (hp : s.pos ≤ s.data.length) :
    let r := readAligned bits k acc s
    (bits ≤ 8 * (s.data.length - s.pos) →
      ∃ s', r = (.ok (acc + 2 ^ k * leVal ((streamBits (s.data.drop s.pos)).take bits)), s') ∧
        AtBit s' (8 * s.pos + bits) ∧ s'.data = s.data ∧ s'.bitsRead = s.bitsRead + bits) ∧
    (8 * (s.data.length - s.pos) < bits → r.1 = .err) := by
  intro r
  obtain ⟨h1, h2⟩ := readBytesLoop_spec bits k acc s hacc
  have hq := Nat.div_add_mod bits 8
  have hr : bits % 8 < 8 := Nat.mod_lt _ (by decide)
  -- the accumulated value is bounded
  have hacc2 : acc + 2 ^ k * leVal (streamBits ((s.data.drop s.pos).take (bits / 8))) < 2 ^ (k + 8 * (bits / 8)) := by
    have hl := leVal_lt (streamBits ((s.data.drop s.pos).take (bits / 8)))
    have hl2 : (streamBits ((s.data.drop s.pos).take (bits / 8))).length ≤ 8 * (bits / 8) := by
      simp; omega
    have hl3 := Nat.lt_of_lt_of_le hl (Nat.pow_le_pow_right (by decide : 0 < 2) hl2)
    rw [Nat.pow_add]
    have : 2 ^ k * (leVal (streamBits ((s.data.drop s.pos).take (bits / 8))) + 1) ≤ 2 ^ k * 2 ^ (8 * (bits / 8)) :=
      Nat.mul_le_mul_left _ hl3
    rw [Nat.mul_add] at this; omega
  constructor
  · intro hle
    have h1 := h1 (by omega)
    have ht := readTail_spec (bits % 8) (k + 8 * (bits / 8))
      (acc + 2 ^ k * leVal (streamBits ((s.data.drop s.pos).take (bits / 8))))
      { s with pos := s.pos + bits / 8, bitsRead := s.bitsRead + 8 * (bits / 8) } hacc2 hr
    have hrr : r = readTail (bits % 8) (k + 8 * (bits / 8))
      (acc + 2 ^ k * leVal (streamBits ((s.data.drop s.pos).take (bits / 8))))
      { s with pos := s.pos + bits / 8, bitsRead := s.bitsRead + 8 * (bits / 8) } := by
      simp only [r, readAligned, h1]
    by_cases hz : bits % 8 = 0
    · have h8 : 8 * (bits / 8) = bits := by omega
      have e : (streamBits (s.data.drop s.pos)).take bits = streamBits ((s.data.drop s.pos).take (bits / 8)) := by
        rw [← take_streamBits, h8]
      rw [hrr, ht.1 hz, e]
      refine ⟨_, rfl, ?_, rfl, ?_⟩
      · left; exact ⟨hi, by simp only; omega, by simp only; omega⟩
      · simp only; omega
    · have hlt : s.pos + bits / 8 < s.data.length := by omega
      have hb : s.data[s.pos + bits / 8]? = some s.data[s.pos + bits / 8] := List.getElem?_eq_getElem hlt
      have ht3 := ht.2.2 s.data[s.pos + bits / 8] (by omega) hb
      have e : (streamBits (s.data.drop s.pos)).take bits = streamBits ((s.data.drop s.pos).take (bits / 8)) ++
          (bitsOf 8 s.data[s.pos + bits / 8].toNat).take (bits % 8) := by
        have h8 : bits = 8 * (bits / 8) + bits % 8 := by omega
        conv => lhs; rw [h8]
        rw [List.take_add, take_streamBits, drop_streamBits, List.drop_drop, List.drop_eq_getElem_cons hlt,
          streamBits_cons, List.take_append_of_le_length (by simp; omega)]
      have hl : (streamBits ((s.data.drop s.pos).take (bits / 8))).length = 8 * (bits / 8) := by
        simp; omega
      rw [hrr, ht3, e, leVal_append, hl, Nat.mul_add, ← Nat.mul_assoc, ← Nat.pow_add, ← Nat.add_assoc]
      refine ⟨_, rfl, ?_, rfl, ?_⟩
      · right; refine ⟨by simp only; omega, by simp only; omega, by simp only; omega, ?_, by simp only; omega⟩
        simp only [Nat.add_sub_cancel]; exact hb
      · simp only; omega
  · intro hlt
    by_cases hcase : s.data.length - s.pos < bits / 8
    · have := h2 hcase
      simp only [r, readAligned]
      split <;> rename_i heq <;> simp_all
    · have h1 := h1 (by omega)
      have ht := readTail_spec (bits % 8) (k + 8 * (bits / 8))
        (acc + 2 ^ k * leVal (streamBits ((s.data.drop s.pos).take (bits / 8))))
        { s with pos := s.pos + bits / 8, bitsRead := s.bitsRead + 8 * (bits / 8) } hacc2 hr
      have := ht.2.1 (by omega) (by simp only; omega)
      simp only [r, readAligned, h1]; exact this

/-- `ReadBits` at any alignment. -/
theorem readBits_spec (n : Nat) (s : BR) (p : Nat) (h : AtBit s p) :
    (64 < n → readBits n s = (.err, s)) ∧
    (n ≤ 64 → p + n ≤ 8 * s.data.length →
      ∃ s', readBits n s = (.ok (leVal ((bitsFrom s.data p).take n)), s') ∧
        AtBit s' (p + n) ∧ s'.data = s.data ∧ s'.bitsRead = s.bitsRead + n) ∧
    (n ≤ 64 → 8 * s.data.length < p + n → (readBits n s).1 = .err) := by
  by_cases hn0 : n = 0
  · subst hn0
    have := h.le
    refine ⟨by omega, ?_, by omega⟩
    intro _ _
    exact ⟨s, by simp [readBits, leVal], h, rfl, rfl⟩
  by_cases hn64 : 64 < n
  · exact ⟨fun _ => by simp [readBits, hn0, hn64], by omega, by omega⟩
  refine ⟨by omega, ?_⟩
  have hbits := h.bitsFrom_eq
  by_cases hi : s.index = 0
  · have hp : p = 8 * s.pos := by
      rcases h with ⟨_, _, h⟩ | ⟨h, _⟩
      · exact h
      · omega
    have hA := readAligned_spec n 0 0 s (by decide) hi h.pos_le
    simp only [hi, if_true, List.nil_append] at hbits
    have hr : readBits n s = readAligned n 0 0 s := by
      simp [readBits, hn0, hn64, hi]
    rw [hbits]
    have hle := h.pos_le
    constructor
    · intro _ hle2
      obtain ⟨s', h1, h2, h3, h4⟩ := hA.1 (by omega)
      refine ⟨s', ?_, by rw [hp]; exact h2, h3, h4⟩
      rw [hr, h1]; simp
    · intro _ hlt
      rw [hr]; exact hA.2 (by omega)
  · rcases h with ⟨h, _⟩ | ⟨hi0, hi8, hp0, hc, hp⟩
    · exact absurd h hi
    have hlt : s.pos - 1 < s.data.length := by
      rcases Nat.lt_or_ge (s.pos - 1) s.data.length with h | h
      · exact h
      · rw [List.getElem?_eq_none h] at hc; cases hc
    simp only [hi, if_false] at hbits
    have hcl : ((bitsOf 8 s.cur.toNat).drop s.index).length = 8 - s.index := by simp
    by_cases hav : 8 - s.index < n
    · -- crosses the byte boundary
      have ht8 : (s.index + (8 - s.index)) % 8 = 0 := by omega
      have hext : (s.cur.toNat >>> s.index) &&& (1 <<< (8 - s.index) - 1) =
          leVal ((bitsOf 8 s.cur.toNat).drop s.index) := by
        rw [and_mask, leVal_drop, leVal_bitsOf_byte, Nat.shiftRight_eq_div_pow]
        have hb := s.cur.toNat_lt
        apply Nat.mod_eq_of_lt
        rw [Nat.div_lt_iff_lt_mul (Nat.two_pow_pos _), ← Nat.pow_add]
        have : 8 - s.index + s.index = 8 := by omega
        rw [this]; exact hb
      have hr : readBits n s = readAligned (n - (8 - s.index)) (8 - s.index)
            (leVal ((bitsOf 8 s.cur.toNat).drop s.index))
            { s with bitsRead := s.bitsRead + (8 - s.index), index := 0 } := by
        simp only [readBits, hn0, hn64, if_false, hi, ne_eq, not_false_eq_true, if_true, hav, ht8, hext]
      have hacc : leVal ((bitsOf 8 s.cur.toNat).drop s.index) < 2 ^ (8 - s.index) := by
        have := leVal_lt ((bitsOf 8 s.cur.toNat).drop s.index)
        rwa [hcl] at this
      obtain ⟨hA1, hA2⟩ := readAligned_spec (n - (8 - s.index)) (8 - s.index)
        (leVal ((bitsOf 8 s.cur.toNat).drop s.index))
        { s with bitsRead := s.bitsRead + (8 - s.index), index := 0 } hacc rfl (by simp only; omega)
      constructor
      · intro _ hle2
        have hg : n - (8 - s.index) ≤ 8 * (s.data.length - s.pos) := by clear hA1 hA2; omega
        obtain ⟨s', h1, h2, h3, h4⟩ := hA1 hg
        clear hA1 hA2
        refine ⟨s', ?_, ?_, h3, ?_⟩
        · rw [hr, h1, hbits, List.take_append, hcl,
            List.take_of_length_le (l := (bitsOf 8 s.cur.toNat).drop s.index) (by omega), leVal_append, hcl]
        · have : p + n = 8 * s.pos + (n - (8 - s.index)) := by omega
          rw [this]; exact h2
        · rw [h4]; simp only; omega
      · intro _ hlt2
        have hg : 8 * (s.data.length - s.pos) < n - (8 - s.index) := by clear hA1 hA2; omega
        rw [hr]; exact hA2 hg
    · -- stays inside the cached byte
      have hext : (s.cur.toNat >>> s.index) &&& (1 <<< n - 1) =
          leVal (((bitsOf 8 s.cur.toNat).drop s.index).take n) := by
        rw [and_mask, leVal_take, leVal_drop, leVal_bitsOf_byte, Nat.shiftRight_eq_div_pow]
      constructor
      · intro _ hle2
        refine ⟨{ s with bitsRead := s.bitsRead + n, index := (s.index + n) % 8 }, ?_, ?_, rfl, rfl⟩
        · rw [hbits, List.take_append_of_le_length (by omega)]
          simp only [readBits, hn0, hn64, if_false, hi, ne_eq, not_false_eq_true, if_true, hav, hext,
            Nat.sub_self]
          unfold readAligned readBytesLoop
          simp [readTail]
        · by_cases h8 : s.index + n = 8
          · left; simp only [h8]; exact ⟨by simp, by omega, by omega⟩
          · right
            have : (s.index + n) % 8 = s.index + n := by omega
            simp only [this]
            exact ⟨by omega, by omega, hp0, hc, by omega⟩
      · intro _ hlt2; omega

/-- `readBit` at any alignment. -/
theorem readBit_spec (s : BR) (p : Nat) (h : AtBit s p) :
    (∀ b, (bitsFrom s.data p).head? = some b →
      ∃ s', readBit s = (.ok b.toNat, s') ∧ AtBit s' (p + 1) ∧ s'.data = s.data ∧ s'.bitsRead = s.bitsRead + 1) ∧
    (bitsFrom s.data p = [] → readBit s = (.err, s)) := by
  have hbits := h.bitsFrom_eq
  by_cases hi : s.index = 0
  · have hp : p = 8 * s.pos := by
      rcases h with ⟨_, _, h⟩ | ⟨h, _⟩
      · exact h
      · omega
    simp only [hi, if_true, List.nil_append] at hbits
    rw [hbits]
    by_cases hlt : s.pos < s.data.length
    · have hd := List.drop_eq_getElem_cons hlt
      have hg := List.getElem?_eq_getElem hlt
      rw [hd, streamBits_cons]
      constructor
      · intro b hb
        have hb' : b = s.data[s.pos].toNat.testBit 0 := by
          have := bitsOf_get 8 s.data[s.pos].toNat 0 (by decide)
          rw [List.head?_eq_getElem?, List.getElem?_append_left (by simp), this] at hb
          exact (Option.some.inj hb).symm
        refine ⟨{ s with pos := s.pos + 1, cur := s.data[s.pos], index := 1, bitsRead := s.bitsRead + 1 }, ?_, ?_, rfl, rfl⟩
        · simp [readBit, hi, hg, hb']
        · right; exact ⟨by simp, by simp, by simp, by simp, by simp only; omega⟩
      · intro h; simp [bitsOf] at h
    · have : s.data.drop s.pos = [] := List.drop_eq_nil_of_le (by omega)
      rw [this]
      constructor
      · intro b hb; simp at hb
      · intro _
        simp [readBit, hi, List.getElem?_eq_none (show s.data.length ≤ s.pos by omega)]
  · rcases h with ⟨h, _⟩ | ⟨hi0, hi8, hp0, hc, hp⟩
    · exact absurd h hi
    simp only [hi, if_false] at hbits
    rw [hbits]
    have hpl : s.pos - 1 < s.data.length := by
      rcases Nat.lt_or_ge (s.pos - 1) s.data.length with h | h
      · exact h
      · rw [List.getElem?_eq_none h] at hc; cases hc
    constructor
    · intro b hb
      have hb' : b = s.cur.toNat.testBit s.index := by
        have := bitsOf_get 8 s.cur.toNat s.index hi8
        rw [List.head?_eq_getElem?, List.getElem?_append_left (by simp; omega), List.getElem?_drop, Nat.add_zero,
          this] at hb
        exact (Option.some.inj hb).symm
      refine ⟨{ s with index := (s.index + 1) % 8, bitsRead := s.bitsRead + 1 }, ?_, ?_, rfl, rfl⟩
      · simp [readBit, hi, hb']
      · by_cases h8 : s.index + 1 = 8
        · left; simp only [h8]; exact ⟨by simp, by omega, by omega⟩
        · right
          have : (s.index + 1) % 8 = s.index + 1 := by omega
          simp only [this]
          exact ⟨by omega, by omega, hp0, hc, by omega⟩
    · intro h
      have := congrArg List.length h
      simp at this; omega

end Jxl
