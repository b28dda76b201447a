import Verif.Proofs.CodeCoding
import Mathlib.Data.Nat.Size

/-!
# C82: the codes of an entropy-coded stream are read as they are described
-/
namespace Jxl
open Spec

/-- **C82**, distributions. Every valid description of a distribution is read to the end and gives a decoding table for exactly the frequencies that it
describes: the table is an exact partition of the 4096 slots, so that ANS decoding inverts ANS encoding (C13). -/
theorem C82_histogram (L : Nat) (hL : L ≤ 12) (h : Hist) (hv : h.Valid L) : ∃ d, ReadsPad 15 (newANSDist L) h.bits d ∧ d.Proper h.freqs := newANSDist_ok L hL h hv

/-- Frequencies 10, 20, 20, 20, 20, 20, what is left (3386), 600 for an alphabet of 32 symbols. -/
example : (Hist.counts 13 [.count 4 2, .count 5 4, .run 0] 12 [.count 10 88]).Valid 5 ∧
    (Hist.counts 13 [.count 4 2, .count 5 4, .run 0] 12 [.count 10 88]).freqs = [10, 20, 20, 20, 20, 20, 3386, 600] := by
  refine ⟨⟨by decide, by decide, ?_, ?_, ?_, by decide +kernel, by decide +kernel, by decide +kernel⟩, by decide +kernel⟩
  · intro i hi
    simp only [List.mem_cons, List.not_mem_nil, or_false] at hi
    rcases hi with rfl | rfl | rfl
    · exact ⟨by decide, by decide⟩
    · exact ⟨by decide, by decide⟩
    · show 0 < 256; decide
  · intro i hi
    simp only [List.mem_cons, List.not_mem_nil, or_false] at hi
    subst hi
    exact ⟨by decide, by decide⟩
  · intro n l h
    cases h

theorem le_sum_of_mem {f : Nat} {l : List Nat} (h : f ∈ l) : f ≤ l.sum := by
  induction l with
  | nil => cases h
  | cons x l ih =>
    rw [List.sum_cons]
    rcases List.mem_cons.1 h with rfl | h
    · omega
    · have := ih h; omega

theorem first_largest : ∀ fs : List Nat, fs ≠ [] → ∃ before m after, fs = before ++ m :: after ∧ (∀ b ∈ before, Nat.size b < Nat.size m) ∧ ∀ a ∈ after, Nat.size a ≤ Nat.size m := by
  intro fs
  induction fs with
  | nil => intro h; exact absurd rfl h
  | cons f fs ih =>
    intro _
    by_cases hfs : fs = []
    · subst hfs
      exact ⟨[], f, [], rfl, by simp, by simp⟩
    · obtain ⟨b, m, a, h1, h2, h3⟩ := ih hfs
      by_cases hf : Nat.size f < Nat.size m
      · refine ⟨f :: b, m, a, by rw [h1]; rfl, ?_, h3⟩
        intro x hx
        rcases List.mem_cons.1 hx with rfl | hx
        · exact hf
        · exact h2 x hx
      · refine ⟨[], f, fs, rfl, by simp, ?_⟩
        intro x hx
        rw [h1] at hx
        rcases List.mem_append.1 hx with hx | hx
        · have := h2 x hx; omega
        · rcases List.mem_cons.1 hx with rfl | hx
          · omega
          · have := h3 x hx; omega

/-- A frequency as an item with all its bits. -/
def exactItem (f : Nat) : HistItem := .count (Nat.size f) (f - 2 ^ (Nat.size f - 1))

theorem exactItem_value (f : Nat) (h : f < 4096) : Nat.size f ≤ 12 ∧ f - 2 ^ (Nat.size f - 1) < 2 ^ precision 13 (Nat.size f) ∧ countValue 13 (Nat.size f) (f - 2 ^ (Nat.size f - 1)) = f := by
  have hs : Nat.size f ≤ 12 := Nat.size_le.2 (by omega)
  by_cases h0 : f = 0
  · subst h0; decide
  · have hpos : 0 < Nat.size f := Nat.size_pos.2 (by omega)
    have l1 : 2 ^ (Nat.size f - 1) ≤ f := Nat.lt_size.1 (by omega)
    have l2 : f < 2 ^ Nat.size f := Nat.lt_size_self f
    have hp : precision 13 (Nat.size f) = Nat.size f - 1 := by unfold precision; omega
    have l3 : f < 2 * 2 ^ (Nat.size f - 1) := by
      rw [← pow_succ', Nat.sub_add_cancel hpos]; exact l2
    refine ⟨hs, by rw [hp]; omega, ?_⟩
    unfold countValue
    rw [if_neg (by omega), hp, Nat.sub_self, pow_zero, mul_one]
    by_cases h1 : Nat.size f = 1
    · rw [if_pos h1]
      rw [h1] at l1 l2
      omega
    · rw [if_neg h1]; omega

theorem exactItems_values (fs : List Nat) (h : ∀ f ∈ fs, f < 4096) : ∀ prev, histValues 13 (fs.map exactItem) prev = fs := by
  induction fs with
  | nil => intro _; rfl
  | cons f fs ih =>
    intro prev
    rw [List.map_cons, exactItem, histValues, (exactItem_value f (h f (by simp))).2.2, ih (fun f hf => h f (by simp [hf]))]

/-- **C82**, all distributions. Every distribution of three or more symbols can be described without loss. -/
theorem C82_every_histogram (L : Nat) (fs : List Nat) (h3 : 3 ≤ fs.length) (hlen : fs.length ≤ min 258 (2 ^ L)) (hsum : fs.sum = 4096) : ∃ h : Hist, h.Valid L ∧ h.freqs = fs := by
  obtain ⟨b, m, a, e, h1, h2⟩ := first_largest fs (by intro h; rw [h] at h3; simp at h3)
  have hle : ∀ f ∈ fs, f ≤ 4096 := fun f hf => hsum ▸ le_sum_of_mem hf
  have hsum' : b.sum + m + a.sum = 4096 := by
    rw [← hsum, e, List.sum_append, List.sum_cons]; omega
  have hlen' : fs.length = b.length + 1 + a.length := by
    rw [e, List.length_append, List.length_cons]; omega
  have hb : ∀ f ∈ b, f < 4096 := by
    intro f hf
    have := le_sum_of_mem hf
    by_contra hc
    have hfe : f = 4096 := by omega
    have hm0 : m = 0 := by omega
    have := h1 f hf
    rw [hm0] at this
    simp at this
  have ha : ∀ f ∈ a, f < 4096 := by
    intro f hf
    have := le_sum_of_mem hf
    by_contra hc
    have hm0 : m = 0 := by omega
    have h2' := h2 f hf
    rw [hm0] at h2'
    simp only [Nat.size_zero, Nat.le_zero, Nat.size_eq_zero] at h2'
    omega
  have vb := exactItems_values b hb 0
  have va := exactItems_values a ha 0
  have hmle : m ≤ 4096 := by omega
  refine ⟨.counts 13 (b.map exactItem) (min 12 (Nat.size m)) (a.map exactItem), ⟨by decide, by omega, ?_, ?_, ?_, ?_, ?_, ?_⟩, ?_⟩
  · intro i hi
    obtain ⟨f, hf, rfl⟩ := List.mem_map.1 hi
    obtain ⟨g1, g2, _⟩ := exactItem_value f (hb f hf)
    refine ⟨?_, g2⟩
    have := h1 f hf
    by_cases hm : m = 4096
    · have hf0 : f = 0 := by
        have := le_sum_of_mem hf
        omega
      subst hf0
      rw [hm] at this ⊢
      have : Nat.size 4096 = 13 := by decide +kernel
      rw [this]; decide
    · have : Nat.size m ≤ 12 := Nat.size_le.2 (by omega)
      omega
  · intro i hi
    obtain ⟨f, hf, rfl⟩ := List.mem_map.1 hi
    obtain ⟨g1, g2, _⟩ := exactItem_value f (ha f hf)
    refine ⟨?_, g2⟩
    have := h2 f hf
    omega
  · intro n l h
    cases a with
    | nil => cases h
    | cons x a => cases h
  · unfold othersSum
    rw [vb, va]; omega
  · rw [vb, va]; omega
  · rw [vb, va]; omega
  · show histValues 13 (b.map exactItem) 0 ++ (4096 - othersSum 13 (b.map exactItem) (a.map exactItem)) :: histValues 13 (a.map exactItem) 0 = fs
    unfold othersSum
    rw [vb, va, e]
    congr 2
    omega

example : ([1000, 96, 3000] : List Nat).sum = 4096 := by decide

/-- **C82**, prefix codes. Every valid description of a prefix code is read to the end and gives a decoder that reads every word of the code as its symbol. -/
theorem C82_prefix (c : PreCode) (hv : c.Valid) :
    ∃ d, ReadsPad 15 (newPrefixDist c.alphabet) c.bits d ∧ ∀ (s : Nat) (w : List Bool), c.Word s w → ReadsPad 15 d.readSymbol w (s : Int) := newPrefixDist_ok c hv

example : (PreCode.simple 17 [0, 2, 16] false).Valid ∧ (PreCode.simple 17 [0, 2, 16] false).Word 16 [true, true] := by
  refine ⟨⟨by decide, by decide, by decide, by decide, by decide, by decide⟩, SimpleWord.three2 (a := 0) (b := 2) (c := 16)⟩

/-- **C82**, all codes of a stream, with maps whose entries have a fixed number of bits (so that there are at most 8 codes). Every valid description of codes for `n` contexts is read to the end; the stream
that results has the map from contexts to codes, the LZ77 parameters and the codes that are described, and has not read anything yet. 15 more bits must follow (C11). Maps that are coded
themselves: `C82_codes_partial`. -/
theorem C82_fixed (d : CodeDesc) (n : Nat) (hd : d.Valid n) :
    ∃ es : ES, ReadsPad 15 (ES.load n false) d.bits es ∧ es.clusterMap = d.map.map Int.ofNat ∧ d.codes.Decoded es.dists ∧ es.state = none ∧ es.numDecoded = 0 ∧ es.numToCopy = 0 ∧
      match d.lz with
      | none => es.usesLZ77 = false
      | some z => es.usesLZ77 = true ∧ es.minSymbol = z.1.minSymbol ∧ es.minLength = z.1.minLength ∧ es.lzLengthConfig = z.1.lengthConfig := by
  obtain ⟨ds, h1, h2⟩ := load_ok d n hd
  refine ⟨_, h1, rfl, h2, rfl, rfl, rfl, ?_⟩
  obtain ⟨lz, w, m, c⟩ := d
  cases lz with
  | none => rfl
  | some z => exact ⟨rfl, rfl, rfl, rfl⟩

/-- Two codes for six contexts: a simple code of three symbols and a code of one symbol. -/
def sixCodes : CodeDesc where
  lz := none
  width := 1
  map := [0, 1, 0, 0, 1, 0]
  codes := .pre [(.simple 17 [0, 2, 16] false, ⟨4, 1, 0⟩), (.only, ⟨15, 0, 0⟩)]

/-- The hypotheses are met by these codes. -/
theorem sixCodes_valid : sixCodes.Valid 6 where
  pos := by decide
  contexts := by decide
  width := by decide
  entries := by decide
  one := by decide
  all := by decide
  count := by decide
  codes := by
    intro c hc
    simp only [List.mem_cons, List.not_mem_nil, or_false] at hc
    rcases hc with rfl | rfl
    · exact ⟨⟨by decide, by decide, by decide, by decide, by decide, by decide⟩, by decide, by decide, by decide⟩
    · exact ⟨trivial, by decide, by decide, by decide⟩
  lz := by intro z hz; cases hz

end Jxl
