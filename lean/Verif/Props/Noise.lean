import Mathlib.Tactic.IntervalCases
import Verif.Proofs.Noise

/-!
# C100: the noise of a group
-/
namespace Jxl
open Spec

theorem halves {u v : Nat} (hu : u < 2 ^ 32) (hv : v < 2 ^ 32) {a b : UInt64} (ha : a.toNat % 2 ^ 32 = u) (hb : b.toNat = v) : a <<< 32 ||| b = UInt64.ofNat (2 ^ 32 * u + v) := by
  apply UInt64.toNat_inj.mp
  rw [UInt64.toNat_or, UInt64.toNat_shiftLeft, show (32 : UInt64).toNat % 64 = 32 by decide, hb, UInt64.toNat_ofNat', Nat.shiftLeft_eq]
  have e : a.toNat * 2 ^ 32 % 2 ^ 64 = 2 ^ 32 * u := by
    rw [show (2 : Nat) ^ 64 = 2 ^ 32 * 2 ^ 32 by norm_num, Nat.mul_comm, Nat.mul_mod_mul_left, ha]
  rw [e, ← Nat.two_pow_add_eq_or_of_lt hv u, Nat.mod_eq_of_lt (by omega)]

theorem toNat_ofInt64 (z : Int) : (UInt64.ofInt z).toNat = (z % 2 ^ 64).toNat := by
  unfold UInt64.ofInt
  rw [UInt64.toNat_ofNat']
  omega

theorem ofInt_nat {u : Nat} (hu : u < 2 ^ 32) : (UInt64.ofInt (u : Int)).toNat = u := by
  rw [toNat_ofInt64]
  omega

/-- The state that the four `int32` seeds give is that of the two 64-bit seeds that they are the halves of. -/
theorem C100_seeds (s0 s1 s2 s3 : Int) :
    newXorShiro4 s0 s1 s2 s3 = newXorShiro (UInt64.ofNat (2 ^ 32 * toU32 s0 + toU32 s1)) (UInt64.ofNat (2 ^ 32 * toU32 s2 + toU32 s3)) := by
  have e : ∀ s t : Int, UInt64.ofInt s <<< 32 ||| UInt64.ofInt t &&& 0xFFFFFFFF = UInt64.ofNat (2 ^ 32 * toU32 s + toU32 t) := by
    intro s t
    refine halves (by unfold toU32; omega) (by unfold toU32; omega) ?_ ?_
    · rw [toNat_ofInt64]
      unfold toU32
      omega
    · rw [low_word, toNat_ofInt64]
      unfold toU32
      omega
  unfold newXorShiro4
  rw [e, e]

/-- The words of several calls of `fill`, one after the other. -/
def fills : XorShiro → List (List Nat) → Res (List Nat)
  | _, [] => .ok []
  | s, b :: bs => do
    let r ← s.fill b
    let ws ← fills r.1 bs
    .ok (r.2 ++ ws)

theorem fills_ok {a b : UInt64} : ∀ (bs : List (List Nat)) (j : Nat) (s : XorShiro), Drawn a b j s → (∀ x ∈ bs, x.length % 2 = 0) →
    fills s bs = .ok ((List.range' (2 * j) (bs.map List.length).sum).map (randomWord a b))
  | [], _, _, _, _ => rfl
  | x :: bs, j, s, h, hb => by
    obtain ⟨r, e, d, l, w⟩ := fill_ok h (hb x List.mem_cons_self)
    have hx := hb x List.mem_cons_self
    unfold fills
    rw [e, Res.bind_ok, fills_ok bs _ r.1 d (fun y hy => hb y (List.mem_cons_of_mem _ hy)), Res.bind_ok]
    congr 1
    rw [List.map_cons, List.sum_cons, ← List.range'_append_1, List.map_append]
    have h1 : r.2 = (List.range' (2 * j) x.length).map (randomWord a b) := by
      apply List.ext_getElem?
      intro n
      by_cases hn : n < x.length
      · rw [w n hn, List.getElem?_map, List.getElem?_range' hn, Option.map_some, Nat.one_mul]
      · rw [List.getElem?_eq_none (by omega), List.getElem?_eq_none (by rw [List.length_map, List.length_range']; omega)]
    rw [h1, show 2 * (j + x.length / 2) = 2 * j + x.length by omega]

/-- C100: the generator gives the words of the format, for all seeds, however they are asked for (in even numbers). -/
theorem C100_words (a b : UInt64) (bs : List (List Nat)) (hb : ∀ x ∈ bs, x.length % 2 = 0) :
    ∃ s, newXorShiro a b = .ok s ∧ fills s bs = .ok ((List.range (bs.map List.length).sum).map (randomWord a b)) := by
  obtain ⟨s, e, d⟩ := newXorShiro_ok a b
  refine ⟨s, e, ?_⟩
  rw [fills_ok bs 0 s d hb, List.range_eq_range']

/-- The hypotheses are met. -/
example : ∀ x ∈ [List.replicate 16 0, List.replicate 2 (0 : Nat)], x.length % 2 = 0 := by decide

/-- The width or height of a group that starts at `start`. -/
def noiseSide (g side start : Nat) : Nat := min g (side - start)

/-- C100: `NewNoiseGroupWithHeader` fills the samples of the group, in all three channels, with numbers from 1 to 2 that the seeds and the place determine, and leaves the others alone. -/
theorem C100_group (g W H x0 y0 : Nat) (seed : Int) (hH : H < 2 ^ 31) (hW : W < 2 ^ 31) (hx : x0 ≤ W) (hy : y0 ≤ H) (p0 p1 p2 : List (List F32)) (h0 : Table H W p0) (h1 : Table H W p1)
    (h2 : Table H W p2) :
    ∃ q0 q1 q2, noiseGroup g W H seed [p0, p1, p2] x0 y0 = .ok [q0, q1, q2] ∧ ∀ (c : Nat) (p q : List (List F32)), [(p0, q0), (p1, q1), (p2, q2)][c]? = some (p, q) → Table H W q ∧
      (∀ y x, y < noiseSide g H y0 → x < noiseSide g W x0 → ∃ n : ℚ, sample q (y0 + y) (x0 + x) = some (.fin n) ∧ 1 ≤ n ∧ n < 2 ∧
        n = noiseNumber (randomWord (UInt64.ofInt seed) (UInt64.ofNat (2 ^ 32 * x0 + y0)) (16 * ((c * noiseSide g H y0 + y) * noiseSide g W x0 + x)))) ∧
      ∀ y x, ¬ (y0 ≤ y ∧ y < y0 + noiseSide g H y0 ∧ x0 ≤ x ∧ x < x0 + noiseSide g W x0) → sample q y x = sample p y x := by
  have hseed := halves (u := x0) (v := y0) (by omega) (by omega) (a := UInt64.ofInt x0) (b := UInt64.ofInt y0) (by rw [ofInt_nat (by omega)]; omega) (ofInt_nat (by omega))
  have hold : Planes H W [p0, p1, p2] := ⟨rfl, by
    intro m hm
    rcases List.mem_cons.mp hm with rfl | hm
    · exact h0
    rcases List.mem_cons.mp hm with rfl | hm
    · exact h1
    · rw [List.mem_singleton.mp hm]; exact h2⟩
  obtain ⟨s, e, -, -, hP, hdone, hrest⟩ := noiseGroup_ok (g := g) (seed := seed) rfl rfl hH hW hx hy hold
  rw [hseed] at hdone
  obtain ⟨rng, bits, buffer⟩ := s
  dsimp only at e hP hdone hrest
  match buffer, hP with
  | [q0, q1, q2], hP =>
    refine ⟨q0, q1, q2, e, fun c p q hc => ?_⟩
    have hc3 : c < 3 := (List.getElem?_eq_some_iff.mp hc).1
    have hcp : [p0, p1, p2][c]? = some p ∧ [q0, q1, q2][c]? = some q := by
      interval_cases c <;> cases hc <;> exact ⟨rfl, rfl⟩
    refine ⟨hP.2 q (List.mem_of_getElem? hcp.2), fun y x hy' hx' => ?_, fun y x hn => ?_⟩
    · have hlt : (c * noiseSide g H y0 + y) * noiseSide g W x0 + x < 3 * noiseSide g H y0 * noiseSide g W x0 := by
        have a1 : c * noiseSide g H y0 + y + 1 ≤ 3 * noiseSide g H y0 := by
          have : c * noiseSide g H y0 ≤ 2 * noiseSide g H y0 := Nat.mul_le_mul_right _ (by omega)
          omega
        have a2 := Nat.mul_le_mul_right (noiseSide g W x0) a1
        rw [Nat.add_mul, Nat.one_mul] at a2
        omega
      have := hdone c y x hc3 hy' hx' hlt
      unfold cell3 at this
      rw [hcp.2] at this
      refine ⟨_, this, ?_, ?_, rfl⟩
      · unfold noiseNumber
        have : (0 : ℚ) ≤ ((randomWord (UInt64.ofInt seed) (UInt64.ofNat (2 ^ 32 * x0 + y0)) (16 * ((c * noiseSide g H y0 + y) * noiseSide g W x0 + x)) / 2 ^ 9 : Nat) : ℚ) / 2 ^ 23 := by positivity
        exact le_add_of_nonneg_right this
      · unfold noiseNumber
        have hb := randomWord_lt (UInt64.ofInt seed) (UInt64.ofNat (2 ^ 32 * x0 + y0)) (16 * ((c * noiseSide g H y0 + y) * noiseSide g W x0 + x))
        show 1 + ((randomWord (UInt64.ofInt seed) (UInt64.ofNat (2 ^ 32 * x0 + y0)) (16 * ((c * noiseSide g H y0 + y) * noiseSide g W x0 + x)) / 2 ^ 9 : Nat) : ℚ) / 2 ^ 23 < 2
        generalize randomWord (UInt64.ofInt seed) (UInt64.ofNat (2 ^ 32 * x0 + y0)) (16 * ((c * noiseSide g H y0 + y) * noiseSide g W x0 + x)) = w at hb
        have hq : ((w / 2 ^ 9 : Nat) : ℚ) < 2 ^ 23 := by
          have : w / 2 ^ 9 < 2 ^ 23 := by omega
          exact_mod_cast this
        have : ((w / 2 ^ 9 : Nat) : ℚ) / 2 ^ 23 < 1 := by
          rw [div_lt_one (by norm_num)]
          exact hq
        linarith
    · have := hrest c y x hn
      unfold cell3 at this
      rw [hcp.1, hcp.2] at this
      exact this

/-- The hypotheses are met by three planes of two rows and three columns. -/
example : Table 2 3 (List.replicate 2 (List.replicate 3 (F32.fin 0))) := ⟨rfl, by decide⟩

/-- The samples of the format: sixteen words at a time along a row. Here the code agrees: in groups of one column (partial: see `C100_fails`). -/
theorem C100_narrow_partial (g W H x0 y0 : Nat) (seed : Int) (hH : H < 2 ^ 31) (hW : W < 2 ^ 31) (hx : x0 ≤ W) (hy : y0 ≤ H) (hn : noiseSide g W x0 = 1) (p0 p1 p2 : List (List F32))
    (h0 : Table H W p0) (h1 : Table H W p1) (h2 : Table H W p2) :
    ∃ q0 q1 q2, noiseGroup g W H seed [p0, p1, p2] x0 y0 = .ok [q0, q1, q2] ∧ ∀ (c : Nat) (q : List (List F32)), [q0, q1, q2][c]? = some q → ∀ y, y < noiseSide g H y0 →
      sample q (y0 + y) x0 = some (.fin (formatNoise (UInt64.ofInt seed) (UInt64.ofNat (2 ^ 32 * x0 + y0)) (noiseSide g W x0) (noiseSide g H y0) c y 0)) := by
  obtain ⟨q0, q1, q2, e, h⟩ := C100_group g W H x0 y0 seed hH hW hx hy p0 p1 p2 h0 h1 h2
  refine ⟨q0, q1, q2, e, fun c q hc y hy' => ?_⟩
  have hc3 : c < 3 := (List.getElem?_eq_some_iff.mp hc).1
  obtain ⟨p, hp⟩ : ∃ p, [(p0, q0), (p1, q1), (p2, q2)][c]? = some (p, q) := by
    interval_cases c <;> cases hc <;> exact ⟨_, rfl⟩
  obtain ⟨n, hs, -, -, hv⟩ := (h c p q hp).2.1 y 0 hy' (by omega)
  rw [Nat.add_zero] at hs
  rw [hs, hv]
  unfold formatNoise
  rw [hn, show (1 + 15) / 16 = 1 from rfl, show 0 / 16 = 0 from rfl, show 0 % 16 = 0 from rfl]
  rfl

/-- The hypotheses are met by the last column of an image. -/
example : noiseSide 128 129 128 = 1 := by decide

/-- C100 fails: in a group of two columns the second sample is not that of the format. The code draws sixteen new words for every column. -/
theorem C100_fails : ∃ q0 q1 q2 : List (List F32), noiseGroup 128 2 1 0 [[[.fin 0, .fin 0]], [[.fin 0, .fin 0]], [[.fin 0, .fin 0]]] 0 0 = .ok [q0, q1, q2] ∧
    sample q0 0 0 = some (.fin (formatNoise 0 0 2 1 0 0 0)) ∧ sample q0 0 1 ≠ some (.fin (formatNoise 0 0 2 1 0 0 1)) := by
  obtain ⟨q0, q1, q2, e, h⟩ := C100_group 128 2 1 0 0 0 (by decide) (by decide) (by decide) (by decide) [[.fin 0, .fin 0]] [[.fin 0, .fin 0]] [[.fin 0, .fin 0]] ⟨rfl, by decide⟩
    ⟨rfl, by decide⟩ ⟨rfl, by decide⟩
  obtain ⟨n, hs, -, -, hv⟩ := (h 0 _ _ rfl).2.1 0 0 (by decide) (by decide)
  obtain ⟨m, hs', -, -, hv'⟩ := (h 0 _ _ rfl).2.1 0 1 (by decide) (by decide)
  refine ⟨q0, q1, q2, e, ?_, ?_⟩
  · rw [show (0 : Nat) = 0 + 0 from rfl, hs, hv]
    decide +kernel
  · rw [show sample q0 0 1 = _ from hs', hv']
    decide +kernel

end Jxl
