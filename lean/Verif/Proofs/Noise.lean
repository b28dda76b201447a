import Verif.Spec.Noise
import Verif.Proofs.Blocks
import Verif.Proofs.BlendLoops
import Verif.Proofs.Alias
import Verif.Proofs.Permutation
import Verif.Proofs.Transforms

/-!
# Proofs about the noise of a group
-/
namespace Jxl
open Spec

/-- The generator after `j` random numbers. -/
def Drawn (a b : UInt64) (j : Nat) (s : XorShiro) : Prop :=
  ∃ k p, p ≤ 8 ∧ j + 8 = 8 * k + p ∧ s.pos = p ∧ s.state0 = (List.range 8).map (fun i => (laneState a b i k).1) ∧
    s.state1 = (List.range 8).map (fun i => (laneState a b i k).2) ∧ s.batch.length = 8 ∧ (p < 8 → s.batch = (List.range 8).map (fun i => random a b (8 * (k - 1) + i)))

theorem seedState_ok (a : UInt64) : seedState a = .ok ((List.range 8).map (mixed64 a)) := rfl

theorem newXorShiro_ok (a b : UInt64) : ∃ s, newXorShiro a b = .ok s ∧ Drawn a b 0 s := by
  unfold newXorShiro
  rw [seedState_ok, seedState_ok]
  exact ⟨_, rfl, 0, 8, Nat.le_refl _, rfl, rfl, rfl, rfl, rfl, fun h => absurd h (by decide)⟩

theorem random_lane (a b : UInt64) (k i : Nat) (hi : i < 8) : random a b (8 * k + i) = (laneState a b i k).1 + (laneState a b i k).2 := by
  unfold random
  rw [show (8 * k + i) % 8 = i by omega, show (8 * k + i) / 8 = k by omega]

theorem lanes_ok {s : XorShiro} (f g : Nat → UInt64) (h0 : s.state0 = (List.range 8).map f) (h1 : s.state1 = (List.range 8).map g) (hb : s.batch.length = 8) :
    forFrom XorShiro.lane 8 0 s = .ok ⟨(List.range 8).map g, (List.range 8).map (fun i => (xorshift (f i, g i)).2), (List.range 8).map (fun i => g i + f i), s.pos⟩ := by
  obtain ⟨s0, s1, bt, p⟩ := s
  dsimp only at h0 h1 hb
  subst h0 h1
  match bt, hb with
  | [_, _, _, _, _, _, _, _], _ => rfl

theorem nextLong_ok {a b : UInt64} {j : Nat} {s : XorShiro} (h : Drawn a b j s) : ∃ s', s.nextLong = .ok (random a b j, s') ∧ Drawn a b (j + 1) s' := by
  obtain ⟨k, p, hp, hj, hpos, h0, h1, hb, hbt⟩ := h
  unfold XorShiro.nextLong XorShiro.fillBatch
  by_cases hlt : p < 8
  · rw [if_pos (by omega)]
    show ∃ s', (do let b ← idx s.batch s.pos; Res.ok (b, { s with pos := s.pos + 1 })) = _ ∧ _
    have hk : 1 ≤ k := by omega
    have hx : idx s.batch (s.pos : Int) = .ok (random a b j) := by
      apply idx_of_getElem?
      rw [hbt hlt, hpos, List.getElem?_map, List.getElem?_range (by omega)]
      show some (random a b (8 * (k - 1) + p)) = _
      rw [show 8 * (k - 1) + p = j by omega]
    rw [hx, Res.bind_ok]
    exact ⟨_, rfl, k, p + 1, by omega, by omega, by rw [hpos], h0, h1, hb, fun _ => hbt hlt⟩
  · have hp8 : p = 8 := by omega
    rw [if_neg (by omega), hb, lanes_ok _ _ h0 h1 hb]
    refine ⟨⟨(List.range 8).map (fun i => (laneState a b i k).2), (List.range 8).map (fun i => (xorshift (laneState a b i k)).2),
      (List.range 8).map (fun i => (laneState a b i k).2 + (laneState a b i k).1), 1⟩, ?_, k + 1, 1, by omega, by omega, rfl, rfl, rfl, rfl, fun _ => ?_⟩
    · show Res.ok _ = _
      congr 2
      have := random_lane a b k 0 (by omega)
      rw [show j = 8 * k + 0 by omega, this, UInt64.add_comm]
    · dsimp only
      rw [Nat.add_sub_cancel]
      apply List.map_congr_left
      intro i hi
      rw [random_lane a b k i (List.mem_range.mp hi), UInt64.add_comm]

theorem low_word (l : UInt64) : (l &&& 0xFFFFFFFF).toNat = l.toNat % 2 ^ 32 := by
  rw [UInt64.toNat_and, show (0xFFFFFFFF : UInt64).toNat = 2 ^ 32 - 1 by decide, Nat.and_two_pow_sub_one_eq_mod]

theorem high_word (l : UInt64) : ((l >>> 32) &&& 0xFFFFFFFF).toNat = l.toNat / 2 ^ 32 % 2 ^ 32 := by
  rw [low_word, UInt64.toNat_shiftRight, show (32 : UInt64).toNat % 64 = 32 by decide, Nat.shiftRight_eq_div_pow]

theorem fill_ok {a b : UInt64} {j : Nat} {s : XorShiro} (h : Drawn a b j s) {bits : List Nat} (hb : bits.length % 2 = 0) : ∃ r, s.fill bits = .ok r ∧ Drawn a b (j + bits.length / 2) r.1 ∧
    r.2.length = bits.length ∧ ∀ n, n < bits.length → r.2[n]? = some (randomWord a b (2 * j + n)) := by
  obtain ⟨r, e, h1, h2, h3⟩ := forFrom_inv (f := fun k (p : XorShiro × List Nat) => (do
      let l ← p.1.nextLong
      let b ← setAt p.2 ((2 * k : Nat) : Int) (l.1 &&& 0xFFFFFFFF).toNat
      let b ← setAt b ((2 * k + 1 : Nat) : Int) ((l.1 >>> 32) &&& 0xFFFFFFFF).toNat
      .ok (l.2, b) : Res (XorShiro × List Nat)))
    (fun k p => Drawn a b (j + k) p.1 ∧ p.2.length = bits.length ∧ ∀ n, n < 2 * k → p.2[n]? = some (randomWord a b (2 * j + n))) ((bits.length + 1) / 2) 0 (s, bits)
    ⟨h, rfl, fun n hn => absurd hn (by omega)⟩ (fun k p _ hk hP => by
      obtain ⟨d, hl, hw⟩ := hP
      obtain ⟨s', e1, d'⟩ := nextLong_ok d
      rw [e1, Res.bind_ok]
      dsimp only
      rw [setAt_nat' p.2 (2 * k) _ (by omega), Res.bind_ok, setAt_nat' _ (2 * k + 1) _ (by rw [List.length_set]; omega), Res.bind_ok]
      refine ⟨_, rfl, d', by rw [List.length_set, List.length_set, hl], fun n hn => ?_⟩
      dsimp only
      by_cases h1 : n = 2 * k + 1
      · subst h1
        rw [List.getElem?_set_self (by rw [List.length_set]; omega), high_word]
        unfold randomWord
        rw [show (2 * j + (2 * k + 1)) / 2 = j + k by omega, show (2 * j + (2 * k + 1)) % 2 = 1 by omega]
      · rw [List.getElem?_set_ne (Ne.symm h1)]
        by_cases h0 : n = 2 * k
        · subst h0
          rw [List.getElem?_set_self (by omega), low_word]
          unfold randomWord
          rw [show (2 * j + 2 * k) / 2 = j + k by omega, show (2 * j + 2 * k) % 2 = 0 by omega]
          norm_num
        · rw [List.getElem?_set_ne (Ne.symm h0)]
          exact hw n (by omega))
  refine ⟨r, e, ?_, h2, fun n hn => h3 n (by omega)⟩
  rw [show j + bits.length / 2 = j + (0 + (bits.length + 1) / 2) by omega]
  exact h1

theorem noiseFloat_ok {w : Nat} (hw : w < 2 ^ 32) : noiseFloat w = .fin (noiseNumber w) := by
  have hm : w / 512 < 2 ^ 23 := by omega
  have hu : u32 w = w := Nat.mod_eq_of_lt hw
  have e : (w >>> 9) ||| 0x3f800000 = 2 ^ 23 * 127 + w / 512 := by
    rw [Nat.shiftRight_eq_div_pow, Nat.or_comm, Nat.two_pow_add_eq_or_of_lt hm 127]
  unfold noiseFloat
  rw [hu, e]
  unfold f32Value noiseNumber
  dsimp only
  rw [show (2 ^ 23 * 127 + w / 512) / 2 ^ 31 % 2 = 0 by omega, show (2 ^ 23 * 127 + w / 512) / 2 ^ 23 % 256 = 127 by omega, if_neg (by decide), if_neg (by decide), show (2 ^ 23 * 127 + w / 512) % 2 ^ 23 = w / 2 ^ 9 by omega]
  norm_num

theorem randomWord_lt (a b : UInt64) (n : Nat) : randomWord a b n < 2 ^ 32 := Nat.mod_lt _ (by decide)

/-- The sample of a channel. -/
def cell3 (b : List (List (List F32))) (c y x : Nat) : Option F32 := (b[c]?).bind (fun m => sample m y x)

/-- Three channels of a size. -/
def Planes (H W : Nat) (b : List (List (List F32))) : Prop := b.length = 3 ∧ ∀ m ∈ b, Table H W m

theorem setCell3_ok {H W : Nat} {b : List (List (List F32))} (hb : Planes H W b) {c y x : Nat} (hc : c < 3) (hy : y < H) (hx : x < W) (v : F32) :
    ∃ b', setCell3 b (c : Int) (y : Int) (x : Int) v = .ok b' ∧ Planes H W b' ∧ ∀ d j k, cell3 b' d j k = if d = c ∧ j = y ∧ k = x then some v else cell3 b d j k := by
  obtain ⟨m, hm⟩ : ∃ m, b[c]? = some m := ⟨_, List.getElem?_eq_getElem (by rw [hb.1]; exact hc)⟩
  obtain ⟨m', e, t, v'⟩ := set2_table (hb.2 m (List.mem_of_getElem? hm)) hy hx v
  refine ⟨b.set c m', ?_, ⟨by rw [List.length_set]; exact hb.1, fun n hn => ?_⟩, fun d j k => ?_⟩
  · unfold setCell3
    rw [idx_of_getElem? _ _ _ hm, Res.bind_ok, e, Res.bind_ok, setAt_nat' _ _ _ (by rw [hb.1]; exact hc)]
  · rcases List.mem_or_eq_of_mem_set hn with h | h
    · exact hb.2 n h
    · rw [h]; exact t
  · unfold cell3
    by_cases hd : d = c
    · subst hd
      rw [List.getElem?_set_self (by rw [hb.1]; exact hc), hm]
      show sample m' j k = if d = d ∧ j = y ∧ k = x then some v else sample m j k
      rw [v' j k]
      simp only [true_and]
    · rw [List.getElem?_set_ne (Ne.symm hd), if_neg (fun h => hd h.1)]

theorem noiseWords_ok {H W : Nat} (hH : H < 2 ^ 31) (hW : W < 2 ^ 31) {b : List (List (List F32))} (hb : Planes H W b) {c y x x0 y0 m : Nat} (hc : c < 3) (hy : y0 + y < H)
    (hx : x0 + x + m ≤ W) (hm : 1 ≤ m) {bits : List Nat} (hbits : m ≤ bits.length) {w : Nat} (hw : bits[0]? = some w) :
    ∃ b', forFrom (noiseWord c y x x0 y0 bits) m 0 b = .ok b' ∧ Planes H W b' ∧ cell3 b' c (y0 + y) (x0 + x) = some (noiseFloat w) ∧
      ∀ d j k, ¬ (d = c ∧ j = y0 + y ∧ x0 + x ≤ k ∧ k < x0 + x + m) → cell3 b' d j k = cell3 b d j k := by
  obtain ⟨b', e, h1, h2, h3⟩ := forFrom_inv (f := noiseWord c y x x0 y0 bits)
    (fun i b' => Planes H W b' ∧ (1 ≤ i → cell3 b' c (y0 + y) (x0 + x) = some (noiseFloat w)) ∧
      ∀ d j k, ¬ (d = c ∧ j = y0 + y ∧ x0 + x ≤ k ∧ k < x0 + x + i) → cell3 b' d j k = cell3 b d j k) m 0 b
    ⟨hb, fun h => absurd h (by omega), fun _ _ _ _ => rfl⟩ (fun i b1 _ hi hP => by
      obtain ⟨p, h0, h3⟩ := hP
      obtain ⟨wi, hwi⟩ : ∃ wi, bits[i]? = some wi := ⟨_, List.getElem?_eq_getElem (by omega)⟩
      obtain ⟨b2, e2, p2, v2⟩ := setCell3_ok p hc hy (show x0 + x + i < W by omega) (noiseFloat wi)
      refine ⟨b2, ?_, p2, fun _ => ?_, fun d j k hn => ?_⟩
      · unfold noiseWord
        rw [idx_of_getElem? _ _ _ hwi, Res.bind_ok]
        have a1 : i32 ((y0 : Int) + i32 (y : Int)) = ((y0 + y : Nat) : Int) := by
          rw [i32_in (z := (y : Int)) (by omega) (by omega), i32_in (by omega) (by omega)]
          omega
        have a2 : i32 (i32 ((x0 : Int) + i32 (x : Int)) + i32 (i : Int)) = ((x0 + x + i : Nat) : Int) := by
          rw [i32_in (z := (x : Int)) (by omega) (by omega), i32_in (z := (i : Int)) (by omega) (by omega), i32_in (z := (x0 : Int) + x) (by omega) (by omega),
            i32_in (by omega) (by omega)]
          omega
        rw [a1, a2, e2]
      · rw [v2]
        by_cases hi0 : i = 0
        · subst hi0
          rw [if_pos ⟨rfl, rfl, by omega⟩]
          rw [hw] at hwi
          cases hwi
          rfl
        · rw [if_neg (by omega)]
          exact h0 (by omega)
      · rw [v2, if_neg (by omega)]
        exact h3 d j k (by omega))
  exact ⟨b', e, h1, h2 (by omega), fun d j k hn => h3 d j k (by rwa [Nat.zero_add])⟩

/-- The group after `n` steps. -/
structure Noisy (a b : UInt64) (H W x0 y0 w h : Nat) (old : List (List (List F32))) (n : Nat) (s : NoiseState) : Prop where
  rng : Drawn a b (8 * n) s.rng
  bits : s.bits.length = 16
  planes : Planes H W s.buffer
  done : ∀ c y x, c < 3 → y < h → x < w → (c * h + y) * w + x < n →
    cell3 s.buffer c (y0 + y) (x0 + x) = some (.fin (noiseNumber (randomWord a b (16 * ((c * h + y) * w + x)))))
  rest : ∀ c y x, ¬ (y0 ≤ y ∧ y < y0 + h ∧ x0 ≤ x ∧ x < x0 + w) → cell3 s.buffer c y x = cell3 old c y x

theorem noiseStep_ok {a b : UInt64} {H W x0 y0 w h : Nat} (hH : H < 2 ^ 31) (hW : W < 2 ^ 31) (hh : y0 + h ≤ H) (hw : x0 + w ≤ W) {old : List (List (List F32))} {c y x : Nat} (hc : c < 3)
    (hy : y < h) (hx : x < w) {s : NoiseState} (hs : Noisy a b H W x0 y0 w h old ((c * h + y) * w + x) s) :
    ∃ s', noiseStep w x0 y0 c y x s = .ok s' ∧ Noisy a b H W x0 y0 w h old ((c * h + y) * w + x + 1) s' := by
  obtain ⟨r, e1, d1, l1, w1⟩ := fill_ok hs.rng (bits := s.bits) (by rw [hs.bits])
  rw [hs.bits] at d1 l1 w1
  have hw0 := w1 0 (by decide)
  obtain ⟨b', e2, p2, v2, k2⟩ := noiseWords_ok hH hW hs.planes (x0 := x0) (y0 := y0) (m := min 16 (w - x)) hc (show y0 + y < H by omega) (show x0 + x + min 16 (w - x) ≤ W by omega)
    (by omega) (show min 16 (w - x) ≤ r.2.length by omega) hw0
  refine ⟨⟨r.1, r.2, b'⟩, ?_, ⟨by rw [show 8 * ((c * h + y) * w + x + 1) = 8 * ((c * h + y) * w + x) + 16 / 2 by omega]; exact d1, l1, p2, fun c' y' x' hc' hy' hx' hn => ?_,
    fun d j k hn => ?_⟩⟩
  · unfold noiseStep
    rw [e1, Res.bind_ok, e2, Res.bind_ok]
  · by_cases he : c' = c ∧ y' = y ∧ x' = x
    · obtain ⟨rfl, rfl, rfl⟩ := he
      show cell3 b' _ _ _ = _
      rw [v2, noiseFloat_ok (randomWord_lt _ _ _), show 2 * (8 * ((c' * h + y') * w + x')) + 0 = 16 * ((c' * h + y') * w + x') by omega]
    · have hlt : (c' * h + y') * w + x' < (c * h + y) * w + x := by
        rcases Nat.lt_or_ge ((c' * h + y') * w + x') ((c * h + y) * w + x) with hl | hg
        · exact hl
        · exfalso
          have heq : (c' * h + y') * w + x' = (c * h + y) * w + x := by omega
          have hrow : c' * h + y' = c * h + y := by
            have h1 : ((c' * h + y') * w + x') / w = c' * h + y' := by
              rw [Nat.mul_comm, Nat.mul_add_div (by omega), Nat.div_eq_of_lt hx', Nat.add_zero]
            have h2 : ((c * h + y) * w + x) / w = c * h + y := by
              rw [Nat.mul_comm, Nat.mul_add_div (by omega), Nat.div_eq_of_lt hx, Nat.add_zero]
            rw [← h1, ← h2, heq]
          have hcc : c' = c := by
            have h1 : (c' * h + y') / h = c' := by
              rw [Nat.mul_comm, Nat.mul_add_div (by omega), Nat.div_eq_of_lt hy', Nat.add_zero]
            have h2 : (c * h + y) / h = c := by
              rw [Nat.mul_comm, Nat.mul_add_div (by omega), Nat.div_eq_of_lt hy, Nat.add_zero]
            rw [← h1, ← h2, hrow]
          subst hcc
          rw [hrow] at heq
          exact he ⟨rfl, by omega, by omega⟩
      show cell3 b' _ _ _ = _
      rw [k2]
      · exact hs.done c' y' x' hc' hy' hx' hlt
      · rintro ⟨rfl, hj, hk, -⟩
        have : y' = y := by omega
        subst this
        omega
  · show cell3 b' _ _ _ = _
    rw [k2 d j k (by omega)]
    exact hs.rest d j k hn

theorem noiseSize_ok {g side start : Nat} (hs : side < 2 ^ 31) (h : start ≤ side) : noiseSize g side start = min g (side - start) := by
  have e : u32 (side + 4294967296 - toU32 (start : Int)) = side - start := by
    unfold u32 toU32
    omega
  unfold noiseSize
  rw [e]

theorem noiseGroup_ok {a b : UInt64} {g W H x0 y0 : Nat} {seed : Int} (ha : a = UInt64.ofInt seed) (hb : b = UInt64.ofInt x0 <<< 32 ||| UInt64.ofInt y0) (hH : H < 2 ^ 31)
    (hW : W < 2 ^ 31) (hx : x0 ≤ W) (hy : y0 ≤ H) {old : List (List (List F32))} (ho : Planes H W old) :
    ∃ s, noiseGroup g W H seed old x0 y0 = .ok s.buffer ∧ Noisy a b H W x0 y0 (min g (W - x0)) (min g (H - y0)) old (3 * min g (H - y0) * min g (W - x0)) s := by
  subst ha hb
  obtain ⟨rng, e0, d0⟩ := newXorShiro_ok (UInt64.ofInt seed) (UInt64.ofInt x0 <<< 32 ||| UInt64.ofInt y0)
  have hw : x0 + min g (W - x0) ≤ W := by omega
  have hh : y0 + min g (H - y0) ≤ H := by omega
  unfold noiseGroup
  rw [e0, Res.bind_ok, noiseSize_ok hW hx, noiseSize_ok hH hy]
  generalize min g (W - x0) = w at *
  generalize min g (H - y0) = h at *
  generalize UInt64.ofInt seed = a at *
  generalize UInt64.ofInt x0 <<< 32 ||| UInt64.ofInt y0 = b at *
  obtain ⟨s, e, hs⟩ := forFrom_inv (f := fun c s => forFrom (fun y s => forFrom (fun x s => noiseStep w x0 y0 c y x s) w 0 s) h 0 s)
    (fun c s => Noisy a b H W x0 y0 w h old (c * h * w) s) 3 0 ⟨rng, List.replicate 16 0, old⟩
    ⟨by rw [Nat.zero_mul, Nat.zero_mul]; exact d0, rfl, ho, fun _ _ _ _ _ _ hn => absurd hn (by omega), fun _ _ _ _ => rfl⟩ (fun c s _ hc hs => by
      obtain ⟨s', e, hs'⟩ := forFrom_inv (f := fun y s => forFrom (fun x s => noiseStep w x0 y0 c y x s) w 0 s)
        (fun y s => Noisy a b H W x0 y0 w h old ((c * h + y) * w) s) h 0 s (by rwa [Nat.add_zero]) (fun y s _ hy hs => by
          obtain ⟨s', e, hs'⟩ := forFrom_inv (f := fun x s => noiseStep w x0 y0 c y x s) (fun x s => Noisy a b H W x0 y0 w h old ((c * h + y) * w + x) s) w 0 s hs
            (fun x s _ hx hs => noiseStep_ok hH hW hh hw (by omega) (by omega) (by omega) hs)
          refine ⟨s', e, ?_⟩
          rw [Nat.zero_add] at hs'
          rw [← Nat.add_assoc, Nat.add_mul, Nat.one_mul]
          exact hs')
      refine ⟨s', e, ?_⟩
      rw [Nat.zero_add] at hs'
      rw [Nat.add_mul, Nat.one_mul]
      exact hs')
  exact ⟨s, by rw [e, Res.bind_ok], hs⟩

end Jxl
