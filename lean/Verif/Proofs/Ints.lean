import Verif.Proofs.Reads
/-! Lemmas on the variable-length integer readers. -/
namespace Jxl
open Spec

theorem Implements.congr_dec {α : Type} {m : Rd α} {d d' : Dec α} (h : Implements m d) (hd : ∀ l, d l = d' l) :
    Implements m d' := by
  have : d = d' := funext hd
  rwa [← this]

theorem Implements.congr_rd {α : Type} {m m' : Rd α} {d : Dec α} (h : Implements m d) (hm : ∀ s, m s = m' s) :
    Implements m' d := by
  have : m = m' := funext hm
  rwa [← this]

/-- Bind where the continuation only has to be correct on results `f` can produce. -/
theorem Implements.bind' {α β : Type} {m : Rd α} {f : α → Rd β} {d : Dec α} {e : α → Dec β} (P : α → Prop)
    (h1 : Implements m d) (hP : ∀ l a r, d l = some (a, r) → P a)
    (h2 : ∀ a, P a → Implements (f a) (e a)) : Implements (m >>= f) (d >>= e) := by
  intro s p h
  have a1 := h1 s p h
  show match (match d (bitsFrom s.data p) with | some (a, r) => e a r | none => none) with
    | some (a, r) => _ | none => _
  cases hd : d (bitsFrom s.data p) with
  | none =>
    rw [hd] at a1
    simp only at a1 ⊢
    rw [Rd.bind_eq]
    split <;> rename_i heq <;> simp_all
  | some x =>
    obtain ⟨a, r⟩ := x
    have hPa := hP _ _ _ hd
    rw [hd] at a1
    simp only at a1 ⊢
    obtain ⟨s', p', e1, e2, e3, e4, e5⟩ := a1
    have a2 := h2 a hPa s' p' e2
    rw [Rd.bind_ok e1]
    rw [e3, ← e4] at a2
    cases he : e a r with
    | none => rw [he] at a2; exact a2
    | some y =>
      obtain ⟨b, r2⟩ := y
      rw [he] at a2
      simp only at a2 ⊢
      obtain ⟨s2, p2, f1, f2, f3, f4, f5⟩ := a2
      exact ⟨s2, p2, f1, f2, by rw [f3], f4, by omega⟩

theorem decBits_lt {n : Nat} {l r : List Bool} {v : Nat} (h : decBits n l = some (v, r)) : v < 2 ^ n := by
  unfold decBits at h
  split at h
  · rename_i hle
    simp only [Option.some.injEq, Prod.mk.injEq] at h
    rw [← h.1]
    have := leVal_lt (l.take n)
    rwa [List.length_take, Nat.min_eq_left hle] at this
  · cases h

theorem implements_u32 (d : Fin 4 → Nat × Nat) (hu : ∀ k, (d k).2 ≤ 64) :
    Implements (readU32 (d 0).1 (d 0).2 (d 1).1 (d 1).2 (d 2).1 (d 2).2 (d 3).1 (d 3).2) (decU32 d) := by
  unfold readU32 decU32
  refine Implements.bind' (fun v => v < 2 ^ 2) (implements_bits 2 (by decide)) (fun _ _ _ h => decBits_lt h) ?_
  intro sel hsel
  have key : ∀ k : Fin 4, Implements (do
      let b ← readBits (u32 (d k).2)
      return u32 (u32 (d k).1 + u32 b)) (do
      let v ← decBits (d k).2
      return ((d k).1 + v) % 2 ^ 32) := by
    intro k
    have hk := hu k
    have : u32 (d k).2 = (d k).2 := by simp only [u32]; omega
    rw [this]
    refine Implements.bind (implements_bits _ hk) ?_
    intro v
    have e : u32 (u32 (d k).1 + u32 v) = ((d k).1 + v) % 2 ^ 32 := by simp only [u32]; omega
    rw [e]
    exact Implements.pure _
  have h4 : sel = 0 ∨ sel = 1 ∨ sel = 2 ∨ sel = 3 := by omega
  rcases h4 with rfl | rfl | rfl | rfl
  · exact key 0
  · exact key 1
  · exact key 2
  · exact key 3

theorem implements_enum : Implements readEnum decEnum := by
  unfold readEnum decEnum
  refine Implements.bind (implements_u32
    (fun k => match k with | 0 => (0, 0) | 1 => (1, 0) | 2 => (2, 4) | 3 => (18, 6)) ?_) ?_
  · intro k; match k with | 0 | 1 | 2 | 3 => simp
  · intro v
    by_cases h : v ≤ 63
    · simp only [h, if_true, show ¬ 63 < v by omega, if_false]; exact Implements.pure _
    · simp only [h, if_false, show 63 < v by omega, if_true]; exact Implements.fail

theorem implements_u8 : Implements readU8 decU8 := by
  unfold readU8 decU8
  refine Implements.bind implements_bool ?_
  intro b
  cases b with
  | false => simp only [if_true, Bool.false_eq_true, if_false]; exact Implements.pure _
  | true =>
    simp only [Bool.true_eq_false, if_false, if_true]
    refine Implements.bind' (fun v => v < 2 ^ 3) (implements_bits 3 (by decide)) (fun _ _ _ h => decBits_lt h) ?_
    intro n hn
    by_cases h0 : n = 0
    · subst h0
      simp only [if_true]
      refine (Implements.pure 1).congr_dec ?_
      intro l
      simp [Dec.bind_eq, decBits, leVal]
    · simp only [h0, if_false]
      refine Implements.bind (implements_bits n (by omega)) ?_
      intro v
      rw [Nat.one_shiftLeft]
      exact Implements.pure _

theorem implements_u64Loop (fuel : Nat) : ∀ (k value : Nat), k + 8 * fuel = 68 → k ≤ 60 → value < 2 ^ k →
    Implements (readU64Loop k value) (decU64Tail fuel k value) := by
  induction fuel with
  | zero =>
    intro k value hk hk12 hv
    exfalso
    omega
  | succ fuel ih =>
    intro k value hk hk12 hv
    rw [decU64Tail]
    have hrw : ∀ s, (do
        let b ← readBool
        if b = true then
          if k = 60 then do
            let d ← readBits 4
            return (value ||| u64 (d <<< k))
          else if 60 < k then Rd.crash else do
            let d ← readBits 8
            readU64Loop (k + 8) (value ||| u64 (d <<< k))
        else return value : Rd Nat) s = readU64Loop k value s := by
      intro s
      conv => rhs; unfold readU64Loop
      simp only [Rd.bind_eq]
      rcases readBool s with ⟨r, s1⟩
      cases r with
      | err => rfl
      | panic => rfl
      | ok b =>
        cases b with
        | false => rfl
        | true =>
          simp only [if_true, Bool.true_eq_false, if_false]
          by_cases h60 : k = 60
          · simp only [h60, if_true, Rd.bind_eq]
            rcases readBits 4 s1 with ⟨r, s2⟩
            cases r <;> rfl
          · simp only [h60, if_false]
            by_cases h60' : 60 < k
            · simp only [h60', if_true]; rfl
            · simp only [h60', if_false, Rd.bind_eq]
              rcases readBits 8 s1 with ⟨r, s2⟩
              cases r <;> rfl
    refine Implements.congr_rd ?_ hrw
    refine Implements.bind implements_bool ?_
    intro b
    cases b with
    | false => simp only [Bool.false_eq_true, if_false]; exact Implements.pure _
    | true =>
      simp only [if_true]
      have shl : ∀ j w, j ≤ 8 → w < 2 ^ j → k + j ≤ 64 → value ||| u64 (w <<< k) = value + 2 ^ k * w := by
        intro j w hj hw hkj
        have hlt : w <<< k < 2 ^ 64 := by
          rw [Nat.shiftLeft_eq]
          calc w * 2 ^ k < 2 ^ j * 2 ^ k := Nat.mul_lt_mul_of_pos_right hw (Nat.two_pow_pos _)
            _ = 2 ^ (j + k) := (Nat.pow_add ..).symm
            _ ≤ 2 ^ 64 := Nat.pow_le_pow_right (by decide) (by omega)
        have : u64 (w <<< k) = w <<< k := Nat.mod_eq_of_lt hlt
        rw [this, or_shift hv]
      by_cases h60 : k = 60
      · simp only [h60, if_true]
        refine Implements.bind' (fun v => v < 2 ^ 4) (implements_bits 4 (by decide)) (fun _ _ _ h => decBits_lt h) ?_
        intro w hw
        have := shl 4 w (by decide) hw (by omega)
        rw [h60] at this
        rw [this]
        exact Implements.pure _
      · have h60' : ¬ 60 < k := by omega
        simp only [h60, if_false, h60']
        refine Implements.bind' (fun v => v < 2 ^ 8) (implements_bits 8 (by decide)) (fun _ _ _ h => decBits_lt h) ?_
        intro w hw
        rw [shl 8 w (by decide) hw (by omega)]
        apply ih
        · omega
        · omega
        · rw [Nat.pow_add]
          have : 2 ^ k * (w + 1) ≤ 2 ^ k * 2 ^ 8 := Nat.mul_le_mul_left _ hw
          rw [Nat.mul_add] at this; omega

theorem implements_u64 : Implements readU64 decU64 := by
  unfold readU64 decU64
  refine Implements.bind (implements_bits 2 (by decide)) ?_
  intro sel
  refine Implements.ite (fun _ => Implements.pure _) (fun _ => ?_)
  refine Implements.ite (fun _ => ?_) (fun _ => ?_)
  · refine Implements.bind' (fun v => v < 2 ^ 4) (implements_bits 4 (by decide)) (fun _ _ _ h => decBits_lt h) ?_
    intro v hv
    have : u64 (1 + v) = 1 + v := by simp only [u64]; omega
    rw [this]; exact Implements.pure _
  refine Implements.ite (fun _ => ?_) (fun _ => ?_)
  · refine Implements.bind' (fun v => v < 2 ^ 8) (implements_bits 8 (by decide)) (fun _ _ _ h => decBits_lt h) ?_
    intro v hv
    have : u64 (17 + v) = 17 + v := by simp only [u64]; omega
    rw [this]; exact Implements.pure _
  · refine Implements.bind' (fun v => v < 2 ^ 12) (implements_bits 12 (by decide)) (fun _ _ _ h => decBits_lt h) ?_
    intro v hv
    exact implements_u64Loop 7 12 v (by decide) (by decide) hv

/-! ### Round trips with the encoders -/

theorem decU64Tail_enc (fuel : Nat) : ∀ (k value hi : Nat) (r : List Bool), k + 8 * fuel = 68 → k ≤ 60 →
    value < 2 ^ k → value + 2 ^ k * hi < 2 ^ 64 →
    decU64Tail fuel k value (encU64Tail fuel k hi ++ r) = some (value + 2 ^ k * hi, r) := by
  induction fuel with
  | zero => intro k value hi r h1 h2; omega
  | succ fuel ih =>
    intro k value hi r h1 h2 h3 h4
    rw [decU64Tail, encU64Tail]
    by_cases h0 : hi = 0
    · simp [h0, Dec.bind_eq, decBool, Dec.pure_eq]
    · simp only [h0, if_false]
      by_cases h60 : k = 60
      · subst h60
        have : hi < 2 ^ 4 := by omega
        simp only [if_true, List.cons_append, Dec.bind_eq, decBool, decBits_append 4 hi this, Dec.pure_eq]
      · simp only [h60, if_false, List.cons_append, List.append_assoc, Dec.bind_eq, decBool, if_true,
          decBits_append 8 (hi % 256) (Nat.mod_lt _ (by decide))]
        have hp : 2 ^ (k + 8) = 2 ^ k * 256 := by rw [Nat.pow_add]
        have key : value + 2 ^ k * (hi % 256) + 2 ^ (k + 8) * (hi / 256) = value + 2 ^ k * hi := by
          have := Nat.mod_add_div hi 256
          rw [hp, Nat.mul_assoc, Nat.add_assoc, ← Nat.mul_add, this]
        rw [ih (k + 8) _ _ r (by omega) (by omega)]
        · rw [key]
        · rw [hp]
          have hm : hi % 256 < 256 := Nat.mod_lt _ (by decide)
          have : 2 ^ k * (hi % 256 + 1) ≤ 2 ^ k * 256 := Nat.mul_le_mul_left _ hm
          rw [Nat.mul_add] at this; omega
        · rw [key]; exact h4

theorem decU64_enc (v : Nat) (hv : v < 2 ^ 64) (r : List Bool) : decU64 (encU64 v ++ r) = some (v, r) := by
  unfold decU64 encU64
  by_cases h0 : v = 0
  · subst h0
    simp only [if_true, Dec.bind_eq, decBits_append 2 0 (by decide), Dec.pure_eq]
  simp only [h0, if_false]
  by_cases h1 : v ≤ 16
  · simp only [h1, if_true, List.append_assoc, Dec.bind_eq, decBits_append 2 1 (by decide),
      decBits_append 4 (v - 1) (by omega), Dec.pure_eq, if_false, Nat.one_ne_zero]
    simp; omega
  simp only [h1, if_false]
  by_cases h2 : v ≤ 272
  · simp only [h2, if_true, List.append_assoc, Dec.bind_eq, decBits_append 2 2 (by decide), if_false,
      show ¬ (2 = 0) by decide, show ¬ (2 = 1) by decide, decBits_append 8 (v - 17) (by omega), Dec.pure_eq]
    simp; omega
  · simp only [h2, if_false, List.append_assoc, Dec.bind_eq, decBits_append 2 3 (by decide),
      show ¬ (3 = 0) by decide, show ¬ (3 = 1) by decide, show ¬ (3 = 2) by decide,
      decBits_append 12 (v % 4096) (Nat.mod_lt _ (by decide))]
    have := Nat.mod_add_div v 4096
    rw [decU64Tail_enc 7 12 (v % 4096) (v / 4096) r (by decide) (by decide) (Nat.mod_lt _ (by decide)) (by omega)]
    simp only [Option.some.injEq, Prod.mk.injEq, and_true]; omega

theorem decU8_enc (v : Nat) (hv : v < 256) (r : List Bool) : decU8 (encU8 v ++ r) = some (v, r) := by
  unfold decU8 encU8
  by_cases h0 : v = 0
  · simp [h0, Dec.bind_eq, decBool, Dec.pure_eq]
  · have hl : Nat.log2 v < 8 := (Nat.log2_lt h0).2 hv
    have h1 := Nat.log2_self_le h0
    have h2 := Nat.lt_log2_self (n := v)
    rw [Nat.pow_succ] at h2
    simp only [h0, if_false, List.cons_append, List.append_assoc, Dec.bind_eq, decBool, if_true,
      decBits_append 3 (Nat.log2 v) hl, decBits_append (Nat.log2 v) (v - 2 ^ Nat.log2 v) (by omega), Dec.pure_eq]
    simp; omega

/-- What `ReadICCVarint` does on the bytes of an encoded value. -/
theorem readICCVarintLoop_enc (v : Nat) : ∀ (i value : Nat) (s : BR) (p : Nat), AtBit s p →
    (encVarint v).flatMap (bitsOf 8) <+: bitsFrom s.data p → (i = 0 ∨ 0 < v) →
    value < 2 ^ (7 * i) → value + 2 ^ (7 * i) * v < 2 ^ 32 →
    ∃ s', readICCVarintLoop i value s = (.ok (value + 2 ^ (7 * i) * v), s') ∧
      AtBit s' (p + 8 * (encVarint v).length) ∧ s'.data = s.data := by
  have hidx : ∀ i v value : Nat, (i = 0 ∨ 0 < v) → value + 2 ^ (7 * i) * v < 2 ^ 32 → 7 * i < 63 := by
    intro i v value h0 h2
    rcases h0 with h | h
    · omega
    · rcases Nat.lt_or_ge (7 * i) 63 with h3 | h3
      · exact h3
      · exfalso
        have : 2 ^ 63 ≤ 2 ^ (7 * i) := Nat.pow_le_pow_right (by decide) h3
        have : 2 ^ (7 * i) * 1 ≤ 2 ^ (7 * i) * v := Nat.mul_le_mul_left _ h
        omega
  have hstep : ∀ i value w : Nat, value < 2 ^ (7 * i) → value + 2 ^ (7 * i) * w < 2 ^ 32 →
      value ||| u32 (w <<< (7 * i)) = value + 2 ^ (7 * i) * w := by
    intro i value w h1 h2
    have : u32 (w <<< (7 * i)) = w <<< (7 * i) := by
      apply Nat.mod_eq_of_lt
      rw [Nat.shiftLeft_eq, Nat.mul_comm]; omega
    rw [this, or_shift h1]
  fun_induction encVarint v with
  | case1 v hv =>
    intro i value s p hs hp h0 h1 h2
    have hi := hidx i v value h0 h2
    simp only [List.flatMap_cons, List.flatMap_nil, List.append_nil] at hp
    obtain ⟨s', e1, e2, e3⟩ := reads_bitsOf 8 v (by decide) (by omega) s p hs hp
    refine ⟨s', ?_, by simpa using e2, e3⟩
    unfold readICCVarintLoop
    simp only [show ¬ 63 ≤ 7 * i by omega, if_false, e1, show v ≤ 127 by omega, if_true]
    have : v &&& 127 = v := by
      rw [show (127 : Nat) = 2 ^ 7 - 1 by decide, Nat.and_two_pow_sub_one_eq_mod]; omega
    rw [this, hstep i value v h1 h2]
  | case2 v hv ih =>
    intro i value s p hs hp h0 h1 h2
    have hi := hidx i v value h0 h2
    simp only [List.flatMap_cons] at hp
    obtain ⟨hp1, hp2⟩ := prefix_append_split hp
    obtain ⟨s', e1, e2, e3⟩ := reads_bitsOf 8 (128 + v % 128) (by decide) (by omega) s p hs hp1
    have hand : (128 + v % 128) &&& 127 = v % 128 := by
      rw [show (127 : Nat) = 2 ^ 7 - 1 by decide, Nat.and_two_pow_sub_one_eq_mod]; omega
    have hdm := Nat.mod_add_div v 128
    have hp7 : 2 ^ (7 * (i + 1)) = 2 ^ (7 * i) * 128 := by rw [Nat.mul_add, Nat.pow_add]
    have key : value + 2 ^ (7 * i) * (v % 128) + 2 ^ (7 * (i + 1)) * (v / 128) = value + 2 ^ (7 * i) * v := by
      rw [hp7, Nat.mul_assoc, Nat.add_assoc, ← Nat.mul_add, hdm]
    have hb : value + 2 ^ (7 * i) * (v % 128) < 2 ^ (7 * (i + 1)) := by
      rw [hp7]
      have hm : v % 128 < 128 := Nat.mod_lt _ (by decide)
      have : 2 ^ (7 * i) * (v % 128 + 1) ≤ 2 ^ (7 * i) * 128 := Nat.mul_le_mul_left _ hm
      rw [Nat.mul_add] at this; omega
    rw [bitsFrom_drop, length_bitsOf, ← e3] at hp2
    simp only [length_bitsOf] at e2
    obtain ⟨s2, f1, f2, f3⟩ := ih (i + 1) (value + 2 ^ (7 * i) * (v % 128)) s' (p + 8) e2 hp2
      (Or.inr (by omega)) hb (by rw [key]; exact h2)
    refine ⟨s2, ?_, ?_, by rw [f3, e3]⟩
    · unfold readICCVarintLoop
      simp only [show ¬ 63 ≤ 7 * i by omega, if_false, e1, show ¬ (128 + v % 128 ≤ 127) by omega, hand]
      have hle : 2 ^ (7 * i) * (v % 128) ≤ 2 ^ (7 * i) * v := Nat.mul_le_mul_left _ (Nat.mod_le _ _)
      rw [hstep i value (v % 128) h1 (by omega), f1, key]
    · simp only [List.length_cons]
      have : p + 8 * ((encVarint (v / 128)).length + 1) = p + 8 + 8 * (encVarint (v / 128)).length := by omega
      rw [this]; exact f2

end Jxl
