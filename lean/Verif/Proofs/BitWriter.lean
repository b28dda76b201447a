import Verif.Model.BitWriter
import Verif.Proofs.Reads
/-! Lemmas on the bit writer. -/
namespace Jxl
open Spec

/-- The bits written so far. -/
def BW.out (w : BW) : List Bool := streamBits w.data ++ bitsOf w.bits w.curr

/-- Writer invariant. -/
def BW.Ok (w : BW) : Prop := w.bits < 8 ∧ w.curr < 2 ^ w.bits

theorem bitsOf_append_one (n x b : Nat) (hx : x < 2 ^ n) (hb : b < 2) :
    bitsOf (n + 1) (x + 2 ^ n * b) = bitsOf n x ++ [b == 1] := by
  apply leVal_inj
  · simp
  · rw [leVal_bitsOf_of_lt, leVal_append, leVal_bitsOf_of_lt hx, length_bitsOf]
    · have : b = 0 ∨ b = 1 := by omega
      rcases this with rfl | rfl <;> simp [leVal]
    · rw [Nat.pow_succ]
      have : 2 ^ n * b ≤ 2 ^ n * 1 := Nat.mul_le_mul_left _ (by omega)
      omega

theorem BW.writeBit_out (w : BW) (b : Nat) (h : w.Ok) (hb : b < 2) :
    (w.writeBit b).Ok ∧ (w.writeBit b).out = w.out ++ [b == 1] := by
  obtain ⟨h8, hc⟩ := h
  have hcurr : (if b ≠ 0 then w.curr ||| u8 (1 <<< w.bits) else w.curr) = w.curr + 2 ^ w.bits * b := by
    have hb2 : b = 0 ∨ b = 1 := by omega
    rcases hb2 with rfl | rfl
    · simp
    · have : u8 (1 <<< w.bits) = 1 <<< w.bits := by
        apply Nat.mod_eq_of_lt
        rw [Nat.one_shiftLeft]
        calc 2 ^ w.bits < 2 ^ 8 := Nat.pow_lt_pow_right (by decide) h8
          _ = 256 := rfl
      simp only [ne_eq, Nat.one_ne_zero, not_false_eq_true, if_true, this]
      rw [or_shift hc]
  have hlt : w.curr + 2 ^ w.bits * b < 2 ^ (w.bits + 1) := by
    rw [Nat.pow_succ]
    have : 2 ^ w.bits * b ≤ 2 ^ w.bits * 1 := Nat.mul_le_mul_left _ (by omega)
    omega
  unfold BW.writeBit
  simp only [hcurr]
  by_cases h7 : w.bits + 1 = 8
  · have hb7 : w.bits = 7 := by omega
    simp only [h7, if_true]
    refine ⟨⟨by simp, by simp⟩, ?_⟩
    simp only [BW.out, streamBits_append, streamBits_cons, streamBits_nil, List.append_nil]
    rw [List.append_assoc (streamBits w.data) (bitsOf w.bits w.curr), ← bitsOf_append_one _ _ _ hc hb]
    rw [h7] at hlt ⊢
    have : (UInt8.ofNat (w.curr + 2 ^ w.bits * b)).toNat = w.curr + 2 ^ w.bits * b := by
      simp only [UInt8.toNat_ofNat']
      exact Nat.mod_eq_of_lt hlt
    rw [this]
    simp [bitsOf]
  · simp only [h7, if_false]
    refine ⟨⟨by simp only; omega, by simp only; exact hlt⟩, ?_⟩
    simp only [BW.out]
    rw [bitsOf_append_one _ _ _ hc hb, List.append_assoc]

theorem BW.writeBitsLoop_out (k : Nat) : ∀ (w : BW) (val i : Nat), w.Ok →
    (w.writeBitsLoop val i k).Ok ∧ (w.writeBitsLoop val i k).out = w.out ++ bitsOf k (val >>> i) := by
  induction k with
  | zero => intro w val i h; exact ⟨h, by simp [BW.writeBitsLoop, bitsOf]⟩
  | succ k ih =>
    intro w val i h
    have h1 : (val >>> i) &&& 1 = (val >>> i) % 2 := Nat.and_one_is_mod _
    have hw := BW.writeBit_out w ((val >>> i) &&& 1) h (by rw [h1]; exact Nat.mod_lt _ (by decide))
    obtain ⟨a, b⟩ := ih (w.writeBit ((val >>> i) &&& 1)) val (i + 1) hw.1
    refine ⟨a, ?_⟩
    rw [BW.writeBitsLoop, b, hw.2, List.append_assoc, h1]
    simp [bitsOf, Nat.shiftRight_succ]

theorem BW.writeBits_out (w : BW) (val n : Nat) (h : w.Ok) :
    (w.writeBits val n).Ok ∧ (w.writeBits val n).out = w.out ++ bitsOf n val := by
  have := BW.writeBitsLoop_out n w val 0 h
  simpa [BW.writeBits] using this

theorem BW.bytes_out (w : BW) (h : w.Ok) : ∃ pad, streamBits w.bytes = w.out ++ pad ∧ pad.length < 8 := by
  obtain ⟨h8, hc⟩ := h
  unfold BW.bytes BW.out
  by_cases h0 : 0 < w.bits
  · simp only [h0, if_true, streamBits_append, streamBits_cons, streamBits_nil, List.append_nil]
    have hlt : w.curr < 256 := Nat.lt_of_lt_of_le hc (Nat.pow_le_pow_right (by decide) (by omega : w.bits ≤ 8))
    have : (UInt8.ofNat w.curr).toNat = w.curr := by
      simp only [UInt8.toNat_ofNat']; exact Nat.mod_eq_of_lt hlt
    rw [this]
    refine ⟨List.replicate (8 - w.bits) false, ?_, by simp; omega⟩
    rw [List.append_assoc]
    congr 1
    apply leVal_inj
    · simp; omega
    · rw [leVal_bitsOf_of_lt (by omega), leVal_append, leVal_bitsOf_of_lt hc]
      have : ∀ n, leVal (List.replicate n false) = 0 := by
        intro n; induction n with
        | zero => rfl
        | succ n ih => simp [List.replicate_succ, leVal, ih]
      simp [this]
  · have : w.bits = 0 := by omega
    simp only [this]
    exact ⟨[], by simp [bitsOf], by simp⟩

theorem BW.new_ok : BW.new.Ok := ⟨by decide, by decide⟩
theorem BW.new_out : BW.new.out = [] := rfl

theorem u8Exp_spec (val n : Nat) (h : 2 ^ n ≤ val) : 2 ^ u8Exp val n ≤ val ∧ val < 2 ^ (u8Exp val n + 1) := by
  fun_induction u8Exp val n with
  | case1 n hle ih => rw [Nat.one_shiftLeft] at hle; exact ih hle
  | case2 n hle => rw [Nat.one_shiftLeft] at hle; exact ⟨h, by omega⟩

end Jxl
