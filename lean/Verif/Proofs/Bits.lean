import Verif.Spec.Bits
/-! Lemmas on bit strings. -/
namespace Jxl.Spec

@[simp] theorem length_bitsOf (n x : Nat) : (bitsOf n x).length = n := by
  induction n generalizing x with
  | zero => rfl
  | succ n ih => simp [bitsOf, ih]

theorem leVal_bitsOf (n x : Nat) : leVal (bitsOf n x) = x % 2 ^ n := by
  induction n generalizing x with
  | zero => simp [bitsOf, leVal, Nat.mod_one]
  | succ n ih =>
    simp only [bitsOf, leVal, ih]
    rw [Nat.pow_succ, Nat.mul_comm (2 ^ n) 2, Nat.mod_mul]
    rcases Nat.mod_two_eq_zero_or_one x with h | h <;> simp [h]

theorem leVal_bitsOf_of_lt {n x : Nat} (h : x < 2 ^ n) : leVal (bitsOf n x) = x := by
  rw [leVal_bitsOf, Nat.mod_eq_of_lt h]

theorem bitsOf_leVal (l : List Bool) : bitsOf l.length (leVal l) = l := by
  induction l with
  | nil => rfl
  | cons b l ih =>
    simp only [List.length_cons, bitsOf, leVal]
    have h1 : (b.toNat + 2 * leVal l) / 2 = leVal l := by cases b <;> simp <;> omega
    have h2 : (b.toNat + 2 * leVal l) % 2 = b.toNat := by cases b <;> simp <;> omega
    rw [h1, h2, ih]; cases b <;> rfl

theorem leVal_lt (l : List Bool) : leVal l < 2 ^ l.length := by
  induction l with
  | nil => simp [leVal]
  | cons b l ih =>
    simp only [leVal, List.length_cons, Nat.pow_succ]
    have : b.toNat ≤ 1 := by cases b <;> decide
    omega

theorem leVal_append (l m : List Bool) : leVal (l ++ m) = leVal l + 2 ^ l.length * leVal m := by
  induction l with
  | nil => simp [leVal]
  | cons b l ih =>
    simp only [List.cons_append, leVal, ih, List.length_cons, Nat.pow_succ]
    rw [Nat.mul_add, Nat.mul_comm (2 ^ l.length) 2, Nat.mul_assoc]; omega

theorem leVal_inj {l m : List Bool} (hl : l.length = m.length) (h : leVal l = leVal m) : l = m := by
  rw [← bitsOf_leVal l, ← bitsOf_leVal m, hl, h]

theorem leVal_take (n : Nat) (l : List Bool) : leVal (l.take n) = leVal l % 2 ^ n := by
  induction n generalizing l with
  | zero => simp [leVal, Nat.mod_one]
  | succ n ih =>
    cases l with
    | nil => simp [leVal]
    | cons b l =>
      simp only [List.take_succ_cons, leVal, ih]
      rw [Nat.pow_succ, Nat.mul_comm (2 ^ n) 2, Nat.mod_mul]
      have h1 : (b.toNat + 2 * leVal l) / 2 = leVal l := by cases b <;> simp <;> omega
      have h2 : (b.toNat + 2 * leVal l) % 2 = b.toNat := by cases b <;> simp <;> omega
      rw [h1, h2]

theorem leVal_drop (n : Nat) (l : List Bool) : leVal (l.drop n) = leVal l / 2 ^ n := by
  induction n generalizing l with
  | zero => simp
  | succ n ih =>
    cases l with
    | nil => simp [leVal]
    | cons b l =>
      simp only [List.drop_succ_cons, leVal, ih]
      rw [Nat.pow_succ, Nat.mul_comm (2 ^ n) 2, ← Nat.div_div_eq_div_mul]
      have h1 : (b.toNat + 2 * leVal l) / 2 = leVal l := by cases b <;> simp <;> omega
      rw [h1]

theorem bitsOf_get (n x i : Nat) (h : i < n) : (bitsOf n x)[i]? = some (x.testBit i) := by
  induction n generalizing x i with
  | zero => omega
  | succ n ih =>
    cases i with
    | zero => simp [bitsOf, Nat.testBit_zero]; rcases Nat.mod_two_eq_zero_or_one x with h | h <;> simp [h]
    | succ i => simp [bitsOf, ih (x / 2) i (by omega), Nat.testBit_succ]

theorem leVal_bitsOf_byte (b : UInt8) : leVal (bitsOf 8 b.toNat) = b.toNat :=
  leVal_bitsOf_of_lt b.toNat_lt

@[simp] theorem streamBits_nil : streamBits [] = [] := rfl
@[simp] theorem streamBits_cons (b : UInt8) (l : List UInt8) :
    streamBits (b :: l) = bitsOf 8 b.toNat ++ streamBits l := rfl
@[simp] theorem streamBits_append (l m : List UInt8) :
    streamBits (l ++ m) = streamBits l ++ streamBits m := by simp [streamBits]

@[simp] theorem length_streamBits (l : List UInt8) : (streamBits l).length = 8 * l.length := by
  induction l with
  | nil => rfl
  | cons b l ih => simp [ih]; omega

theorem drop_streamBits (l : List UInt8) (k : Nat) : (streamBits l).drop (8 * k) = streamBits (l.drop k) := by
  induction k generalizing l with
  | zero => simp
  | succ k ih =>
    cases l with
    | nil => simp
    | cons b l =>
      have : 8 * (k + 1) = (bitsOf 8 b.toNat).length + 8 * k := by simp; omega
      rw [streamBits_cons, this, List.drop_append]
      simp only [List.drop_succ_cons]
      rw [List.drop_eq_nil_of_le (by simp)]
      simp only [List.nil_append]
      rw [← ih]; congr 1; simp

theorem take_streamBits (l : List UInt8) (k : Nat) : (streamBits l).take (8 * k) = streamBits (l.take k) := by
  induction k generalizing l with
  | zero => simp
  | succ k ih =>
    cases l with
    | nil => simp
    | cons b l =>
      have : 8 * (k + 1) = (bitsOf 8 b.toNat).length + 8 * k := by simp; omega
      rw [streamBits_cons, this, List.take_append]
      simp only [List.take_succ_cons, streamBits_cons]
      rw [List.take_of_length_le (by simp)]
      congr 1
      rw [← ih]; congr 1; simp

end Jxl.Spec
