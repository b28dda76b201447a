import Verif.Model.VLC
import Verif.Spec.Canonical
import Verif.Proofs.Skip
import Verif.Proofs.ReadsPad
/-! Proofs about prefix-code tables (C10, C11). -/
namespace Jxl
open Spec

/-- Entries `(length, symbol)`, the first one starting at `a` (in units of 2^-b of the code space): the triples that
the first loop computes. -/
def codesFrom (b a : Nat) : List (Nat × Int) → List (Nat × Nat × Int)
  | [] => []
  | (len, sym) :: r => (a * 2 ^ (32 - b), len, sym) :: codesFrom b (a + 2 ^ (b - len)) r

/-- The end of the code space used. -/
def spaceEnd (b a : Nat) : List (Nat × Int) → Nat
  | [] => a
  | (len, _) :: r => spaceEnd b (a + 2 ^ (b - len)) r

theorem spaceEnd_ge (b a : Nat) (es : List (Nat × Int)) : a ≤ spaceEnd b a es := by
  induction es generalizing a with
  | nil => exact Nat.le_refl _
  | cons e r ih => exact Nat.le_trans (Nat.le_add_right _ _) (ih _)

theorem spaceEnd_eq (b a : Nat) (es : List (Nat × Int)) :
    spaceEnd b a es = a + ((es.map (·.1)).map fun l => 2 ^ (b - l)).sum := by
  induction es generalizing a with
  | nil => simp [spaceEnd]
  | cons e r ih => obtain ⟨l, s⟩ := e; simp [spaceEnd, ih, Nat.add_assoc]

/-! ### Reversal -/

theorem bitsOf_zero (n : Nat) : bitsOf n 0 = List.replicate n false := by
  induction n with
  | zero => rfl
  | succ n ih => simp [bitsOf, ih, List.replicate_succ]

theorem leVal_replicate_false (n : Nat) : leVal (List.replicate n false) = 0 := by
  rw [← bitsOf_zero, leVal_bitsOf, Nat.zero_mod]

theorem bitsOf_add (n m x : Nat) : bitsOf (n + m) x = bitsOf n x ++ bitsOf m (x / 2 ^ n) := by
  induction n generalizing x with
  | zero => simp [bitsOf]
  | succ n ih =>
    rw [Nat.succ_add]
    simp only [bitsOf, List.cons_append, ih, Nat.pow_succ, Nat.div_div_eq_div_mul]
    rw [Nat.mul_comm 2 (2 ^ n)]

theorem bitsOf_mul_pow (n m x : Nat) : bitsOf (n + m) (x * 2 ^ n) = List.replicate n false ++ bitsOf m x := by
  rw [bitsOf_add, Nat.mul_div_cancel _ (Nat.two_pow_pos n), ← bitsOf_zero]
  congr 1
  induction n with
  | zero => rfl
  | succ n ih =>
    simp only [bitsOf]
    have h1 : x * 2 ^ (n + 1) % 2 = 0 := by rw [Nat.pow_succ, ← Nat.mul_assoc]; omega
    have h2 : x * 2 ^ (n + 1) / 2 = x * 2 ^ n := by
      rw [Nat.pow_succ, ← Nat.mul_assoc]; omega
    rw [h1, h2, ih]

theorem reverse32_code (l c : Nat) (hl : l ≤ 32) : reverse32 (c * 2 ^ (32 - l)) = leVal (codeWord l c) := by
  unfold reverse32 codeWord
  have h : bitsOf 32 (c * 2 ^ (32 - l)) = List.replicate (32 - l) false ++ bitsOf l c := by
    have := bitsOf_mul_pow (32 - l) l c
    rwa [show 32 - l + l = 32 by omega] at this
  rw [h, List.reverse_append, leVal_append, List.reverse_replicate, leVal_replicate_false]
  simp

@[simp] theorem length_codeWord (l c : Nat) : (codeWord l c).length = l := by simp [codeWord]

/-- The bits of `v`, read most significant first as they come from the stream. -/
def msb (b v : Nat) : Nat := leVal (bitsOf b v).reverse

theorem msb_lt (b v : Nat) : msb b v < 2 ^ b := by
  have := leVal_lt (bitsOf b v).reverse
  simpa [msb] using this

theorem msb_div (b l v : Nat) (h : l ≤ b) : msb b v / 2 ^ (b - l) = msb l v := by
  unfold msb
  have : bitsOf b v = bitsOf l v ++ bitsOf (b - l) (v / 2 ^ l) := by
    rw [← bitsOf_add]; congr 1; omega
  rw [this, List.reverse_append, leVal_append]
  have h2 : leVal (bitsOf (b - l) (v / 2 ^ l)).reverse < 2 ^ (b - l) := by
    have := leVal_lt (bitsOf (b - l) (v / 2 ^ l)).reverse
    simpa using this
  simp only [List.length_reverse, length_bitsOf]
  rw [Nat.add_mul_div_left _ _ (Nat.two_pow_pos _), Nat.div_eq_of_lt h2, Nat.zero_add]

theorem msb_eq_iff (l v c : Nat) (hc : c < 2 ^ l) : msb l v = c ↔ v % 2 ^ l = leVal (codeWord l c) := by
  unfold msb codeWord
  constructor
  · intro h
    have h1 : (bitsOf l v).reverse = bitsOf l c := by
      apply leVal_inj (by simp)
      rw [h, leVal_bitsOf_of_lt hc]
    rw [← h1, List.reverse_reverse, leVal_bitsOf]
  · intro h
    have h1 : bitsOf l v = (bitsOf l c).reverse := by
      apply leVal_inj (by simp)
      rw [leVal_bitsOf, h]
    rw [h1, List.reverse_reverse, leVal_bitsOf_of_lt hc]

theorem codeWord_prefix_iff (b l v c : Nat) (h : l ≤ b) (hc : c < 2 ^ l) :
    codeWord l c <+: bitsOf b v ↔ c * 2 ^ (b - l) ≤ msb b v ∧ msb b v < (c + 1) * 2 ^ (b - l) := by
  have hb : bitsOf b v = bitsOf l v ++ bitsOf (b - l) (v / 2 ^ l) := by
    rw [← bitsOf_add]; congr 1; omega
  have h1 : codeWord l c <+: bitsOf b v ↔ bitsOf l v = codeWord l c := by
    rw [hb]
    constructor
    · intro hp
      have := (List.prefix_append_right_inj (bitsOf l v) (l₁ := []) (l₂ := bitsOf (b - l) (v / 2 ^ l))).2 (List.nil_prefix)
      rw [List.append_nil] at this
      have h2 := List.prefix_of_prefix_length_le hp this (by simp)
      exact (h2.eq_of_length (by simp)).symm
    · intro he; rw [he]; exact List.prefix_append _ _
  have e := msb_div b l v h
  have h2 : bitsOf l v = codeWord l c ↔ msb b v / 2 ^ (b - l) = c := by
    constructor
    · intro he; rw [e, msb_eq_iff l v c hc, ← he, leVal_bitsOf]
    · intro he
      rw [e, msb_eq_iff l v c hc] at he
      apply leVal_inj (by simp)
      rw [leVal_bitsOf, he]
  rw [h1, h2]
  rw [Nat.div_eq_iff (Nat.two_pow_pos _)]
  have := Nat.two_pow_pos (b - l)
  rw [Nat.add_mul]
  omega

/-! ### First loop -/

/-- The used entries of a list of lengths with symbols. -/
def usedEntries (ls : List (Nat × Int)) : List (Nat × Int) := ls.filter (·.1 ≠ 0)

theorem vlcCodes_spec (syms : List Int) : ∀ (ls : List (Nat × Int)) (i code : Nat),
    (∀ e ∈ ls, e.1 ≤ 32) →
    (∀ k (hk : k < ls.length), (if syms.length > 0 then idx syms ((i + k : Nat) : Int) else .ok ((i + k : Nat) : Int)) = .ok ls[k].2) →
    vlcCodes syms (ls.map fun e => (e.1 : Int)) i code =
      if 2 ^ 32 < spaceEnd 32 code (usedEntries ls) ∧ usedEntries ls ≠ [] then .err
      else .ok (codesFrom 32 code (usedEntries ls), spaceEnd 32 code (usedEntries ls)) := by
  intro ls
  induction ls with
  | nil => intro i code _ _; simp [vlcCodes, usedEntries, codesFrom, spaceEnd]
  | cons e ls ih =>
    intro i code hle hsym
    obtain ⟨l, s⟩ := e
    have ih := ih (i + 1)
    have hsym' : ∀ k (hk : k < ls.length),
        (if syms.length > 0 then idx syms ((i + 1 + k : Nat) : Int) else .ok ((i + 1 + k : Nat) : Int)) = .ok ls[k].2 := by
      intro k hk
      have := hsym (k + 1) (by simp; omega)
      simpa [Nat.add_assoc, Nat.add_comm 1 k] using this
    have hle' : ∀ e ∈ ls, e.1 ≤ 32 := fun e he => hle e (by simp [he])
    simp only [List.map_cons, vlcCodes]
    by_cases hl : l = 0
    · subst hl
      rw [show ((0 : Nat) : Int) = 0 from rfl]
      simp only [if_true]
      rw [ih code hle' hsym']
      have hu : usedEntries ((0, s) :: ls) = usedEntries ls := by simp [usedEntries]
      rw [hu]
    · have hl' : ¬ ((l : Int) = 0) := by omega
      have hpos : (0 : Int) < l := by omega
      have hs := hsym 0 (by simp)
      simp only [Nat.add_zero, List.getElem_cons_zero] at hs
      have hu : usedEntries ((l, s) :: ls) = (l, s) :: usedEntries ls := by simp [usedEntries, hl]
      have hl32 : l ≤ 32 := hle (l, s) (by simp)
      simp only [hl', if_false, hpos, if_true, hs, Res.bind_ok, Int.natAbs_natCast, show ¬ 32 < l by omega]
      rw [hu]
      simp only [spaceEnd, codesFrom, ne_eq, reduceCtorEq, not_false_eq_true, and_true]
      have hge := spaceEnd_ge 32 (code + 2 ^ (32 - l)) (usedEntries ls)
      by_cases hov : 2 ^ 32 < code + 2 ^ (32 - l)
      · rw [if_pos hov, if_pos (by omega)]
      · rw [if_neg hov, ih _ hle' hsym']
        by_cases hov2 : 2 ^ 32 < spaceEnd 32 (code + 2 ^ (32 - l)) (usedEntries ls)
        · have hne : usedEntries ls ≠ [] := by
            intro h; rw [h] at hov2; simp only [spaceEnd] at hov2; omega
          rw [if_pos ⟨hov2, hne⟩, if_pos hov2]; rfl
        · rw [if_neg (fun h => hov2 h.1), if_neg hov2]
          simp

/-! ### Second loop -/

theorem vlcFill_spec (b len : Nat) (sym : Int) (hlen : len ≤ b) (hb : b ≤ 31) (r : Nat) (hr : r < 2 ^ len) :
    ∀ (n k : Nat) (table : List (Int × Nat)), n + k = 2 ^ (b - len) → table.length = 2 ^ b →
    (∀ v, v < 2 ^ b → v % 2 ^ len = r → k ≤ v / 2 ^ len → table[v]? = some (0, 0)) →
    ∃ t', vlcFill len sym (u32 (2 ^ len)) n (r + k * 2 ^ len) table = .ok t' ∧ t'.length = 2 ^ b ∧
      ∀ v, v < 2 ^ b → t'[v]? = if v % 2 ^ len = r ∧ k ≤ v / 2 ^ len then some (sym, len) else table[v]? := by
  have hpow : 2 ^ (b - len) * 2 ^ len = 2 ^ b := by rw [← Nat.pow_add]; congr 1; omega
  have hb31 : 2 ^ b ≤ 2 ^ 31 := Nat.pow_le_pow_right (by decide) hb
  have hlb : 2 ^ len ≤ 2 ^ b := Nat.pow_le_pow_right (by decide) hlen
  have hlpos := Nat.two_pow_pos len
  have hu : u32 (2 ^ len) = 2 ^ len := by simp only [u32]; apply Nat.mod_eq_of_lt; omega
  intro n
  induction n with
  | zero =>
    intro k table hk hl _
    refine ⟨table, rfl, hl, ?_⟩
    intro v hv
    rw [if_neg]
    rintro ⟨h1, h2⟩
    have : v / 2 ^ len < 2 ^ (b - len) := by
      apply Nat.div_lt_of_lt_mul; rw [Nat.mul_comm, hpow]; exact hv
    omega
  | succ n ih =>
    intro k table hk hl hz
    have hkv : r + k * 2 ^ len < 2 ^ b := by
      have : (k + 1) * 2 ^ len ≤ 2 ^ (b - len) * 2 ^ len := Nat.mul_le_mul_right _ (by omega)
      rw [hpow, Nat.add_mul] at this; omega
    have hmod : (r + k * 2 ^ len) % 2 ^ len = r := by
      rw [Nat.add_mul_mod_self_right, Nat.mod_eq_of_lt hr]
    have hdiv : (r + k * 2 ^ len) / 2 ^ len = k := by
      rw [Nat.add_mul_div_right _ _ hlpos, Nat.div_eq_of_lt hr, Nat.zero_add]
    have h0 := hz _ hkv hmod (by omega)
    unfold vlcFill
    rw [h0]
    simp only [Nat.lt_irrefl, Int.lt_irrefl, or_self, false_and, if_false]
    have hnext : u32 (r + k * 2 ^ len + u32 (2 ^ len)) = r + (k + 1) * 2 ^ len := by
      rw [hu, Nat.add_mul, Nat.one_mul, Nat.add_assoc]
      simp only [u32]
      apply Nat.mod_eq_of_lt
      omega
    rw [hnext]
    obtain ⟨t', e1, e2, e3⟩ := ih (k + 1) (table.set (r + k * 2 ^ len) (sym, len)) (by omega) (by simpa using hl) (by
      intro v hv h1 h2
      rw [List.getElem?_set_ne]
      · exact hz v hv h1 (by omega)
      · intro he; rw [← he, hdiv] at h2; omega)
    refine ⟨t', e1, e2, ?_⟩
    intro v hv
    rw [e3 v hv]
    by_cases hm : v % 2 ^ len = r
    · by_cases hk1 : k + 1 ≤ v / 2 ^ len
      · rw [if_pos ⟨hm, hk1⟩, if_pos ⟨hm, by omega⟩]
      · rw [if_neg (fun h => hk1 h.2)]
        by_cases hkk : k ≤ v / 2 ^ len
        · rw [if_pos ⟨hm, hkk⟩]
          have hveq : v = r + k * 2 ^ len := by
            have := Nat.mod_add_div v (2 ^ len)
            rw [hm, show v / 2 ^ len = k by omega, Nat.mul_comm] at this
            exact this.symm
          rw [hveq, List.getElem?_set_self (by omega)]
        · rw [if_neg (fun h => hkk h.2), List.getElem?_set_ne]
          intro he; rw [← he, hdiv] at hkk; omega
    · rw [if_neg (fun h => hm h.1), if_neg (fun h => hm h.1)]
      rw [List.getElem?_set_ne]
      intro he; rw [← he] at hm; exact hm hmod

/-- Entry `k` of the list starting at `a` covers the codes whose most-significant-first value lies in its interval. -/
theorem vlcFillAll_spec (b : Nat) (hb : b ≤ 31) : ∀ (es : List (Nat × Int)) (a prev : Nat) (table : List (Int × Nat)),
    (∀ e ∈ es, 0 < e.1 ∧ e.1 ≤ b ∧ prev ≤ e.1) → (es.map (·.1)).Pairwise (· ≤ ·) → prev ≤ b → 2 ^ (b - prev) ∣ a →
    spaceEnd b a es ≤ 2 ^ b → table.length = 2 ^ b →
    (∀ v, v < 2 ^ b → a ≤ msb b v → table[v]? = some (0, 0)) →
    ∃ t', vlcFillAll b (codesFrom b a es) table = .ok t' ∧ t'.length = 2 ^ b ∧
      (∀ v, v < 2 ^ b → msb b v < a → t'[v]? = table[v]?) ∧
      (∀ k (hk : k < es.length), ∀ v, v < 2 ^ b →
        spaceEnd b a (es.take k) ≤ msb b v → msb b v < spaceEnd b a (es.take (k + 1)) →
        t'[v]? = some (es[k].2, es[k].1)) := by
  intro es
  induction es with
  | nil =>
    intro a prev table _ _ _ _ _ hl _
    exact ⟨table, rfl, hl, fun _ _ _ => rfl, fun k hk => absurd hk (by simp)⟩
  | cons e es ih =>
    intro a prev table hes hsort hprev hdvd hend hl hz
    obtain ⟨len, sym⟩ := e
    obtain ⟨hpos, hlb, hpl⟩ := hes (len, sym) (by simp)
    simp only at hpos hlb hpl
    have hdvd' : 2 ^ (b - len) ∣ a := Nat.dvd_trans (Nat.pow_dvd_pow 2 (by omega)) hdvd
    obtain ⟨c, hc⟩ := hdvd'
    have hend' : spaceEnd b (a + 2 ^ (b - len)) es ≤ 2 ^ b := hend
    have hge := spaceEnd_ge b (a + 2 ^ (b - len)) es
    have hpow : 2 ^ len * 2 ^ (b - len) = 2 ^ b := by rw [← Nat.pow_add]; congr 1; omega
    have hpos2 := Nat.two_pow_pos (b - len)
    have hclt : c < 2 ^ len := by
      have h1 : 2 ^ (b - len) * c < 2 ^ (b - len) * 2 ^ len := by
        rw [Nat.mul_comm (2 ^ (b - len)) (2 ^ len), hpow, ← hc]
        have := Nat.two_pow_pos (b - len); omega
      exact Nat.lt_of_mul_lt_mul_left h1
    have hcode : reverse32 (a * 2 ^ (32 - b)) = leVal (codeWord len c) := by
      rw [← reverse32_code len c (by omega), hc]
      congr 1
      rw [Nat.mul_comm (2 ^ (b - len)) c, Nat.mul_assoc, ← Nat.pow_add]
      congr 2; omega
    have hrlt : leVal (codeWord len c) < 2 ^ len := by
      have := leVal_lt (codeWord len c); simpa using this
    -- membership in the residue class is membership in the interval
    have hclass : ∀ v, v % 2 ^ len = leVal (codeWord len c) ↔ a ≤ msb b v ∧ msb b v < a + 2 ^ (b - len) := by
      intro v
      rw [← msb_eq_iff len v c hclt, ← msb_div b len v hlb, Nat.div_eq_iff (Nat.two_pow_pos _), hc,
        Nat.mul_comm (2 ^ (b - len)) c]
      have := Nat.two_pow_pos (b - len)
      omega
    obtain ⟨t1, f1, f2, f3⟩ := vlcFill_spec b len sym hlb hb (leVal (codeWord len c)) hrlt (2 ^ (b - len)) 0 table
      (by omega) hl (by
        intro v hv h1 _
        exact hz v hv ((hclass v).1 h1).1)
    simp only [Nat.zero_mul, Nat.add_zero, Nat.zero_le, and_true] at f1 f3
    obtain ⟨t2, g1, g2, g3, g4⟩ := ih (a + 2 ^ (b - len)) len t1
      (by
        intro e he
        obtain ⟨x1, x2, x3⟩ := hes e (by simp [he])
        refine ⟨x1, x2, ?_⟩
        simp only [List.map_cons, List.pairwise_cons] at hsort
        exact hsort.1 e.1 (List.mem_map.2 ⟨e, he, rfl⟩))
      (by simp only [List.map_cons, List.pairwise_cons] at hsort; exact hsort.2) hlb
      (by rw [hc]; exact ⟨c + 1, by rw [Nat.mul_add, Nat.mul_one]⟩) hend' f2 (by
        intro v hv hge'
        rw [f3 v hv, if_neg (fun h => by have := (hclass v).1 h; omega)]
        exact hz v hv (by omega))
    refine ⟨t2, ?_, g2, ?_, ?_⟩
    · simp only [codesFrom, vlcFillAll, hlb, if_true, hcode, f1, Res.bind_ok]
      exact g1
    · intro v hv hlt
      rw [g3 v hv (by omega), f3 v hv, if_neg (fun h => by have := (hclass v).1 h; omega)]
    · intro k hk v hv h1 h2
      cases k with
      | zero =>
        simp only [List.take_zero, spaceEnd, List.take_succ_cons, List.getElem_cons_zero] at h1 h2 ⊢
        rw [g3 v hv h2, f3 v hv, if_pos ((hclass v).2 ⟨h1, h2⟩)]
      | succ k =>
        simp only [List.take_succ_cons, spaceEnd, List.getElem_cons_succ] at h1 h2 ⊢
        exact g4 k (by simpa using hk) v hv h1 h2

/-! ### Canonical codes -/

theorem canonicalFrom_spec (b : Nat) : ∀ (es : List (Nat × Int)) (prev next : Nat),
    (∀ e ∈ es, e.1 ≤ b ∧ prev ≤ e.1) → (es.map (·.1)).Pairwise (· ≤ ·) → prev ≤ b →
    ∀ k (hk : k < es.length), ∃ c, (canonicalFrom prev next (es.map (·.1)))[k]? = some c ∧
      c * 2 ^ (b - es[k].1) = spaceEnd b (next * 2 ^ (b - prev)) (es.take k) := by
  intro es
  induction es with
  | nil => intro _ _ _ _ _ k hk; simp at hk
  | cons e es ih =>
    intro prev next hes hsort hprev k hk
    obtain ⟨len, sym⟩ := e
    obtain ⟨h1, h2⟩ := hes (len, sym) (by simp)
    simp only at h1 h2
    have hmul : next * 2 ^ (len - prev) * 2 ^ (b - len) = next * 2 ^ (b - prev) := by
      rw [Nat.mul_assoc, ← Nat.pow_add]; congr 2; omega
    cases k with
    | zero => exact ⟨_, rfl, by simpa [spaceEnd] using hmul⟩
    | succ k =>
      simp only [List.map_cons, List.pairwise_cons] at hsort
      obtain ⟨c, hc1, hc2⟩ := ih len (next * 2 ^ (len - prev) + 1)
        (fun e he => ⟨(hes e (by simp [he])).1, hsort.1 e.1 (List.mem_map.2 ⟨e, he, rfl⟩)⟩) hsort.2 h1 k
        (by simpa using hk)
      refine ⟨c, by simpa [canonicalFrom] using hc1, ?_⟩
      simp only [List.getElem_cons_succ, List.take_succ_cons, spaceEnd]
      rw [hc2, Nat.add_mul, hmul, Nat.one_mul]

theorem codesFrom_scale (b a : Nat) (hb : b ≤ 32) (es : List (Nat × Int)) (h : ∀ e ∈ es, e.1 ≤ b) :
    codesFrom 32 (a * 2 ^ (32 - b)) es = codesFrom b a es := by
  induction es generalizing a with
  | nil => rfl
  | cons e es ih =>
    obtain ⟨l, s⟩ := e
    have hl : l ≤ b := h (l, s) (by simp)
    simp only [codesFrom, Nat.sub_self, Nat.pow_zero, Nat.mul_one]
    congr 1
    rw [← ih _ (fun e he => h e (by simp [he]))]
    congr 1
    rw [Nat.add_mul, ← Nat.pow_add]
    congr 2; omega

theorem spaceEnd_scale (b a : Nat) (hb : b ≤ 32) (es : List (Nat × Int)) (h : ∀ e ∈ es, e.1 ≤ b) :
    spaceEnd 32 (a * 2 ^ (32 - b)) es = spaceEnd b a es * 2 ^ (32 - b) := by
  induction es generalizing a with
  | nil => rfl
  | cons e es ih =>
    obtain ⟨l, s⟩ := e
    have hl : l ≤ b := h (l, s) (by simp)
    simp only [spaceEnd]
    rw [← ih _ (fun e he => h e (by simp [he]))]
    congr 1
    rw [Nat.add_mul, ← Nat.pow_add]
    congr 2; omega

/-- What a table built from the used entries `es` (of code space exactly full) contains. -/
def TableFor (b : Nat) (es : List (Nat × Int)) (t : VLC) : Prop :=
  t.bits = b ∧ t.table.length = 2 ^ b ∧
    ∀ k (hk : k < es.length), ∀ w, (canonicalWords (es.map (·.1)))[k]? = some w →
      w.length = es[k].1 ∧ ∀ v, v < 2 ^ b → w <+: bitsOf b v → t.table[v]? = some (es[k].2, es[k].1)

theorem canonicalWords_get (b : Nat) (es : List (Nat × Int)) (hes : ∀ e ∈ es, e.1 ≤ b)
    (hsort : (es.map (·.1)).Pairwise (· ≤ ·)) (hfull : spaceEnd b 0 es ≤ 2 ^ b) (k : Nat) (hk : k < es.length) :
    ∃ c, (canonicalWords (es.map (·.1)))[k]? = some (codeWord es[k].1 c) ∧ c < 2 ^ es[k].1 ∧
      c * 2 ^ (b - es[k].1) = spaceEnd b 0 (es.take k) ∧
      (c + 1) * 2 ^ (b - es[k].1) = spaceEnd b 0 (es.take (k + 1)) := by
  obtain ⟨c, h1, h2⟩ := canonicalFrom_spec b es 0 0 (fun e he => ⟨hes e he, Nat.zero_le _⟩) hsort (Nat.zero_le _) k hk
  have hstep : spaceEnd b 0 (es.take (k + 1)) = spaceEnd b 0 (es.take k) + 2 ^ (b - es[k].1) := by
    rw [List.take_succ_eq_append_getElem hk, spaceEnd_eq, spaceEnd_eq, List.map_append, List.map_append, List.sum_append]
    simp
  rw [Nat.zero_mul] at h2
  have hle : es[k].1 ≤ b := hes _ (List.getElem_mem hk)
  refine ⟨c, ?_, ?_, h2, by rw [Nat.add_mul, h2, Nat.one_mul, hstep]⟩
  · unfold canonicalWords
    rw [List.getElem?_zipWith, h1]
    simp [hk]
  · have htot : spaceEnd b 0 (es.take (k + 1)) ≤ spaceEnd b 0 es := by
      rw [spaceEnd_eq, spaceEnd_eq]
      have : (((es.take (k+1)).map (·.1)).map fun l => 2 ^ (b - l)).sum ≤ ((es.map (·.1)).map fun l => 2 ^ (b - l)).sum := by
        conv => rhs; rw [← List.take_append_drop (k + 1) es, List.map_append, List.map_append, List.sum_append]
        omega
      omega
    have hpow : 2 ^ es[k].1 * 2 ^ (b - es[k].1) = 2 ^ b := by rw [← Nat.pow_add]; congr 1; omega
    have : (c + 1) * 2 ^ (b - es[k].1) ≤ 2 ^ es[k].1 * 2 ^ (b - es[k].1) := by
      rw [hpow, Nat.add_mul, h2, Nat.one_mul, ← hstep]; omega
    have := Nat.le_of_mul_le_mul_right this (Nat.two_pow_pos _)
    omega

theorem newVLC_spec (b : Nat) (hb : b ≤ 31) (ls : List (Nat × Int)) (syms : List Int)
    (hle : ∀ e ∈ ls, e.1 ≤ b)
    (hsym : ∀ k (hk : k < ls.length), (if syms.length > 0 then idx syms (k : Int) else .ok (k : Int)) = .ok ls[k].2)
    (hsort : ((usedEntries ls).map (·.1)).Pairwise (· ≤ ·))
    (hfull : KraftFull b ((usedEntries ls).map (·.1))) :
    ∃ t, newVLC b (ls.map fun e => (e.1 : Int)) syms = .ok t ∧ TableFor b (usedEntries ls) t := by
  have hue : ∀ e ∈ usedEntries ls, 0 < e.1 ∧ e.1 ≤ b := by
    intro e he
    simp only [usedEntries, List.mem_filter, ne_eq, decide_eq_true_eq] at he
    exact ⟨by omega, hle e he.1⟩
  have hend : spaceEnd b 0 (usedEntries ls) = 2 ^ b := by rw [spaceEnd_eq, hfull, Nat.zero_add]
  have hend32 : spaceEnd 32 0 (usedEntries ls) = 2 ^ 32 := by
    have := spaceEnd_scale b 0 (by omega) (usedEntries ls) (fun e he => (hue e he).2)
    rw [Nat.zero_mul, hend, ← Nat.pow_add] at this
    rw [this]; congr 1; omega
  have hcodes : codesFrom 32 0 (usedEntries ls) = codesFrom b 0 (usedEntries ls) := by
    have := codesFrom_scale b 0 (by omega) (usedEntries ls) (fun e he => (hue e he).2)
    rwa [Nat.zero_mul] at this
  have h1 := vlcCodes_spec syms ls 0 0 (fun e he => Nat.le_trans (hle e he) (by omega)) (by simpa using hsym)
  rw [hend32, if_neg (by omega), hcodes] at h1
  obtain ⟨t', f1, f2, _, f4⟩ := vlcFillAll_spec b hb (usedEntries ls) 0 0 (List.replicate (2 ^ b) (0, 0))
    (fun e he => ⟨(hue e he).1, (hue e he).2, Nat.zero_le _⟩) hsort (Nat.zero_le _) (Nat.dvd_zero _) (by omega)
    (by simp) (by intro v hv _; simp [hv])
  refine ⟨{ bits := b, table := t'.map fun e => if e.2 = 0 then (-1, e.2) else e }, ?_, rfl, by simpa using f2, ?_⟩
  · unfold newVLC
    rw [h1]
    simp only [Res.bind_ok, ne_eq, not_true_eq_false, if_false, f1]
  · intro k hk w hw
    obtain ⟨c, g1, g2, g3, g4⟩ := canonicalWords_get b (usedEntries ls) (fun e he => (hue e he).2) hsort (by omega) k hk
    rw [g1] at hw
    cases hw
    have hmem := hue _ (List.getElem_mem hk)
    refine ⟨by simp, ?_⟩
    intro v hv hp
    rw [codeWord_prefix_iff b _ v c hmem.2 g2] at hp
    have := f4 k hk v hv (by rw [← g3]; exact hp.1) (by rw [← g4]; exact hp.2)
    simp only [List.getElem?_map, this, Option.map_some]
    rw [if_neg (by omega)]

theorem newVLC_reject (b : Nat) (ls : List (Nat × Int)) (syms : List Int) (hle : ∀ e ∈ ls, e.1 ≤ 32)
    (hsym : ∀ k (hk : k < ls.length), (if syms.length > 0 then idx syms (k : Int) else .ok (k : Int)) = .ok ls[k].2)
    (hne : ¬ KraftFull 32 ((usedEntries ls).map (·.1))) :
    newVLC b (ls.map fun e => (e.1 : Int)) syms = .err := by
  have h1 := vlcCodes_spec syms ls 0 0 hle (by simpa using hsym)
  have hend : spaceEnd 32 0 (usedEntries ls) ≠ 2 ^ 32 := by
    rw [spaceEnd_eq, Nat.zero_add]; exact hne
  unfold newVLC
  rw [h1]
  split
  · rfl
  · simp only [Res.bind_ok]
    rw [if_pos hend]

theorem getVLC_spec (b : Nat) (hb : b ≤ 31) (es : List (Nat × Int)) (t : VLC) (h : TableFor b es t) (k : Nat)
    (hk : k < es.length) (hlen : es[k].1 ≤ b) (w : List Bool) (hw : (canonicalWords (es.map (·.1)))[k]? = some w)
    (s : BR) (p : Nat) (hs : AtBit s p) (hp : w <+: bitsFrom s.data p) (hle : p + b ≤ 8 * s.data.length) :
    ∃ s', getVLC t s = (.ok es[k].2, s') ∧ AtBit s' (p + es[k].1) ∧ s'.data = s.data := by
  obtain ⟨hbits, htl, htab⟩ := h
  obtain ⟨hwl, hv⟩ := htab k hk w hw
  have hshow := (showBits_spec b s p hs (by omega)).1 hle
  obtain ⟨v, hvdef⟩ : ∃ v, v = leVal ((bitsFrom s.data p).take b) := ⟨_, rfl⟩
  rw [← hvdef] at hshow
  have hl : ((bitsFrom s.data p).take b).length = b := by simp; omega
  have hvlt : v < 2 ^ b := by
    have := leVal_lt ((bitsFrom s.data p).take b)
    rwa [hl, ← hvdef] at this
  have hbv : bitsOf b v = (bitsFrom s.data p).take b := by
    have := bitsOf_leVal ((bitsFrom s.data p).take b)
    rwa [hl, ← hvdef] at this
  have hpre : w <+: bitsOf b v := by
    rw [hbv]
    exact List.prefix_take_iff.2 ⟨hp, by omega⟩
  have he := hv v hvlt hpre
  obtain ⟨s', k1, k2, k3, _⟩ := skipBits_spec es[k].1 s p hs (by omega)
  refine ⟨s', ?_, k2, k3⟩
  unfold getVLC
  rw [hbits, Rd.bind_ok hshow]
  have hlift : Rd.lift (idx t.table (v : Int)) s = (.ok (es[k].2, es[k].1), s) := by
    unfold Rd.lift idx
    simp [he]
  rw [Rd.bind_ok hlift]
  simp only
  rw [Rd.bind_ok k1]
  rfl

theorem getVLC_eof (t : VLC) (hb : t.bits ≤ 31) (s : BR) (p : Nat) (hs : AtBit s p)
    (hle : 8 * s.data.length < p + t.bits) : (getVLC t s).1 = .err := by
  have := (showBits_spec t.bits s p hs (by omega)).2 hle
  unfold getVLC
  rw [Rd.bind_eq]
  revert this
  rcases showBits t.bits s with ⟨r, s1⟩
  cases r with
  | ok a => simp
  | err => simp
  | panic => simp

end Jxl

namespace Jxl
open Spec

/-- The table sends every window that starts with `w` to `sym`, consuming `w`. -/
def VLC.Has (t : VLC) (w : List Bool) (sym : Int) : Prop :=
  w.length ≤ t.bits ∧ t.bits ≤ 31 ∧
    ∀ v, v < 2 ^ t.bits → w <+: bitsOf t.bits v → t.table[v]? = some (sym, w.length)

theorem getVLC_has {t : VLC} {w : List Bool} {sym : Int} (h : t.Has w sym) (pad : Nat) (hpad : t.bits ≤ w.length + pad) :
    ReadsPad pad (getVLC t) w sym := by
  intro s p hs hp hlen
  obtain ⟨h1, h2, h3⟩ := h
  have hle : p + t.bits ≤ 8 * s.data.length := by omega
  have hshow := (showBits_spec t.bits s p hs (by omega)).1 hle
  obtain ⟨v, hvdef⟩ : ∃ v, v = leVal ((bitsFrom s.data p).take t.bits) := ⟨_, rfl⟩
  rw [← hvdef] at hshow
  have hl : ((bitsFrom s.data p).take t.bits).length = t.bits := by simp; omega
  have hvlt : v < 2 ^ t.bits := by
    have := leVal_lt ((bitsFrom s.data p).take t.bits)
    rwa [hl, ← hvdef] at this
  have hbv : bitsOf t.bits v = (bitsFrom s.data p).take t.bits := by
    have := bitsOf_leVal ((bitsFrom s.data p).take t.bits)
    rwa [hl, ← hvdef] at this
  have hpre : w <+: bitsOf t.bits v := by
    rw [hbv]
    exact List.prefix_take_iff.2 ⟨hp, by omega⟩
  have he := h3 v hvlt hpre
  obtain ⟨s', k1, k2, k3, _⟩ := skipBits_spec w.length s p hs (by omega)
  refine ⟨s', ?_, k2, k3⟩
  unfold getVLC
  rw [Rd.bind_ok hshow]
  have hlift : Rd.lift (idx t.table (v : Int)) s = (.ok (sym, w.length), s) := by
    unfold Rd.lift idx
    simp [he]
  rw [Rd.bind_ok hlift]
  simp only
  rw [Rd.bind_ok k1]
  rfl

theorem TableFor.has {b : Nat} {es : List (Nat × Int)} {t : VLC} (h : TableFor b es t) (hb : b ≤ 31) (k : Nat)
    (hk : k < es.length) (hlen : es[k].1 ≤ b) (w : List Bool) (hw : (canonicalWords (es.map (·.1)))[k]? = some w) :
    t.Has w es[k].2 := by
  obtain ⟨h1, _, h3⟩ := h
  obtain ⟨g1, g2⟩ := h3 k hk w hw
  refine ⟨by omega, by omega, ?_⟩
  intro v hv hp
  rw [h1] at hv hp
  rw [g2 v hv hp, g1]

end Jxl
