import Verif.Model.VLC
import Verif.Proofs.Reads
/-!
# Reader actions that never panic

`Safe m Q`: from every state of the reader, whatever the stream holds, `m` does not panic, and when it succeeds its
value satisfies `Q`.
-/
namespace Jxl
open Spec

/-- No panic, and a value satisfies `Q`. -/
def SafeRes {α : Type} (r : Res α) (Q : α → Prop) : Prop :=
  match r with
  | .ok a => Q a
  | .err => True
  | .panic => False

def Safe {α : Type} (m : Rd α) (Q : α → Prop) : Prop := ∀ s, SafeRes (m s).1 Q

theorem Safe.noPanic {α : Type} {m : Rd α} {Q : α → Prop} (h : Safe m Q) (s : BR) : (m s).1 ≠ .panic := by
  intro e
  have := h s
  rw [e] at this
  exact this

theorem Safe.of_ok {α : Type} {m : Rd α} {Q : α → Prop} (h : Safe m Q) {s s' : BR} {a : α} (e : m s = (.ok a, s')) : Q a := by
  have := h s
  rw [e] at this
  exact this

theorem SafeRes.of_ok {α : Type} {m : Res α} {Q : α → Prop} (h : SafeRes m Q) {a : α} (e : m = .ok a) : Q a := by
  unfold SafeRes at h
  rw [e] at h
  exact h

theorem Safe.bind {α β : Type} {m : Rd α} {f : α → Rd β} {P : α → Prop} {Q : β → Prop} (h : Safe m P)
    (g : ∀ a, P a → Safe (f a) Q) : Safe (m >>= f) Q := by
  intro s
  have h1 := h s
  rw [Rd.bind_eq]
  rcases hm : m s with ⟨_ | _ | _, s'⟩ <;> rw [hm] at h1
  · exact g _ h1 s'
  · trivial
  · exact h1

theorem Safe.pure {α : Type} {a : α} {Q : α → Prop} (h : Q a) : Safe (Pure.pure a : Rd α) Q := fun _ => h

theorem Safe.fail {α : Type} {Q : α → Prop} : Safe (Rd.fail : Rd α) Q := fun _ => trivial

theorem Safe.lift {α : Type} {r : Res α} {Q : α → Prop} (h : SafeRes r Q) : Safe (Rd.lift r) Q := fun _ => h

theorem Safe.mono {α : Type} {m : Rd α} {P Q : α → Prop} (h : Safe m P) (g : ∀ a, P a → Q a) : Safe m Q := by
  intro s
  have h1 := h s
  rcases hm : m s with ⟨_ | _ | _, s'⟩ <;> rw [hm] at h1
  · exact g _ h1
  · trivial
  · exact h1

theorem Safe.and {α : Type} {m : Rd α} {P Q : α → Prop} (h : Safe m P) (g : Safe m Q) : Safe m (fun a => P a ∧ Q a) := by
  intro s
  have h1 := h s
  have h2 := g s
  rcases hm : m s with ⟨_ | _ | _, s'⟩ <;> rw [hm] at h1 h2
  · exact ⟨h1, h2⟩
  · trivial
  · exact h1

theorem SafeRes.bind {α β : Type} {m : Res α} {f : α → Res β} {P : α → Prop} {Q : β → Prop} (h : SafeRes m P)
    (g : ∀ a, P a → SafeRes (f a) Q) : SafeRes (m >>= f) Q := by
  cases m with
  | ok a => exact g a h
  | err => trivial
  | panic => exact h

theorem SafeRes.ok {α : Type} {a : α} {Q : α → Prop} (h : Q a) : SafeRes (.ok a) Q := h
theorem SafeRes.err {α : Type} {Q : α → Prop} : SafeRes (.err : Res α) Q := trivial

theorem SafeRes.mono {α : Type} {m : Res α} {P Q : α → Prop} (h : SafeRes m P) (g : ∀ a, P a → Q a) : SafeRes m Q := by
  cases m with
  | ok a => exact g a h
  | err => trivial
  | panic => exact h

theorem safe_idx {α : Type} (l : List α) (i : Int) (h0 : 0 ≤ i) (h1 : i < l.length) : SafeRes (idx l i) (fun a => a ∈ l) := by
  unfold idx
  rw [if_neg (by omega)]
  rw [List.getElem?_eq_getElem (by omega : i.toNat < l.length)]
  exact List.getElem_mem _

theorem safe_setAt {α : Type} (l : List α) (i : Int) (a : α) (h0 : 0 ≤ i) (h1 : i < l.length) :
    SafeRes (setAt l i a) (fun r => r = l.set i.toNat a) := by
  unfold setAt
  rw [if_neg (by omega), if_pos (by omega)]
  rfl

theorem or_lt_pow {a b k : Nat} (ha : a < 2 ^ k) (hb : b < 2 ^ k) : a ||| b < 2 ^ k := Nat.or_lt_two_pow ha hb

theorem readBytesLoop_any (need k acc : Nat) (s : BR) (ha : acc < 2 ^ k) :
    SafeRes (readBytesLoop need k acc s).1 (fun r => r.1 < 8 ∧ r.2.1 + r.1 = k + need ∧ r.2.2 < 2 ^ r.2.1) := by
  induction need using Nat.strongRecOn generalizing k acc s with
  | _ need ih =>
    unfold readBytesLoop
    by_cases h8 : 8 ≤ need
    · rw [if_pos h8]
      split
      · trivial
      · rename_i b hb
        have hk : acc ||| (b.toNat <<< k) < 2 ^ (k + 8) := by
          apply or_lt_pow
          · exact Nat.lt_of_lt_of_le ha (Nat.pow_le_pow_right (by decide) (by omega))
          · rw [Nat.shiftLeft_eq, Nat.pow_add, Nat.mul_comm (2 ^ k)]
            exact Nat.mul_lt_mul_of_pos_right b.toNat_lt (Nat.two_pow_pos k)
        have := ih (need - 8) (by omega) (k + 8) _ { s with pos := s.pos + 1, bitsRead := s.bitsRead + 8 } hk
        exact this.mono (fun r hr => ⟨hr.1, by have := hr.2.1; omega, hr.2.2⟩)
    · rw [if_neg h8]
      exact ⟨by omega, rfl, ha⟩

theorem readAligned_any (need k acc : Nat) (s : BR) (ha : acc < 2 ^ k) :
    SafeRes (readAligned need k acc s).1 (fun v => v < 2 ^ (k + need)) := by
  unfold readAligned
  have h := readBytesLoop_any need k acc s ha
  rcases hm : readBytesLoop need k acc s with ⟨_ | _ | _, s'⟩ <;> rw [hm] at h
  · rename_i a
    obtain ⟨n', k', acc'⟩ := a
    obtain ⟨h1, h2, h3⟩ := h
    simp only
    unfold readTail
    by_cases hn : 0 < n'
    · rw [if_pos hn]
      split
      · trivial
      · rename_i b hb
        show _ < _
        simp only at h2 h3
        rw [← h2]
        apply or_lt_pow
        · exact Nat.lt_of_lt_of_le h3 (Nat.pow_le_pow_right (by decide) (by omega))
        · rw [and_mask, Nat.shiftLeft_eq, Nat.pow_add, Nat.mul_comm (2 ^ k')]
          exact Nat.mul_lt_mul_of_pos_right (Nat.mod_lt _ (Nat.two_pow_pos _)) (Nat.two_pow_pos k')
    · rw [if_neg hn]
      have : n' = 0 := by omega
      subst this
      show _ < _
      simp only at h2 h3
      rw [← h2]; simpa using h3
  · trivial
  · exact h

theorem safe_bits (n : Nat) : Safe (readBits n) (fun v => v < 2 ^ n) := by
  intro s
  unfold readBits
  by_cases h0 : n = 0
  · subst h0; show 0 < 2 ^ 0; decide
  · rw [if_neg h0]
    by_cases h64 : 64 < n
    · rw [if_pos h64]; trivial
    · rw [if_neg h64]
      by_cases hi : s.index ≠ 0
      · rw [if_pos hi]
        simp only
        obtain ⟨t, ht⟩ : ∃ t, t = if 8 - s.index < n then 8 - s.index else n := ⟨_, rfl⟩
        rw [← ht]
        have hle : t ≤ n := by rw [ht]; split <;> omega
        have := readAligned_any (n - t) t ((s.cur.toNat >>> s.index) &&& (1 <<< t - 1))
          { s with bitsRead := s.bitsRead + t, index := (s.index + t) % 8 } (by rw [and_mask]; exact Nat.mod_lt _ (Nat.two_pow_pos _))
        rw [show t + (n - t) = n by omega] at this
        exact this
      · rw [if_neg hi]
        have := readAligned_any n 0 0 s (by decide)
        simpa using this

theorem safe_bit : Safe readBit (fun v => v < 2) := by
  intro s
  unfold readBit
  split
  · split
    · trivial
    · exact Bool.toNat_lt _
  · exact Bool.toNat_lt _

theorem safe_bool : Safe readBool (fun _ => True) := Safe.bind safe_bit (fun _ _ => Safe.pure trivial)

theorem safe_u8 : Safe readU8 (fun v => v < 256) := by
  unfold readU8
  refine Safe.bind safe_bool (fun b _ => ?_)
  split
  · exact Safe.pure (by omega)
  · refine Safe.bind (safe_bits 3) (fun n hn => ?_)
    split
    · exact Safe.pure (by omega)
    · refine Safe.bind (safe_bits n) (fun m hm => Safe.pure ?_)
      rw [Nat.shiftLeft_eq, Nat.one_mul]
      have : 2 ^ n ≤ 2 ^ 7 := Nat.pow_le_pow_right (by decide) (by omega)
      omega

theorem safe_u32 (c0 u0 c1 u1 c2 u2 c3 u3 : Nat) : Safe (readU32 c0 u0 c1 u1 c2 u2 c3 u3) (fun v => v < 2 ^ 32) := by
  unfold readU32
  refine Safe.bind (safe_bits 2) (fun n hn => ?_)
  have h : n = 0 ∨ n = 1 ∨ n = 2 ∨ n = 3 := by omega
  rcases h with h | h | h | h <;> subst h <;>
    exact Safe.bind (safe_bits _) (fun _ _ => Safe.pure (Nat.mod_lt _ (by decide)))

theorem safe_show (n : Nat) : Safe (showBits n) (fun v => v < 2 ^ n) := by
  intro s
  unfold showBits
  have := safe_bits (u32 n) s
  rcases hm : readBits (u32 n) s with ⟨_ | _ | _, s'⟩ <;> rw [hm] at this
  · simp only at this ⊢
    exact Nat.lt_of_lt_of_le this (Nat.pow_le_pow_right (by decide) (Nat.mod_le _ _))
  · trivial
  · exact this

theorem safe_skipLoop (n : Nat) : Safe (skipLoop n) (fun _ => True) := by
  induction n with
  | zero => intro s; trivial
  | succ n ih =>
    intro s
    unfold skipLoop
    have := safe_bit s
    rcases hm : readBit s with ⟨_ | _ | _, s'⟩ <;> rw [hm] at this
    · exact ih s'
    · trivial
    · exact this

theorem safe_skip (n : Nat) : Safe (skipBits n) (fun _ => True) := by
  intro s
  unfold skipBits
  simp only
  split
  · split
    · trivial
    · exact safe_skipLoop _ _
  · exact safe_skipLoop _ _

/-- A look-up in a complete table returns a symbol of the table. -/
theorem safe_vlc (t : VLC) (h : t.table.length = 2 ^ t.bits) : Safe (getVLC t) (fun v => ∃ e ∈ t.table, v = e.1) := by
  unfold getVLC
  refine Safe.bind (safe_show t.bits) (fun i hi => ?_)
  refine Safe.bind (Safe.lift (safe_idx t.table (i : Int) (by omega) (by rw [h]; exact_mod_cast hi))) (fun e he => ?_)
  exact Safe.bind (safe_skip e.2) (fun _ _ => Safe.pure ⟨e, he, rfl⟩)

end Jxl
