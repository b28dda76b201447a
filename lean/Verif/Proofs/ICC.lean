import Verif.Model.ICC
import Verif.Spec.ICC
import Verif.Proofs.WP
import Verif.Proofs.Ints
import Mathlib.Tactic.Positivity
/-! Lemmas on colour profiles. -/
namespace Jxl
open Spec

/-! ## Readers at byte positions -/

/-- The reader stands at byte `p` of `data`; `l` is what is left. -/
structure Cur (dt : List UInt8) (s : BR) (p : Nat) (l : List Nat) : Prop where
  data : s.data = dt
  index : s.index = 0
  pos : s.pos = p
  count : s.bitsRead = 8 * p
  left : (dt.drop p).map UInt8.toNat = l

theorem Cur.getElem {data : List UInt8} {s : BR} {p b : Nat} {l : List Nat} (h : Cur data s p (b :: l)) : ∃ x : UInt8, s.data[s.pos]? = some x ∧ x.toNat = b ∧ (data.drop (p + 1)).map UInt8.toNat = l := by
  have hl := h.left
  cases hd : data.drop p with
  | nil => rw [hd] at hl; cases hl
  | cons x r =>
    rw [hd, List.map_cons] at hl
    obtain ⟨h1, h2⟩ := List.cons.inj hl
    refine ⟨x, ?_, h1, ?_⟩
    · rw [h.data, h.pos]
      have := List.getElem?_drop (xs := data) (i := p) (j := 0)
      rw [hd] at this
      simpa using this.symm
    · rw [← List.drop_drop, hd]; simpa using h2

theorem Cur.nil {data : List UInt8} {s : BR} {p : Nat} (h : Cur data s p []) : s.data[s.pos]? = none := by
  have hl := h.left
  rw [List.map_eq_nil_iff] at hl
  rw [h.data, h.pos]
  exact List.getElem?_eq_none (List.drop_eq_nil_iff.mp hl)

theorem cur_byte {data : List UInt8} {s : BR} {p b : Nat} {l : List Nat} (h : Cur data s p (b :: l)) :
    ∃ s', readBits 8 s = (.ok b, s') ∧ Cur data s' (p + 1) l := by
  obtain ⟨x, hx, rfl, hl⟩ := h.getElem
  refine ⟨{ s with pos := s.pos + 1, bitsRead := s.bitsRead + 8 }, ?_, ?_⟩
  · unfold readBits
    simp only [h.index, Nat.reduceLT, if_false, ne_eq, not_true, OfNat.ofNat_ne_zero]
    unfold readAligned readBytesLoop
    simp only [Nat.sub_zero, Nat.le_refl, if_true, hx]
    unfold readBytesLoop
    simp [readTail, h.index]
  · exact ⟨h.data, h.index, by simp [h.pos], by simp [h.count]; omega, hl⟩

theorem cur_atEnd_nil {data : List UInt8} {s : BR} {p : Nat} (h : Cur data s p []) : atEnd s = (true, s) := by
  have hn := h.nil
  unfold atEnd showBits
  have : readBits (u32 1) s = (.err, s) := by
    unfold readBits
    simp only [h.index, u32, Nat.reduceMod, Nat.reduceLT, if_false, ne_eq, not_true, OfNat.ofNat_ne_zero, one_ne_zero]
    unfold readAligned readBytesLoop
    simp [readTail, hn]
  rw [this]

theorem cur_atEnd_cons {data : List UInt8} {s : BR} {p b : Nat} {l : List Nat} (h : Cur data s p (b :: l)) : atEnd s = (false, s) := by
  obtain ⟨x, hx, rfl, hl⟩ := h.getElem
  unfold atEnd showBits
  have : ∃ v s', readBits (u32 1) s = (.ok v, s') ∧ s'.data = s.data := by
    unfold readBits
    simp only [h.index, u32, Nat.reduceMod, Nat.reduceLT, if_false, ne_eq, not_true, OfNat.ofNat_ne_zero, one_ne_zero]
    unfold readAligned readBytesLoop
    simp [readTail, hx]
  obtain ⟨v, s', e, hd⟩ := this
  rw [e]
  show (false, ({ s' with pos := s.pos, cur := s.cur, index := s.index, bitsRead := s.bitsRead } : BR)) = (false, s)
  rw [hd]

theorem cur_varintLoop (v : Nat) : ∀ (i value : Nat) {data : List UInt8} {s : BR} {p : Nat} {l : List Nat}, Cur data s p (encVarint v ++ l) → (i = 0 ∨ 0 < v) →
    value < 2 ^ (7 * i) → value + 2 ^ (7 * i) * v < 2 ^ 32 →
    ∃ s', readICCVarintLoop i value s = (.ok (value + 2 ^ (7 * i) * v), s') ∧ Cur data s' (p + (encVarint v).length) l := by
  have hidx : ∀ i v value : Nat, (i = 0 ∨ 0 < v) → value + 2 ^ (7 * i) * v < 2 ^ 32 → 7 * i < 63 := by
    intro i v value h0 h2
    rcases h0 with h | h
    · omega
    · rcases Nat.lt_or_ge (7 * i) 63 with h3 | h3
      · exact h3
      · exfalso
        have : 2 ^ 63 ≤ 2 ^ (7 * i) := Nat.pow_le_pow_right (by decide) h3
        have : 2 ^ (7 * i) * 1 ≤ 2 ^ (7 * i) * v := Nat.mul_le_mul_left _ h
        omega
  have hstep : ∀ i value w : Nat, value < 2 ^ (7 * i) → value + 2 ^ (7 * i) * w < 2 ^ 32 →
      value ||| u32 (w <<< (7 * i)) = value + 2 ^ (7 * i) * w := by
    intro i value w h1 h2
    have : u32 (w <<< (7 * i)) = w <<< (7 * i) := by
      apply Nat.mod_eq_of_lt
      rw [Nat.shiftLeft_eq, Nat.mul_comm]; omega
    rw [this, or_shift h1]
  fun_induction encVarint v with
  | case1 v hv =>
    intro i value data s p l hs h0 h1 h2
    have hi := hidx i v value h0 h2
    obtain ⟨s', e1, e2⟩ := cur_byte hs
    refine ⟨s', ?_, by simpa using e2⟩
    unfold readICCVarintLoop
    simp only [show ¬ 63 ≤ 7 * i by omega, if_false, e1, show v ≤ 127 by omega, if_true]
    have : v &&& 127 = v := by
      rw [show (127 : Nat) = 2 ^ 7 - 1 by decide, Nat.and_two_pow_sub_one_eq_mod]; omega
    rw [this, hstep i value v h1 h2]
  | case2 v hv ih =>
    intro i value data s p l hs h0 h1 h2
    have hi := hidx i v value h0 h2
    obtain ⟨s', e1, e2⟩ := cur_byte (l := encVarint (v / 128) ++ l) hs
    have hand : (128 + v % 128) &&& 127 = v % 128 := by
      rw [show (127 : Nat) = 2 ^ 7 - 1 by decide, Nat.and_two_pow_sub_one_eq_mod]; omega
    have hdm := Nat.mod_add_div v 128
    have hp7 : 2 ^ (7 * (i + 1)) = 2 ^ (7 * i) * 128 := by rw [Nat.mul_add, Nat.pow_add]
    have key : value + 2 ^ (7 * i) * (v % 128) + 2 ^ (7 * (i + 1)) * (v / 128) = value + 2 ^ (7 * i) * v := by
      rw [hp7, Nat.mul_assoc, Nat.add_assoc, ← Nat.mul_add, hdm]
    have hb : value + 2 ^ (7 * i) * (v % 128) < 2 ^ (7 * (i + 1)) := by
      rw [hp7]
      have hm : v % 128 < 128 := Nat.mod_lt _ (by decide)
      have : 2 ^ (7 * i) * (v % 128 + 1) ≤ 2 ^ (7 * i) * 128 := Nat.mul_le_mul_left _ hm
      rw [Nat.mul_add] at this; omega
    obtain ⟨s2, f1, f2⟩ := ih (i + 1) (value + 2 ^ (7 * i) * (v % 128)) e2 (Or.inr (by omega)) hb (by rw [key]; exact h2)
    refine ⟨s2, ?_, ?_⟩
    · unfold readICCVarintLoop
      simp only [show ¬ 63 ≤ 7 * i by omega, if_false, e1, show ¬ (128 + v % 128 ≤ 127) by omega, hand]
      have hle : 2 ^ (7 * i) * (v % 128) ≤ 2 ^ (7 * i) * v := Nat.mul_le_mul_left _ (Nat.mod_le _ _)
      rw [hstep i value (v % 128) h1 (by omega), f1, key]
    · simp only [List.length_cons]
      have : p + ((encVarint (v / 128)).length + 1) = p + 1 + (encVarint (v / 128)).length := by omega
      rw [this]; exact f2

theorem cur_varint {v : Nat} (hv : v < 2 ^ 32) {data : List UInt8} {s : BR} {p : Nat} {l : List Nat} (h : Cur data s p (encVarint v ++ l)) :
    ∃ s', readICCVarint s = (.ok (i32 v), s') ∧ Cur data s' (p + (encVarint v).length) l := by
  obtain ⟨s', e1, e2⟩ := cur_varintLoop v 0 0 h (Or.inl rfl) (by decide) (by simpa using hv)
  refine ⟨s', ?_, e2⟩
  unfold readICCVarint
  rw [Rd.bind_ok e1]
  simp [Pure.pure, Rd.pure]

/-! ## What the actions do -/

/-- What stays the same: the encoded bytes, the bytes behind the commands, where those begin, and the size of the profile. -/
structure IEnv where
  enc : List UInt8
  dat : List UInt8
  tail : List Nat
  ds : Nat
  size : Nat

/-- The command bytes `c` and the data bytes `d` are left, and `out` has been decoded. -/
def IccAt (E : IEnv) (c d out : List Nat) (s : Icc) : Prop :=
  (∃ p, Cur E.enc s.cmd p (c ++ E.tail) ∧ p + c.length = E.ds) ∧ (∃ q, Cur E.dat s.data q d) ∧
    s.out = out ++ List.replicate (E.size - out.length) 0 ∧ s.pos = out.length ∧ out.length ≤ E.size ∧ E.size < 2 ^ 31

/-- The action `m` returns `a` and leads from one situation to another. -/
def Does (E : IEnv) {α : Type} (m : IM α) (a : α) (c d out c' d' out' : List Nat) : Prop :=
  ∀ s, IccAt E c d out s → ∃ s', m s = .ok (a, s') ∧ IccAt E c' d' out' s'

theorem IM.bind_ok {α β : Type} {m : IM α} {f : α → IM β} {s s' : Icc} {a : α} (h : m s = .ok (a, s')) : (m >>= f) s = f a s' := by
  show (match m s with | .ok (a, s') => f a s' | .err => .err | .panic => .panic) = _
  rw [h]

theorem Does.bind {E : IEnv} {α β : Type} {m : IM α} {f : α → IM β} {a : α} {b : β} {c d out c1 d1 out1 c2 d2 out2 : List Nat}
    (h1 : Does E m a c d out c1 d1 out1) (h2 : Does E (f a) b c1 d1 out1 c2 d2 out2) : Does E (m >>= f) b c d out c2 d2 out2 := by
  intro s hs
  obtain ⟨s1, e1, i1⟩ := h1 s hs
  obtain ⟨s2, e2, i2⟩ := h2 s1 i1
  exact ⟨s2, by rw [IM.bind_ok e1, e2], i2⟩

theorem Does.pure {E : IEnv} {α : Type} (a : α) (c d out : List Nat) : Does E (Pure.pure a : IM α) a c d out c d out :=
  fun s hs => ⟨s, rfl, hs⟩

theorem Does.lift {E : IEnv} {α : Type} {r : Res α} {a : α} (h : r = .ok a) (c d out : List Nat) : Does E (IM.lift r) a c d out c d out :=
  fun s hs => ⟨s, by rw [h]; rfl, hs⟩

theorem does_cmdByte (E : IEnv) (b : Nat) (c d out : List Nat) : Does E (onCmd (readBits 8)) b (b :: c) d out c d out := by
  rintro s ⟨⟨p, hp, hd⟩, h2, h3⟩
  obtain ⟨r, e1, e2⟩ := cur_byte (l := c ++ E.tail) hp
  refine ⟨{ s with cmd := r }, ?_, ⟨p + 1, e2, ?_⟩, h2, h3⟩
  · unfold onCmd; rw [e1]
  · rw [List.length_cons] at hd; omega

theorem does_cmdVarint (E : IEnv) (v : Nat) (hv : v < 2 ^ 32) (c d out : List Nat) : Does E (onCmd readICCVarint) (i32 v) (encVarint v ++ c) d out c d out := by
  rintro s ⟨⟨p, hp, hd⟩, h2, h3⟩
  rw [List.append_assoc] at hp
  obtain ⟨r, e1, e2⟩ := cur_varint hv hp
  refine ⟨{ s with cmd := r }, ?_, ⟨_, e2, ?_⟩, h2, h3⟩
  · unfold onCmd; rw [e1]
  · rw [List.length_append] at hd; omega

theorem does_dataByte (E : IEnv) (b : Nat) (c d out : List Nat) : Does E (onData (readBits 8)) b c (b :: d) out c d out := by
  rintro s ⟨h1, ⟨q, hq⟩, h3⟩
  obtain ⟨r, e1, e2⟩ := cur_byte hq
  refine ⟨{ s with data := r }, ?_, h1, ⟨_, e2⟩, h3⟩
  unfold onData; rw [e1]

theorem does_put (E : IEnv) (v : Int) (c d out : List Nat) (h : out.length < E.size) : Does E (put v) () c d out c d (out ++ [(v % 256).toNat]) := by
  rintro s ⟨h1, h2, h3, h4, h5, h6⟩
  have hset : setAt s.out s.pos (v % 256).toNat = .ok (out ++ [(v % 256).toNat] ++ List.replicate (E.size - (out.length + 1)) 0) := by
    rw [h4, setAt_ok (by rw [h3]; simp; omega), h3]
    congr 1
    rw [List.set_append_right _ _ (Nat.le_refl _), Nat.sub_self]
    rw [show E.size - out.length = (E.size - (out.length + 1)) + 1 by omega, List.replicate_succ]
    simp
  refine ⟨⟨s.cmd, s.data, out ++ [(v % 256).toNat] ++ List.replicate (E.size - (out.length + 1)) 0, i32 (s.pos + 1)⟩, ?_, h1, h2, ?_, ?_, ?_, h6⟩
  · unfold put; rw [hset]
  · simp
  · show i32 (s.pos + 1) = _
    rw [h4, List.length_append]
    simp only [i32, List.length_cons, List.length_nil]; omega
  · simp; omega

theorem does_putAll (E : IEnv) : ∀ (l : List Nat) (_ : ∀ v ∈ l, v < 256) (c d out : List Nat) (_ : out.length + l.length ≤ E.size), Does E (putAll l) () c d out c d (out ++ l)
  | [], _, c, d, out, _ => by rw [List.append_nil]; exact Does.pure _ _ _ _
  | v :: l, hb, c, d, out, h => by
    have hv : v < 256 := hb v (by simp)
    have := does_put E v c d out (by simp at h; omega)
    rw [show ((v : Int) % 256).toNat = v by omega] at this
    have h2 := does_putAll E l (fun w hw => hb w (by simp [hw])) c d (out ++ [v]) (by simp at h ⊢; omega)
    rw [List.append_assoc] at h2
    exact Does.bind this h2

theorem does_putBE (E : IEnv) (v : Int) (w : Nat) (hv : v % 4294967296 = (w : Int) % 4294967296) (c d out : List Nat) (h : out.length + 4 ≤ E.size) :
    Does E (putBE v) () c d out c d (out ++ be32 w) := by
  unfold putBE
  have e1 : (sar v 24 % 256).toNat = w / 2 ^ 24 % 256 := by simp only [sar]; omega
  have e2 : (sar v 16 % 256).toNat = w / 2 ^ 16 % 256 := by simp only [sar]; omega
  have e3 : (sar v 8 % 256).toNat = w / 2 ^ 8 % 256 := by simp only [sar]; omega
  have e4 : (v % 256).toNat = w % 256 := by omega
  have k1 := does_put E (sar v 24) c d out (by omega)
  have k2 := does_put E (sar v 16) c d (out ++ [w / 2 ^ 24 % 256]) (by simp; omega)
  have k3 := does_put E (sar v 8) c d (out ++ [w / 2 ^ 24 % 256] ++ [w / 2 ^ 16 % 256]) (by simp; omega)
  have k4 := does_put E v c d (out ++ [w / 2 ^ 24 % 256] ++ [w / 2 ^ 16 % 256] ++ [w / 2 ^ 8 % 256]) (by simp; omega)
  rw [e1] at k1
  rw [e2] at k2
  rw [e3] at k3
  rw [e4] at k4
  have : out ++ be32 w = out ++ [w / 2 ^ 24 % 256] ++ [w / 2 ^ 16 % 256] ++ [w / 2 ^ 8 % 256] ++ [w % 256] := by simp [be32]
  rw [this]
  exact Does.bind k1 (Does.bind k2 (Does.bind k3 k4))

theorem does_advance (E : IEnv) (c d out : List Nat) (h : out.length + 4 ≤ E.size) : Does E (advance 4) () c d out c d (out ++ [0, 0, 0, 0]) := by
  rintro s ⟨h1, h2, h3, h4, h5, h6⟩
  refine ⟨{ s with pos := i32 (s.pos + 4) }, rfl, h1, h2, ?_, ?_, by simp; omega, h6⟩
  · show s.out = _
    rw [h3, show E.size - out.length = 4 + (E.size - (out ++ [0, 0, 0, 0]).length) by simp; omega, List.replicate_add, List.append_assoc]
    rfl
  · show i32 (s.pos + 4) = _
    rw [h4, List.length_append]
    simp only [i32, List.length_cons, List.length_nil]; omega

theorem does_more_nil (E : IEnv) (d out : List Nat) : Does E (more E.ds) false [] d out [] d out := by
  rintro s ⟨⟨p, hp, hd⟩, h2, h3⟩
  refine ⟨s, ?_, ⟨p, hp, hd⟩, h2, h3⟩
  unfold more
  rw [List.nil_append] at hp
  cases ht : E.tail with
  | nil =>
    rw [ht] at hp
    rw [cur_atEnd_nil hp]
  | cons b l =>
    rw [ht] at hp
    rw [cur_atEnd_cons hp]
    simp only [hp.count]
    rw [List.length_nil] at hd
    rw [decide_eq_false (by omega)]

theorem does_more_cons (E : IEnv) (b : Nat) (c d out : List Nat) : Does E (more E.ds) true (b :: c) d out (b :: c) d out := by
  rintro s ⟨⟨p, hp, hd⟩, h2, h3⟩
  refine ⟨s, ?_, ⟨p, hp, hd⟩, h2, h3⟩
  unfold more
  rw [cur_atEnd_cons (l := c ++ E.tail) hp]
  simp only [hp.count]
  rw [List.length_cons] at hd
  rw [decide_eq_true (by omega)]

theorem does_dataBytes (E : IEnv) : ∀ (l : List Nat) (c d out : List Nat), Does E (dataBytes l.length) l c (l ++ d) out c d out
  | [], c, d, out => Does.pure _ _ _ _
  | v :: l, c, d, out => Does.bind (does_dataByte E v c (l ++ d) out) (Does.bind (does_dataBytes E l c d out) (Does.pure _ _ _ _))

theorem does_copyData (E : IEnv) : ∀ (l : List Nat) (_ : ∀ v ∈ l, v < 256) (c d out : List Nat) (_ : out.length + l.length ≤ E.size),
    Does E (copyData l.length) () c (l ++ d) out c d (out ++ l)
  | [], _, c, d, out, _ => by rw [List.append_nil]; exact Does.pure _ _ _ _
  | v :: l, hb, c, d, out, h => by
    have hv : v < 256 := hb v (by simp)
    have h1 := does_put E v c (l ++ d) out (by simp at h; omega)
    rw [show ((v : Int) % 256).toNat = v by omega] at h1
    have h2 := does_copyData E l (fun w hw => hb w (by simp [hw])) c d (out ++ [v]) (by simp at h ⊢; omega)
    rw [List.append_assoc] at h2
    exact Does.bind (does_dataByte E v c (l ++ d) out) (Does.bind h1 h2)

theorem does_copyIn (E : IEnv) (b c d out : List Nat) (h : out.length + b.length ≤ E.size) : Does E (copyIn b) () c d out c d (out ++ b) := by
  rintro s ⟨h1, h2, h3, h4, h5, h6⟩
  have hl : s.out.length = E.size := by rw [h3]; simp; omega
  refine ⟨⟨s.cmd, s.data, s.out.take s.pos.toNat ++ (b.take (s.out.length - s.pos.toNat) ++ s.out.drop (s.pos.toNat + b.length)), i32 (s.pos + i32 b.length)⟩, ?_, h1, h2, ?_, ?_, by simp; omega, h6⟩
  · unfold copyIn
    rw [if_neg (by rw [h4, hl]; omega)]
  · show s.out.take s.pos.toNat ++ (b.take (s.out.length - s.pos.toNat) ++ s.out.drop (s.pos.toNat + b.length)) = _
    rw [hl, h4, Int.toNat_natCast, h3, List.take_append_of_le_length (Nat.le_refl _), List.take_length, List.take_of_length_le (by omega),
      List.drop_append, List.drop_eq_nil_of_le (by omega), List.nil_append, List.drop_replicate]
    rw [List.append_assoc]
    congr 3
    simp; omega
  · show i32 (s.pos + i32 b.length) = _
    rw [h4, List.length_append]
    simp only [i32]; omega

end Jxl
