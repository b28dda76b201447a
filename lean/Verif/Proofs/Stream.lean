import Verif.Proofs.Alias
import Verif.Proofs.ReadsPad
/-!
# Reading encoded items
-/
namespace Jxl
open Spec

theorem le_sum_of_getD (l : List Nat) (s : Nat) : l.getD s 0 ≤ l.sum := by
  induction l generalizing s with
  | nil => simp
  | cons x l ih =>
    cases s with
    | zero => simp
    | succ s =>
      have := ih s
      simp only [List.sum_cons, List.getD_cons_succ]; omega

theorem ANSDist.Proper.freq_eq {d : ANSDist} {freq : List Nat} (h : d.Proper freq) (s : Nat) : d.freq s = freq.getD s 0 := by
  unfold ANSDist.freq
  rw [h.freqs]
  simp only [List.getD, List.getElem?_map]
  cases freq[s]? <;> simp

theorem ANSDist.Proper.freq_le {d : ANSDist} {freq : List Nat} (h : d.Proper freq) (s : Nat) : d.freq s ≤ 4096 := by
  rw [h.freq_eq s, ← h.sum]; exact le_sum_of_getD _ _

theorem ANSDist.Proper.idx_freq {d : ANSDist} {freq : List Nat} (h : d.Proper freq) (s : Nat) (hs : 0 < d.freq s) :
    idx d.freqs (s : Int) = .ok (d.freq s : Int) := by
  apply idx_nat
  rw [h.freq_eq s] at hs ⊢
  rw [h.freqs, List.getElem?_map]
  simp only [List.getD] at hs ⊢
  cases hf : freq[s]? with
  | none => rw [hf] at hs; simp at hs
  | some x => simp

/-- The range of the rANS state. -/
theorem ansPush_range (f : Nat) (hf : 0 < f) (hf' : f ≤ 4096) (slot : Nat → Nat) (hslot : ∀ k, k < f → slot k < 4096) (x : Nat)
    (h1 : 2 ^ 16 ≤ x) (h2 : x < 2 ^ 32) : 2 ^ 16 ≤ (ansPush f slot x).1 ∧ (ansPush f slot x).1 < 2 ^ 32 := by
  have key : ∀ y, 16 * f ≤ y → y < f * 2 ^ 20 → 2 ^ 16 ≤ y / f * 4096 + slot (y % f) ∧ y / f * 4096 + slot (y % f) < 2 ^ 32 := by
    intro y a b
    have c1 : 16 ≤ y / f := (Nat.le_div_iff_mul_le hf).2 (by omega)
    have c2 : y / f < 2 ^ 20 := (Nat.div_lt_iff_lt_mul hf).2 (by rw [Nat.mul_comm]; exact b)
    have := hslot (y % f) (Nat.mod_lt _ hf)
    omega
  unfold ansPush
  split
  · rename_i h
    apply key
    · have : f * 2 ^ 20 = 16 * f * 65536 := by omega
      rw [this] at h
      exact (Nat.le_div_iff_mul_le (by omega)).2 h
    · have : x / 65536 < 65536 := by omega
      omega
  · apply key
    · omega
    · omega

theorem encodeItems_range (co : Coder) (items : List Item) (h : ∀ i ∈ items, i.OK co) :
    2 ^ 16 ≤ (encodeItems co items).1 ∧ (encodeItems co items).1 < 2 ^ 32 := by
  induction items with
  | nil => exact ⟨show 2 ^ 16 ≤ 0x130000 by decide, show 0x130000 < 2 ^ 32 by decide⟩
  | cons i is ih =>
    have ih := ih (fun j hj => h j (by simp [hj]))
    match i, h i (by simp) with
    | .raw b, _ => exact ih
    | .sym (.pre p c) s, _ => exact ih
    | .sym (.ans a c) s, hok =>
      obtain ⟨⟨freq, hp⟩, h0, hs⟩ := hok
      exact ansPush_range _ h0 (hp.freq_le s) _ (fun k hk => (hs k hk).1) _ ih.1 ih.2

/-- One decoding step undoes one encoding step. -/
theorem ansRead_push (a : ANSDist) (freq : List Nat) (hp : a.Proper freq) (s : Nat) (h0 : 0 < a.freq s) (slot : Nat → Nat)
    (hslot : ∀ k, k < a.freq s → slot k < 4096 ∧ aliasLookup a (slot k) = .ok ((s : Int), (k : Int))) (x : Nat)
    (h1 : 2 ^ 16 ≤ x) (h2 : x < 2 ^ 32) :
    Reads (ansReadSymbol a (some (ansPush (a.freq s) slot x).1)) (ansPush (a.freq s) slot x).2 ((s : Int), some x) := by
  obtain ⟨f, hfdef⟩ : ∃ f, f = a.freq s := ⟨_, rfl⟩
  have hfle := hp.freq_le s
  have hidx := hp.idx_freq s h0
  rw [← hfdef] at h0 hslot hfle hidx ⊢
  have step : ∀ y, (slot (y % f) < 4096 ∧ aliasLookup a (slot (y % f)) = .ok ((s : Int), ((y % f : Nat) : Int))) := fun y => hslot _ (Nat.mod_lt _ h0)
  -- the state after the look-up
  have hstate : ∀ y, y < 2 ^ 32 → toU32 ((f : Int) * ((y / f * 4096 + slot (y % f)) / 4096 : Nat) + ((y % f : Nat) : Int)) = y := by
    intro y hy
    have e1 : (y / f * 4096 + slot (y % f)) / 4096 = y / f := by have := (step y).1; omega
    rw [e1]
    have e2 : (f : Int) * (y / f : Nat) + ((y % f : Nat) : Int) = (y : Int) := by
      have := Nat.div_add_mod y f
      conv => rhs; rw [← this]
      push_cast; rfl
    rw [e2]
    unfold toU32
    omega
  have hmod : ∀ y, (y / f * 4096 + slot (y % f)) % 4096 = slot (y % f) := by intro y; have := (step y).1; omega
  unfold ansReadSymbol ansInitState
  by_cases hc : f * 2 ^ 20 ≤ x
  · have ep : ansPush f slot x = ((x / 65536) / f * 4096 + slot ((x / 65536) % f), bitsOf 16 (x % 65536)) := by
      unfold ansPush; rw [if_pos hc]
    rw [ep]
    dsimp only
    have hr : ∀ (b : List Bool), b = [] ++ ([] ++ ([] ++ b)) := by simp
    rw [hr (bitsOf 16 (x % 65536))]
    apply Reads.bind (Reads.pure _)
    refine Reads.bind (a := ((s : Int), (((x / 65536) % f : Nat) : Int))) ?_ ?_
    · rw [hmod, (step _).2]; exact Reads.pure _
    dsimp only
    refine Reads.bind (a := (f : Int)) ?_ ?_
    · rw [hidx]; exact Reads.pure _
    rw [hstate _ (by omega), if_pos (by omega)]
    rw [← List.append_nil (bitsOf 16 (x % 65536))]
    refine Reads.bind (reads_bitsOf 16 (x % 65536) (by omega) (by omega)) ?_
    have : u32 ((x / 65536) <<< 16) ||| x % 65536 = x := by
      rw [Nat.shiftLeft_eq]
      unfold u32
      have e : x / 65536 * 2 ^ 16 % 4294967296 = (x / 65536) <<< 16 := by rw [Nat.shiftLeft_eq]; omega
      rw [e, Nat.or_comm, or_shift (show x % 65536 < 2 ^ 16 by omega)]
      omega
    rw [this]
    exact Reads.pure _
  · have ep : ansPush f slot x = (x / f * 4096 + slot (x % f), []) := by
      unfold ansPush; rw [if_neg hc]
    rw [ep]
    dsimp only
    have hr : ([] : List Bool) = [] ++ ([] ++ ([] ++ [])) := by simp
    rw [hr]
    apply Reads.bind (Reads.pure _)
    refine Reads.bind (a := ((s : Int), ((x % f : Nat) : Int))) ?_ ?_
    · rw [hmod, (step _).2]; exact Reads.pure _
    dsimp only
    refine Reads.bind (a := (f : Int)) ?_ ?_
    · rw [hidx]; exact Reads.pure _
    rw [hstate _ (by omega), if_neg (by omega)]
    exact Reads.pure _

/-- Without a state, the state is read first. -/
theorem ansRead_none {a : ANSDist} {x : Nat} {b : List Bool} {r : Int × Option Nat} (hx : x < 2 ^ 32)
    (h : Reads (ansReadSymbol a (some x)) b r) : Reads (ansReadSymbol a none) (bitsOf 32 x ++ b) r := by
  intro s p hs hpre
  obtain ⟨h1, h2⟩ := prefix_append_split hpre
  obtain ⟨s1, e1, a1, d1⟩ := reads_bitsOf 32 x (by omega) hx s p hs h1
  rw [bitsFrom_drop] at h2
  obtain ⟨s2, e2, a2, d2⟩ := h s1 _ a1 (by rw [d1]; exact h2)
  refine ⟨s2, ?_, ?_, ?_⟩
  · rw [← e2]
    unfold ansReadSymbol
    rw [Rd.bind_ok (show ansInitState none s = (.ok x, s1) from e1), Rd.bind_ok (show ansInitState (some x) s1 = (.ok x, s1) from rfl)]
  · rw [List.length_append, ← Nat.add_assoc]; exact a2
  · rw [d2, d1]

theorem Carries.readSym {co : Coder} {st : Option Nat} {s : BR} {d : Dist} {a : Nat} {is : List Item} {e : Nat}
    (h : Carries co st s (.sym d a :: is) e) (hok : ∀ i ∈ Item.sym d a :: is, i.OK co) :
    ∃ st' s', d.readSymbol st s = (.ok ((a : Int), st'), s') ∧ Carries co st' s' is e ∧ s'.data = s.data := by
  obtain ⟨p, hp, hpre, he, hpad, hx⟩ := h
  have hok1 := hok (.sym d a) (by simp)
  have hrest := encodeItems_range co is (fun i hi => hok i (by simp [hi]))
  match d, hok1 with
  | .pre q c, hok1 =>
    have hb : itemBits co st (.sym (.pre q c) a :: is) = co.word q a ++ itemBits co st is := by
      cases st <;> rfl
    rw [hb] at hpre he
    obtain ⟨h1, h2⟩ := prefix_append_split hpre
    rw [List.length_append] at he
    obtain ⟨s', e1, a1, d1⟩ := hok1 s p hp h1 (by omega)
    rw [bitsFrom_drop] at h2
    refine ⟨st, s', ?_, ⟨_, a1, by rw [d1]; exact h2, by omega, by rw [d1]; exact hpad, ?_⟩, d1⟩
    · show (do let x ← q.readSymbol; pure (x, st) : Rd _) s = _
      rw [Rd.bind_ok e1]; rfl
    · intro x hx'; rw [hx x hx']; rfl
  | .ans q c, hok1 =>
    obtain ⟨⟨freq, hpr⟩, h0, hs⟩ := hok1
    have hstep := ansRead_push q freq hpr a h0 (co.slot q a) hs (encodeItems co is).1 hrest.1 hrest.2
    have hrange := encodeItems_range co _ hok
    obtain ⟨pb, hpb⟩ : ∃ pb, pb = ansPush (q.freq a) (co.slot q a) (encodeItems co is).1 := ⟨_, rfl⟩
    have henc : encodeItems co (.sym (.ans q c) a :: is) = (pb.1, pb.2 ++ (encodeItems co is).2) := by rw [hpb]; rfl
    rw [← hpb] at hstep
    have hreads : ∃ b, Reads (ansReadSymbol q st) b ((a : Int), some (encodeItems co is).1) ∧
        itemBits co st (.sym (.ans q c) a :: is) = b ++ (encodeItems co is).2 := by
      cases st with
      | none =>
        refine ⟨bitsOf 32 pb.1 ++ pb.2, ansRead_none (by rw [henc] at hrange; exact hrange.2) hstep, ?_⟩
        show bitsOf 32 (encodeItems co (.sym (.ans q c) a :: is)).1 ++ (encodeItems co (.sym (.ans q c) a :: is)).2 = _
        rw [henc, List.append_assoc]
      | some x =>
        have := hx x rfl
        rw [henc] at this
        refine ⟨pb.2, by rw [this]; exact hstep, ?_⟩
        show (encodeItems co (.sym (.ans q c) a :: is)).2 = _
        rw [henc]
    obtain ⟨b, hr, hb⟩ := hreads
    rw [hb] at hpre he
    obtain ⟨h1, h2⟩ := prefix_append_split hpre
    rw [List.length_append] at he
    obtain ⟨s', e1, a1, d1⟩ := hr s p hp h1
    rw [bitsFrom_drop] at h2
    refine ⟨some (encodeItems co is).1, s', e1, ⟨_, a1, ?_, ?_, by rw [d1]; exact hpad, ?_⟩, d1⟩
    · rw [d1]; exact h2
    · show _ + (encodeItems co is).2.length = e; omega
    · intro x hx'; cases hx'; rfl

theorem Carries.readRaw {co : Coder} {st : Option Nat} {s : BR} {b : List Bool} {is : List Item} {e : Nat} {α : Type} {m : Rd α} {v : α}
    (h : Carries co st s (.raw b :: is) e) (hm : Reads m b v) :
    ∃ s', m s = (.ok v, s') ∧ Carries co st s' is e ∧ s'.data = s.data := by
  obtain ⟨p, hp, hpre, he, hpad, hx⟩ := h
  have hb : itemBits co st (.raw b :: is) = b ++ itemBits co st is := by cases st <;> rfl
  rw [hb] at hpre he
  obtain ⟨h1, h2⟩ := prefix_append_split hpre
  rw [List.length_append] at he
  obtain ⟨s', e1, a1, d1⟩ := hm s p hp h1
  rw [bitsFrom_drop] at h2
  refine ⟨s', e1, ⟨_, a1, by rw [d1]; exact h2, by omega, by rw [d1]; exact hpad, ?_⟩, d1⟩
  intro x hx'; rw [hx x hx']; rfl

theorem Carries.done {co : Coder} {st : Option Nat} {s : BR} {e : Nat} (h : Carries co st s [] e) :
    AtBit s e ∧ (∀ x, st = some x → x = 0x130000) := by
  obtain ⟨p, hp, hpre, he, hpad, hx⟩ := h
  have : itemBits co st [] = [] := by cases st <;> rfl
  rw [this] at he
  have : p = e := by simpa using he
  subst this
  exact ⟨hp, hx⟩

end Jxl
