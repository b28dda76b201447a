import Verif.Spec.ReaderStream
import Mathlib.Tactic.Common
/-!
# Lemmas for `Props/ReaderStream.lean`
-/
namespace Jxl

/-- What the reader over memory sees of a reader over a stream. -/
def SBR.view (s : SBR) : BR := ⟨s.src.data, s.src.pos, s.bitsRead, s.index, s.cur⟩

/-- `x` succeeds only as `y` does; if `e`, it also fails only as `y` does. -/
def Sim (e : Prop) {α : Type} (x : Res α × SBR) (y : Res α × BR) : Prop :=
  (∃ a, x.1 = .ok a ∧ y.1 = .ok a ∧ x.2.view = y.2) ∨ (x.1 = .err ∧ (e → y.1 = .err ∧ x.2.view = y.2))

theorem Sim.ok {e : Prop} {α : Type} {a : α} {s : SBR} {t : BR} (h : s.view = t) :
    Sim e (Res.ok a, s) (Res.ok a, t) := Or.inl ⟨a, rfl, rfl, h⟩

theorem Sim.err {e : Prop} {α : Type} {s : SBR} {t : BR} (h : s.view = t) :
    Sim e ((Res.err, s) : Res α × SBR) (Res.err, t) := Or.inr ⟨rfl, fun _ => ⟨rfl, h⟩⟩

theorem Sim.elim {e : Prop} {α : Type} {x : Res α × SBR} {y : Res α × BR} (h : Sim e x y) :
    (∃ a s, x = (.ok a, s) ∧ y = (.ok a, s.view)) ∨ (∃ s, x = (.err, s) ∧ (e → y = (.err, s.view))) := by
  obtain ⟨x1, x2⟩ := x
  obtain ⟨y1, y2⟩ := y
  rcases h with ⟨a, h1, h2, h3⟩ | ⟨h1, h2⟩
  · dsimp only at h1 h2 h3
    subst h1 h2 h3
    exact Or.inl ⟨a, x2, rfl, rfl⟩
  · dsimp only at h1
    subst h1
    refine Or.inr ⟨x2, rfl, fun he => ?_⟩
    obtain ⟨h3, h4⟩ := h2 he
    dsimp only at h3 h4
    subst h3 h4
    rfl

/-- An outcome that passes on the error of `x`, as the other does that of `y`. -/
theorem Sim.failed {e : Prop} {β : Type} {t : BR} {s : SBR} {Y : Res β × BR} (h : e → Y = (.err, t))
    (ht : e → s.view = t) : Sim e ((.err, s) : Res β × SBR) Y :=
  Or.inr ⟨rfl, fun he => by rw [h he]; exact ⟨rfl, ht he⟩⟩

theorem Sim.reply {e : Prop} {α : Type} {x : Res α × SBR} {y : Res α × BR} (h : Sim e x y) (f : α → Reply) :
    Sim e (reply f x) (reply f y) := by
  obtain ⟨x1, x2⟩ := x
  obtain ⟨y1, y2⟩ := y
  rcases h with ⟨a, h1, h2, h3⟩ | ⟨h1, h2⟩
  · dsimp only at h1 h2 h3
    subst h1 h2 h3
    exact Sim.ok rfl
  · dsimp only at h1
    subst h1
    refine Or.inr ⟨rfl, fun he => ?_⟩
    obtain ⟨h3, h4⟩ := h2 he
    dsimp only at h3 h4
    subst h3 h4
    exact ⟨rfl, rfl⟩

/-- The next byte of the data. -/
def byteInMemory (t : BR) : Res UInt8 × BR :=
  match t.data[t.pos]? with
  | some b => (.ok b, { t with pos := t.pos + 1 })
  | none => (.err, t)

/-- Single bytes come in step. -/
def Fetches (e : Prop) (P : Policy) : Prop := ∀ s : SBR, Sim e (s.fetch P) (byteInMemory s.view)

theorem fetches_of_bytewise {P : Policy} (h : P.Bytewise) (e : Prop) : Fetches e P := by
  intro s
  unfold SBR.fetch ByteSource.read byteInMemory
  rw [h]
  dsimp only [inMemory, SBR.view]
  by_cases hp : s.src.pos < s.src.data.length
  · have h1 : min 1 (s.src.data.length - s.src.pos) = 1 := by omega
    have h2 : ¬ s.src.data.length - s.src.pos = 0 := by omega
    rw [h1, List.drop_eq_getElem_cons hp, List.getElem?_eq_getElem hp]
    simp only [List.take_succ_cons, List.take_zero, h2, decide_false, Bool.false_eq_true, if_false]
    exact Sim.ok rfl
  · have h1 : min 1 (s.src.data.length - s.src.pos) = 0 := by omega
    have h2 : s.src.data.length - s.src.pos = 0 := by omega
    rw [h1, List.getElem?_eq_none (by omega)]
    simp only [h2, List.take_zero, decide_true, if_true]
    exact Sim.err rfl

theorem fetches_of_steady {P : Policy} (h : P.Steady) : Fetches False P := by
  intro s
  unfold SBR.fetch ByteSource.read byteInMemory
  dsimp only [SBR.view]
  by_cases hp : s.src.pos < s.src.data.length
  · rw [h.gives _ _ (by omega), List.drop_eq_getElem_cons hp, List.getElem?_eq_getElem hp]
    simp only [List.take_succ_cons, List.take_zero]
    split
    · exact Or.inr ⟨rfl, fun hf => hf.elim⟩
    · exact Sim.ok rfl
  · have h2 : s.src.data.length - s.src.pos = 0 := by omega
    rw [h2, if_pos (h.stops _ _)]
    exact Or.inr ⟨rfl, fun hf => hf.elim⟩

section
variable {e : Prop} {P : Policy} (hf : Fetches e P)
include hf

theorem fetch_cases (s : SBR) :
    (∃ b s', s.fetch P = (.ok b, s') ∧ s.view.data[s.view.pos]? = some b ∧
      s'.view = { s.view with pos := s.view.pos + 1 }) ∨
    (∃ s', s.fetch P = (.err, s') ∧ (e → s.view.data[s.view.pos]? = none ∧ s'.view = s.view)) := by
  have h := hf s
  unfold byteInMemory at h
  revert h
  generalize s.fetch P = x
  obtain ⟨x1, x2⟩ := x
  cases hd : s.view.data[s.view.pos]? with
  | none =>
    rintro (⟨a, h1, h2, h3⟩ | ⟨h1, h2⟩)
    · cases h2
    · dsimp only at h1
      subst h1
      exact Or.inr ⟨x2, rfl, fun he => ⟨rfl, (h2 he).2⟩⟩
  | some b =>
    rintro (⟨a, h1, h2, h3⟩ | ⟨h1, h2⟩)
    · dsimp only at h1 h2 h3
      cases h2
      subst h1
      exact Or.inl ⟨b, x2, rfl, rfl, h3⟩
    · dsimp only at h1
      subst h1
      exact Or.inr ⟨x2, rfl, fun he => by cases (h2 he).1⟩

theorem sim_readBit (s : SBR) : Sim e (s.readBit P) (readBit s.view) := by
  unfold SBR.readBit readBit
  by_cases h0 : s.index = 0
  · have h0' : s.view.index = 0 := h0
    rw [if_pos h0, if_pos h0']
    rcases fetch_cases hf s with ⟨b, s', h1, h2, h3⟩ | ⟨s', h1, h2⟩
    · rw [h1, h2]
      dsimp only
      have h4 : s'.src.data = s.src.data := congrArg BR.data h3
      have h5 : s'.src.pos = s.src.pos + 1 := congrArg BR.pos h3
      have h6 : s'.bitsRead = s.bitsRead := congrArg BR.bitsRead h3
      have h7 : s'.index = s.index := congrArg BR.index h3
      rw [h7]
      refine Sim.ok ?_
      simp only [SBR.view, h4, h5, h6]
    · rw [h1]
      refine Or.inr ⟨rfl, fun he => ?_⟩
      rw [(h2 he).1]
      exact ⟨rfl, (h2 he).2⟩
  · have h0' : ¬ s.view.index = 0 := h0
    rw [if_neg h0, if_neg h0']
    exact Sim.ok rfl

theorem sim_bytesLoop (need : Nat) : ∀ (k acc : Nat) (s : SBR),
    Sim e (SBR.bytesLoop P need k acc s) (readBytesLoop need k acc s.view) := by
  induction need using Nat.strongRecOn with
  | _ need ih =>
    intro k acc s
    unfold SBR.bytesLoop readBytesLoop
    by_cases h8 : 8 ≤ need
    · rw [if_pos h8, if_pos h8]
      rcases fetch_cases hf s with ⟨b, s', h1, h2, h3⟩ | ⟨s', h1, h2⟩
      · rw [h1, h2]
        have h4 : s'.src.data = s.src.data := congrArg BR.data h3
        have h5 : s'.src.pos = s.src.pos + 1 := congrArg BR.pos h3
        have h6 : s'.bitsRead = s.bitsRead := congrArg BR.bitsRead h3
        have h7 : s'.index = s.index := congrArg BR.index h3
        have h8 : s'.cur = s.cur := congrArg BR.cur h3
        have := ih (need - 8) (by omega) (k + 8) (acc ||| (b.toNat <<< k)) { s' with bitsRead := s'.bitsRead + 8 }
        simp only [SBR.view, h4, h5, h6, h7, h8] at this ⊢
        exact this
      · rw [h1]
        refine Or.inr ⟨rfl, fun he => ?_⟩
        rw [(h2 he).1]
        exact ⟨rfl, (h2 he).2⟩
    · rw [if_neg h8, if_neg h8]
      exact Sim.ok rfl

theorem sim_tail (need k acc : Nat) (s : SBR) : Sim e (SBR.tail P need k acc s) (readTail need k acc s.view) := by
  unfold SBR.tail readTail
  by_cases h8 : 0 < need
  · rw [if_pos h8, if_pos h8]
    rcases fetch_cases hf s with ⟨b, s', h1, h2, h3⟩ | ⟨s', h1, h2⟩
    · rw [h1, h2]
      have h4 : s'.src.data = s.src.data := congrArg BR.data h3
      have h5 : s'.src.pos = s.src.pos + 1 := congrArg BR.pos h3
      have h6 : s'.bitsRead = s.bitsRead := congrArg BR.bitsRead h3
      have h7 : s'.index = s.index := congrArg BR.index h3
      have h8 : s'.cur = s.cur := congrArg BR.cur h3
      refine Sim.ok ?_
      simp only [SBR.view, h4, h5, h6]
    · rw [h1]
      refine Or.inr ⟨rfl, fun he => ?_⟩
      rw [(h2 he).1]
      exact ⟨rfl, (h2 he).2⟩
  · rw [if_neg h8, if_neg h8]
    exact Sim.ok rfl

theorem sim_readBits (bits : Nat) (s : SBR) : Sim e (s.readBits P bits) (readBits bits s.view) := by
  unfold SBR.readBits readBits
  by_cases h0 : bits = 0
  · rw [if_pos h0, if_pos h0]; exact Sim.ok rfl
  rw [if_neg h0, if_neg h0]
  by_cases h64 : 64 < bits
  · rw [if_pos h64, if_pos h64]; exact Sim.err rfl
  rw [if_neg h64, if_neg h64]
  unfold readAligned
  by_cases hi : s.index = 0
  · have hi' : s.view.index = 0 := hi
    simp only [hi, hi', ne_eq, not_true_eq_false, if_false]
    rcases (sim_bytesLoop hf (bits - 0) 0 0 s).elim with ⟨⟨need, k, acc⟩, s', h1, h2⟩ | ⟨s', h1, h2⟩
    · rw [h1, h2]; exact sim_tail hf _ _ _ s'
    · rw [h1]; exact Sim.failed (fun he => by rw [h2 he]) (fun _ => rfl)
  · have hi' : ¬ s.view.index = 0 := hi
    simp only [hi, hi', ne_eq, not_false_eq_true, if_true]
    by_cases hl : 8 - s.index < bits
    · have hl' : 8 - s.view.index < bits := hl
      simp only [hl, hl', if_true]
      rcases (sim_bytesLoop hf (bits - (8 - s.index)) (8 - s.index) (s.cur.toNat >>> s.index &&& 1 <<< (8 - s.index) - 1)
          { s with bitsRead := s.bitsRead + (8 - s.index), index := (s.index + (8 - s.index)) % 8 }).elim
        with ⟨⟨need, k, acc⟩, s', h1, h2⟩ | ⟨s', h1, h2⟩
      · dsimp only [SBR.view] at h1 h2 ⊢
        rw [h1, h2]; exact sim_tail hf _ _ _ s'
      · dsimp only [SBR.view] at h1 h2 ⊢
        rw [h1]; exact Sim.failed (fun he => by rw [h2 he]; rfl) (fun _ => rfl)
    · have hl' : ¬ 8 - s.view.index < bits := hl
      simp only [hl, hl', if_false]
      rcases (sim_bytesLoop hf (bits - bits) bits (s.cur.toNat >>> s.index &&& 1 <<< bits - 1)
          { s with bitsRead := s.bitsRead + bits, index := (s.index + bits) % 8 }).elim
        with ⟨⟨need, k, acc⟩, s', h1, h2⟩ | ⟨s', h1, h2⟩
      · dsimp only [SBR.view] at h1 h2 ⊢
        rw [h1, h2]; exact sim_tail hf _ _ _ s'
      · dsimp only [SBR.view] at h1 h2 ⊢
        rw [h1]; exact Sim.failed (fun he => by rw [h2 he]; rfl) (fun _ => rfl)

theorem sim_showBits (bits : Nat) (s : SBR) : Sim e (s.showBits P bits) (showBits bits s.view) := by
  have h := sim_readBits hf (u32 bits) s
  unfold SBR.showBits showBits
  rcases h.elim with ⟨a, s', h1, h2⟩ | ⟨s', h1, h2⟩
  · rw [h1, h2]; exact Sim.ok rfl
  · rw [h1]; exact Sim.failed (fun he => by rw [h2 he]) (fun _ => rfl)

theorem sim_skipLoop : ∀ (k : Nat) (s : SBR), Sim e (SBR.skipLoop P k s) (skipLoop k s.view)
  | 0, _ => Sim.ok rfl
  | k + 1, s => by
    unfold SBR.skipLoop skipLoop
    rcases (sim_readBit hf s).elim with ⟨a, s', h1, h2⟩ | ⟨s', h1, h2⟩
    · rw [h1, h2]; exact sim_skipLoop k s'
    · rw [h1]; exact Sim.failed (fun he => by rw [h2 he]) (fun _ => rfl)

theorem sim_zeroPad (s : SBR) : Sim e (s.zeroPadToByte P) (zeroPadToByte s.view) := by
  unfold SBR.zeroPadToByte zeroPadToByte
  by_cases hi : s.index = 0
  · have hi' : s.view.index = 0 := hi
    rw [if_pos hi, if_pos hi']; exact Sim.ok rfl
  · have hi' : ¬ s.view.index = 0 := hi
    rw [if_neg hi, if_neg hi']
    change Sim e _ (match readBits (8 - s.index) s.view with
      | (.ok _, s) => (.ok (), s) | (.err, s) => (.err, s) | (.panic, s) => (.panic, s))
    rcases (sim_readBits hf (8 - s.index) s).elim with ⟨a, s', h1, h2⟩ | ⟨s', h1, h2⟩
    · rw [h1, h2]; exact Sim.ok rfl
    · rw [h1]; exact Sim.failed (fun he => by rw [h2 he]) (fun _ => rfl)

end

theorem read_memory {P : Policy} {n : Nat} (h : ∀ i left, P i n left = inMemory i n left) (s : ByteSource) :
    s.read P n = (List.take n (List.drop s.pos s.data), decide (s.data.length - s.pos = 0),
      { s with pos := s.pos + (List.take n (List.drop s.pos s.data)).length, calls := s.calls + 1 }) := by
  have htake : List.take (min n (s.data.length - s.pos)) (List.drop s.pos s.data) =
      List.take n (List.drop s.pos s.data) := by
    rw [← List.length_drop]; exact List.take_eq_take_min.symm
  unfold ByteSource.read
  rw [h]
  dsimp only [inMemory]
  rw [htake]

theorem sim_readBytes_memory {P : Policy} {n : Nat} (h : ∀ i left, P i n left = inMemory i n left) (e : Prop)
    (s : SBR) : Sim e (s.readBytes P n) (readBytesToBuffer n s.view) := by
  unfold SBR.readBytes readBytesToBuffer
  by_cases hi : s.index = 0
  swap
  · have hi' : s.view.index ≠ 0 := hi
    rw [if_pos hi, if_pos hi']; exact Sim.err rfl
  have hi' : ¬ s.view.index ≠ 0 := not_not.2 hi
  rw [if_neg (not_not.2 hi), if_neg hi']
  rw [read_memory h]
  dsimp only
  by_cases hp : s.src.data.length ≤ s.src.pos
  · have h2 : s.src.data.length - s.src.pos = 0 := by omega
    rw [if_pos (show s.view.data.length ≤ s.view.pos from hp)]
    rw [if_pos (decide_eq_true h2)]
    refine Sim.err ?_
    have : List.drop s.src.pos s.src.data = [] := List.drop_eq_nil_of_le hp
    simp [this, SBR.view]
  · have h2 : ¬ s.src.data.length - s.src.pos = 0 := by omega
    rw [if_neg (show ¬ s.view.data.length ≤ s.view.pos from hp)]
    rw [if_neg (by rw [decide_eq_true_eq]; exact h2)]
    by_cases hl : (List.take n (List.drop s.src.pos s.src.data)).length = n
    · rw [if_neg (not_not.2 hl)]
      rw [if_neg (show ¬ (List.take n (List.drop s.view.pos s.view.data)).length ≠ n from not_not.2 hl)]
      exact Sim.ok rfl
    · rw [if_pos hl]
      rw [if_pos (show (List.take n (List.drop s.view.pos s.view.data)).length ≠ n from hl)]
      exact Sim.err rfl

theorem sim_readBytes_steady {P : Policy} (h : P.Steady) (n : Nat) (s : SBR) :
    Sim False (s.readBytes P n) (readBytesToBuffer n s.view) := by
  unfold SBR.readBytes readBytesToBuffer
  by_cases hi : s.index = 0
  swap
  · have hi' : s.view.index ≠ 0 := hi
    rw [if_pos hi, if_pos hi']; exact Sim.err rfl
  have hi' : ¬ s.view.index ≠ 0 := not_not.2 hi
  rw [if_neg (not_not.2 hi), if_neg hi']
  unfold ByteSource.read
  dsimp only
  by_cases hp : s.src.data.length ≤ s.src.pos
  · have h2 : s.src.data.length - s.src.pos = 0 := by omega
    rw [h2, if_pos (h.stops _ _)]
    exact Or.inr ⟨rfl, fun hf => hf.elim⟩
  rw [if_neg (show ¬ s.view.data.length ≤ s.view.pos from hp)]
  split
  · exact Or.inr ⟨rfl, fun hf => hf.elim⟩
  split
  · exact Or.inr ⟨rfl, fun hf => hf.elim⟩
  · rename_i hl
    have hl := not_not.1 hl
    have hc := h.fits s.src.calls n (s.src.data.length - s.src.pos)
    have hle := List.length_take_le (P s.src.calls n (s.src.data.length - s.src.pos)).count
      (List.drop s.src.pos s.src.data)
    have hcn : (P s.src.calls n (s.src.data.length - s.src.pos)).count = n := by omega
    rw [hcn] at hl ⊢
    rw [if_neg (show ¬ (List.take n (List.drop s.view.pos s.view.data)).length ≠ n from not_not.2 hl)]
    exact Sim.ok rfl

theorem sim_skipBits_memory {e : Prop} {P : Policy} (hf : Fetches e P) (bits : Nat)
    (h : 0 < bits / 8 → ∀ i left, P i (bits / 8) left = inMemory i (bits / 8) left) (s : SBR) :
    Sim e (s.skipBits P bits) (skipBits bits s.view) := by
  unfold SBR.skipBits skipBits
  dsimp only
  by_cases hn : 0 < bits / 8
  swap
  · rw [if_neg hn, if_neg hn]; exact sim_skipLoop hf _ s
  rw [if_pos hn, if_pos hn]
  rw [read_memory (h hn)]
  dsimp only
  by_cases hp : s.src.data.length ≤ s.src.pos
  · have h2 : s.src.data.length - s.src.pos = 0 := by omega
    rw [if_pos (show s.view.data.length ≤ s.view.pos from hp)]
    rw [if_pos (decide_eq_true h2)]
    refine Sim.err ?_
    have : List.drop s.src.pos s.src.data = [] := List.drop_eq_nil_of_le hp
    simp [this, SBR.view]
  · have h2 : ¬ s.src.data.length - s.src.pos = 0 := by omega
    rw [if_neg (show ¬ s.view.data.length ≤ s.view.pos from hp)]
    rw [if_neg (by rw [decide_eq_true_eq]; exact h2)]
    exact sim_skipLoop hf _ _

theorem sim_skipBits_steady {P : Policy} (h : P.Steady) (bits : Nat) (hb : bits < 16) (s : SBR) :
    Sim False (s.skipBits P bits) (skipBits bits s.view) := by
  have hf := fetches_of_steady h
  unfold SBR.skipBits skipBits
  dsimp only
  by_cases hn : 0 < bits / 8
  swap
  · rw [if_neg hn, if_neg hn]; exact sim_skipLoop hf _ s
  rw [if_pos hn, if_pos hn]
  have h1 : bits / 8 = 1 := by omega
  rw [h1]
  unfold ByteSource.read
  dsimp only
  by_cases hp : s.src.data.length ≤ s.src.pos
  · have h2 : s.src.data.length - s.src.pos = 0 := by omega
    rw [h2, if_pos (h.stops _ _)]
    exact Or.inr ⟨rfl, fun hf => hf.elim⟩
  rw [if_neg (show ¬ s.view.data.length ≤ s.view.pos from hp)]
  split
  · exact Or.inr ⟨rfl, fun hf => hf.elim⟩
  · rw [h.gives _ _ (by omega)]
    exact sim_skipLoop hf _ _

theorem sim_skip {e : Prop} {P : Policy} {n : Nat} {s : SBR}
    (h : Sim e (s.skipBits P (u32 (n <<< 3))) (skipBits (u32 (n <<< 3)) s.view)) :
    Sim e (s.skipBytes P n) (skipBytes n s.view) := by
  unfold SBR.skipBytes skipBytes
  rcases h.elim with ⟨a, s', h1, h2⟩ | ⟨s', h1, h2⟩
  · rw [h1, h2]; exact Sim.ok rfl
  · rw [h1]; exact Sim.failed (fun he => by rw [h2 he]) (fun _ => rfl)

theorem sim_answer_memory {P : Policy} (c : Call) (h : ∀ n, c.Asks n → ∀ i left, P i n left = inMemory i n left)
    (e : Prop) (s : SBR) : Sim e (s.answer P c) (s.view.answer c) := by
  cases c with
  | bit => exact (sim_readBit (fetches_of_bytewise (h 1 rfl) e) s).reply _
  | bits n => exact (sim_readBits (fetches_of_bytewise (h 1 rfl) e) n s).reply _
  | peek n => exact (sim_showBits (fetches_of_bytewise (h 1 rfl) e) n s).reply _
  | skipBits n =>
    exact (sim_skipBits_memory (fetches_of_bytewise (h 1 (.inl rfl)) e) n
      (fun hn => h _ (.inr ⟨hn, rfl⟩)) s).reply _
  | skip n =>
    exact (sim_skip (sim_skipBits_memory (fetches_of_bytewise (h 1 (.inl rfl)) e) _
      (fun hn => h _ (.inr ⟨hn, rfl⟩)) s)).reply _
  | pad => exact (sim_zeroPad (fetches_of_bytewise (h 1 rfl) e) s).reply _
  | bytes n => exact (sim_readBytes_memory (h n rfl) e s).reply _
  | bytesAt o n =>
    unfold SBR.answer BR.answer SBR.readBytesAt
    by_cases hn : n = 0
    · simp only [hn, if_true]; exact Sim.ok rfl
    · simp only [hn, if_false]
      exact (sim_readBytes_memory (h n ⟨by omega, rfl⟩) e _).reply _
  | seek o => exact Sim.ok rfl
  | reset => exact Sim.ok rfl
  | count => exact Sim.ok rfl

theorem sim_answer_steady {P : Policy} (h : P.Steady) (c : Call) (hc : c.SkipsLittle)
    (s : SBR) : Sim False (s.answer P c) (s.view.answer c) := by
  have hf := fetches_of_steady h
  cases c with
  | bit => exact (sim_readBit hf s).reply _
  | bits n => exact (sim_readBits hf n s).reply _
  | peek n => exact (sim_showBits hf n s).reply _
  | skipBits n => exact (sim_skipBits_steady h n hc s).reply _
  | skip n => exact (sim_skip (sim_skipBits_steady h _ hc s)).reply _
  | pad => exact (sim_zeroPad hf s).reply _
  | bytes n => exact (sim_readBytes_steady h n s).reply _
  | bytesAt o n =>
    unfold SBR.answer BR.answer SBR.readBytesAt
    by_cases hn : n = 0
    · simp only [hn, if_true]; exact Sim.ok rfl
    · simp only [hn, if_false]
      exact (sim_readBytes_steady h n _).reply _
  | seek o => exact Sim.ok rfl
  | reset => exact Sim.ok rfl
  | count => exact Sim.ok rfl

/-- Calls in step make clients arrive at the same result. -/
theorem run_of_sim {α : Type} {P : Policy} {p : Call → Prop}
    (h : ∀ c, p c → ∀ s : SBR, Sim True (s.answer P c) (s.view.answer c)) (k : Client α) :
    k.All p → ∀ s, k.run (SBR.answer P) s = k.run BR.answer s.view := by
  induction k with
  | ret a => intro _ s; rfl
  | fail => intro _ s; rfl
  | call c next failed ih ihf =>
    intro hall s
    unfold Client.run
    have hs := h c hall.1 s
    revert hs
    generalize s.answer P c = x
    generalize s.view.answer c = y
    obtain ⟨x1, x2⟩ := x
    obtain ⟨y1, y2⟩ := y
    rintro (⟨r, h1, h2, h3⟩ | ⟨h1, h2⟩)
    · dsimp only at h1 h2 h3
      subst h1 h2 h3
      exact ih r (hall.2.1 r) x2
    · obtain ⟨h3, h4⟩ := h2 trivial
      dsimp only at h1 h3 h4
      subst h1 h3 h4
      exact ihf hall.2.2 x2

/-- Successful calls in step make clients that give up at errors succeed only with the same result. -/
theorem run_of_sim_ok {α : Type} {P : Policy} {p : Call → Prop}
    (h : ∀ c, p c → ∀ s : SBR, Sim False (s.answer P c) (s.view.answer c)) (k : Client α) :
    k.All p → k.GivesUp → ∀ s a, k.run (SBR.answer P) s = .ok a → k.run BR.answer s.view = .ok a := by
  induction k with
  | ret a => intro _ _ s b hb; exact hb
  | fail => intro _ _ s b hb; exact hb
  | call c next failed ih ihf =>
    intro hall hg s a ha
    unfold Client.run at ha ⊢
    have hs := h c hall.1 s
    revert hs ha
    generalize s.answer P c = x
    generalize s.view.answer c = y
    obtain ⟨x1, x2⟩ := x
    obtain ⟨y1, y2⟩ := y
    rintro ha (⟨r, h1, h2, h3⟩ | ⟨h1, h2⟩)
    · dsimp only at h1 h2 h3
      subst h1 h2 h3
      exact ih r (hall.2.1 r) (hg.1 r) x2 a ha
    · dsimp only at h1
      subst h1
      rw [hg.2] at ha
      cases ha

end Jxl
