import Verif.Proofs.IOHelper
/-!
# C96, C97: reading from an arbitrary `io.ReadSeeker`

C96: how a reader hands over its data should make no difference to what the bit reader's clients see. C97: the
helpers `ReadFullyWithOffset`, `ReadFully` and `SkipFully` read and skip what they are asked to.
-/
namespace Jxl

/-! ## The readers of the specification -/

theorem inMemory_lawful : inMemory.Lawful where
  fits i n left := by unfold inMemory; dsimp only; omega
  has i n left := by unfold inMemory; dsimp only; omega
  ends i n left := by
    unfold inMemory; dsimp only; rw [decide_eq_true_eq]; omega

theorem oneByte_lawful : oneByte.Lawful where
  fits i n left := by unfold oneByte; dsimp only; omega
  has i n left := by unfold oneByte; dsimp only; omega
  ends i n left := by
    unfold oneByte; dsimp only; rw [decide_eq_true_eq]; omega

theorem eager_lawful : eager.Lawful where
  fits i n left := by unfold eager; dsimp only; omega
  has i n left := by unfold eager; dsimp only; omega
  ends i n left := by
    unfold eager; dsimp only; rw [decide_eq_true_eq]; omega

theorem halting_lawful : halting.Lawful where
  fits i n left := by
    unfold halting
    split
    · exact Nat.zero_le _
    · exact inMemory_lawful.fits i n left
  has i n left := by
    unfold halting
    split
    · exact Nat.zero_le _
    · exact inMemory_lawful.has i n left
  ends i n left := by
    unfold halting
    split
    · intro h; cases h
    · exact inMemory_lawful.ends i n left

/-! ## C96 -/

/-- C96. Over a reader that answers requests for at least one byte as `bytes.Reader` does, every client that asks for
no empty buffer to be filled arrives at the result it has over the same bytes in memory, whatever calls it makes. -/
theorem C96_prompt_readers_partial {α : Type} (P : Policy) (hP : P.Prompt) (k : Client α)
    (hk : k.All (fun c => ¬ c.Asks 0)) (data : List UInt8) :
    k.run (SBR.answer P) (SBR.new data) = k.run BR.answer (BR.new data) :=
  run_of_sim (fun c hc s => sim_answer_memory c (fun n hn i left => hP i n left (by
    rcases Nat.eq_zero_or_pos n with h0 | h0
    · exact absurd (h0 ▸ hn) hc
    · exact h0)) True s) k hk (SBR.new data)

/-- C96. Over a reader that answers requests for one byte as `bytes.Reader` does and splits larger ones as it likes,
every client that reads single bits, bits, peeks, pads, seeks and resets arrives at the result it has over the same
bytes in memory. -/
theorem C96_splitting_readers_partial {α : Type} (P : Policy) (hP : P.Bytewise) (k : Client α)
    (hk : k.All (fun c => ∀ n, c.Asks n → n = 1)) (data : List UInt8) :
    k.run (SBR.answer P) (SBR.new data) = k.run BR.answer (BR.new data) :=
  run_of_sim (fun c hc s => sim_answer_memory c (fun n hn i left => by rw [hc n hn]; exact hP i left) True s) k hk
    (SBR.new data)

/-- C96. Over every lawful reader that does not stall on single bytes - it may split larger requests and report the end
together with the last bytes - a client that gives up at the first error and skips less than two bytes at once either
fails or arrives at the result it has over the same bytes in memory: it never sees wrong data. -/
theorem C96_no_wrong_results_partial {α : Type} (P : Policy) (hP : P.Steady) (k : Client α)
    (hk : k.All Call.SkipsLittle) (hg : k.GivesUp) (data : List UInt8) (a : α)
    (ha : k.run (SBR.answer P) (SBR.new data) = .ok a) : k.run BR.answer (BR.new data) = .ok a :=
  run_of_sim_ok (fun c hc s => sim_answer_steady hP c hc s) k hk hg (SBR.new data) a ha

/-- A client: the value of `c` bits after `b` bits. -/
def twoReads (b c : Nat) : Client Nat :=
  .call (.bits b) (fun _ => .call (.bits c) (fun r => match r with | .num n => .ret n | _ => .fail) .fail) .fail

/-- A client: skip `k` bytes, then read one. -/
def skipThenRead (k : Nat) : Client Nat :=
  .call (.skip k) (fun _ => .call (.bits 8) (fun r => match r with | .num n => .ret n | _ => .fail) .fail) .fail

theorem oneByte_bytewise : oneByte.Bytewise := by
  intro i left
  unfold oneByte inMemory
  rw [show min 1 (min 1 left) = min 1 left by omega]

theorem oneByte_steady : oneByte.Steady where
  toLawful := oneByte_lawful
  gives i left h := by unfold oneByte; dsimp only; omega
  stops i n := by unfold oneByte; rfl

theorem eager_steady : eager.Steady where
  toLawful := eager_lawful
  gives i left h := by unfold eager; dsimp only; omega
  stops i n := by unfold eager; dsimp only; exact decide_eq_true (Nat.zero_le n)

theorem inMemory_prompt : inMemory.Prompt := fun _ _ _ _ => rfl

theorem twoReads_all (p : Call → Prop) (b c : Nat) (h : ∀ n, p (.bits n)) : (twoReads b c).All p := by
  refine ⟨h b, fun r => ⟨h c, fun r => ?_, trivial⟩, trivial⟩
  cases r <;> trivial

theorem twoReads_givesUp (b c : Nat) : (twoReads b c).GivesUp := by
  refine ⟨fun r => ⟨fun r => ?_, rfl⟩, rfl⟩
  cases r <;> trivial

/-- The hypotheses of `C96_prompt_readers_partial` are met, and its conclusion speaks of a value. -/
example : (twoReads 3 11).run (SBR.answer inMemory) (SBR.new [0xA5, 0x3C]) =
      (twoReads 3 11).run BR.answer (BR.new [0xA5, 0x3C]) ∧
    (twoReads 3 11).run BR.answer (BR.new [0xA5, 0x3C]) = .ok 1940 :=
  ⟨C96_prompt_readers_partial _ inMemory_prompt _ (twoReads_all _ _ _ (fun _ h => by cases h)) _,
    by decide +kernel⟩

/-- The hypotheses of `C96_splitting_readers_partial` are met by a reader that splits every request. -/
example : (twoReads 3 11).run (SBR.answer oneByte) (SBR.new [0xA5, 0x3C]) =
      (twoReads 3 11).run BR.answer (BR.new [0xA5, 0x3C]) :=
  C96_splitting_readers_partial _ oneByte_bytewise _ (twoReads_all _ _ _ (fun _ _ h => h)) _

/-- The hypotheses of `C96_no_wrong_results_partial` are met by a reader that reports the end with the last
byte; here another byte follows, so the reads succeed. -/
example : (twoReads 3 11).run BR.answer (BR.new [0xA5, 0x3C, 0]) = .ok 1940 :=
  C96_no_wrong_results_partial eager eager_steady _ (twoReads_all _ _ _ (fun _ => trivial))
    (twoReads_givesUp _ _) _ _ (by decide +kernel)

/-- C96 fails: a reader that reports `io.EOF` together with the last byte, as the contract of `io.Reader` allows, makes
the last byte of every stream unreadable. -/
theorem C96_fails_last_byte_lost (s : SBR) (hd : s.src.pos + 1 = s.src.data.length) (hi : s.index = 0) (n : Nat) (h1 : 1 ≤ n)
    (h8 : n ≤ 8) : (s.readBits eager n).1 = .err ∧ ∃ v, (Jxl.readBits n s.view).1 = .ok v := by
  have hp : s.src.pos < s.src.data.length := by omega
  have hf : (s.fetch eager).1 = .err := by
    unfold SBR.fetch ByteSource.read eager
    dsimp only
    rw [if_pos (decide_eq_true (by omega))]
  constructor
  · unfold SBR.readBits
    rw [if_neg (by omega), if_neg (by omega)]
    simp only [hi, ne_eq, not_true_eq_false, if_false]
    unfold SBR.bytesLoop
    by_cases h : n = 8
    · subst h
      rw [if_pos (by omega)]
      revert hf
      generalize s.fetch eager = x
      obtain ⟨a, b⟩ := x
      intro hf
      dsimp only at hf
      subst hf
      rfl
    · rw [if_neg (by omega)]
      dsimp only
      unfold SBR.tail
      rw [if_pos (by omega)]
      revert hf
      generalize s.fetch eager = x
      obtain ⟨a, b⟩ := x
      intro hf
      dsimp only at hf
      subst hf
      rfl
  · have hi' : s.view.index = 0 := hi
    have hg : s.view.data[s.view.pos]? = some s.src.data[s.src.pos] := List.getElem?_eq_getElem hp
    unfold Jxl.readBits
    rw [if_neg (by omega), if_neg (by omega)]
    simp only [hi', ne_eq, not_true_eq_false, if_false]
    unfold readAligned readBytesLoop
    by_cases h : n = 8
    · subst h
      rw [if_pos (by omega), hg]
      dsimp only
      unfold readBytesLoop
      rw [if_neg (by omega)]
      dsimp only
      unfold readTail
      rw [if_neg (by omega)]
      exact ⟨_, rfl⟩
    · rw [if_neg (by omega)]
      dsimp only
      unfold readTail
      rw [if_pos (by omega), hg]
      exact ⟨_, rfl⟩

example : ((SBR.new [0xA5]).readBits eager 8).1 = .err := (C96_fails_last_byte_lost (SBR.new [0xA5]) rfl rfl 8 (by decide) (by decide)).1

/-- C96 fails: over a reader that hands over one byte at a time, the twelve bytes the box reader asks for first
(core/read_jxl_boxes.go:41) cannot be read, so no file is decoded. -/
theorem C96_fails_no_file_read (data : List UInt8) (offset n : Nat) (hn : 2 ≤ n) :
    ((SBR.new data).readBytesAt oneByte offset n).1 = .err := by
  unfold SBR.readBytesAt
  rw [if_neg (by omega)]
  unfold SBR.readBytes ByteSource.read oneByte SBR.new
  dsimp only
  rw [if_neg (not_not.2 rfl)]
  split
  · rfl
  · rw [if_pos]
    have := List.length_take_le (min 1 (min n (data.length - offset))) (List.drop offset data)
    omega

example : ((SBR.new (List.replicate 40 0)).readBytesAt oneByte 0 12).1 = .err :=
  C96_fails_no_file_read _ 0 12 (by decide)

/-- Reading eight bits at a byte boundary is reading one byte. -/
theorem readBits_byte (P : Policy) (s : SBR) (hi : s.index = 0) (b : UInt8) (s' : SBR)
    (h : s.fetch P = (.ok b, s')) : s.readBits P 8 = (.ok b.toNat, { s' with bitsRead := s'.bitsRead + 8 }) := by
  unfold SBR.readBits
  simp only [hi, show (8 : Nat) ≠ 0 by decide, show ¬ 64 < 8 by decide, if_false, ne_eq, not_true_eq_false]
  unfold SBR.bytesLoop
  rw [if_pos (by decide), h]
  dsimp only
  unfold SBR.bytesLoop
  rw [if_neg (by decide)]
  dsimp only
  unfold SBR.tail
  rw [if_neg (by decide)]
  simp

/-- C96 fails: over a reader that hands over one byte at a time, skipping `k` bytes skips one and reports success: the
next byte read is the second one of the stream. -/
theorem C96_fails_skip_stops_early (a b : UInt8) (rest : List UInt8) (k : Nat) (hk : 2 ≤ k) (hk' : k < 2 ^ 29) :
    (skipThenRead k).run (SBR.answer oneByte) (SBR.new (a :: b :: rest)) = .ok b.toNat := by
  have hu : u32 (k <<< 3) = k * 8 := by
    unfold u32
    rw [Nat.shiftLeft_eq]
    omega
  have hskip : (SBR.new (a :: b :: rest)).skipBytes oneByte k =
      (.ok k, ⟨⟨a :: b :: rest, 1, 1⟩, 0, 0, 0, 0⟩) := by
    unfold SBR.skipBytes
    rw [hu]
    unfold SBR.skipBits
    dsimp only
    rw [show k * 8 / 8 = k by omega, if_pos (by omega), show k * 8 - k * 8 = 0 by omega]
    unfold ByteSource.read oneByte SBR.new
    dsimp only
    rw [show min 1 (min k ((a :: b :: rest).length - 0)) = 1 by simp; omega]
    have : ([a] : List UInt8)[k - 1]? = none := by rw [List.getElem?_eq_none]; simp; omega
    simp [SBR.skipLoop, this]
  have hread := readBits_byte oneByte ⟨⟨a :: b :: rest, 1, 1⟩, 0, 0, 0, 0⟩ rfl b ⟨⟨a :: b :: rest, 2, 2⟩, b, 0, 0, 0⟩ (by
    unfold SBR.fetch ByteSource.read oneByte
    simp)
  simp only [skipThenRead, Client.run, SBR.answer, hskip, reply, hread]

/-- In memory the byte after `k` skipped ones is read. -/
example : (skipThenRead 3).run (SBR.answer oneByte) (SBR.new [10, 11, 12, 13]) = .ok 11 ∧
    (skipThenRead 3).run BR.answer (BR.new [10, 11, 12, 13]) = .ok 13 :=
  ⟨C96_fails_skip_stops_early 10 11 [12, 13] 3 (by decide) (by decide), by decide +kernel⟩

/-- C96 fails: over a reader that now and then hands over nothing and reports no error, as the contract of `io.Reader`
allows, a byte already read is given again. -/
theorem C96_fails_byte_repeated (a b : UInt8) (rest : List UInt8) :
    (twoReads 8 8).run (SBR.answer halting) (SBR.new (a :: b :: rest)) = .ok a.toNat := by
  have h1 := readBits_byte halting (SBR.new (a :: b :: rest)) rfl a ⟨⟨a :: b :: rest, 1, 1⟩, a, 0, 0, 0⟩ (by
    unfold SBR.fetch ByteSource.read halting inMemory SBR.new
    simp)
  have h2 := readBits_byte halting ⟨⟨a :: b :: rest, 1, 1⟩, a, 8, 0, 0⟩ rfl a ⟨⟨a :: b :: rest, 1, 2⟩, a, 8, 0, 0⟩ (by
    unfold SBR.fetch ByteSource.read halting
    simp)
  simp only [twoReads, Client.run, SBR.answer, h1, reply, h2]

/-- C96 does not hold of all lawful readers. -/
theorem C96_fails : ¬ ReaderIndependent := by
  intro h
  have h1 := h halting halting_lawful Nat (twoReads 8 8) [1, 2]
  rw [C96_fails_byte_repeated] at h1
  exact absurd h1 (by decide +kernel)

/-! ## C97 -/

theorem inMemory_moving : inMemory.Moving where
  toLawful := inMemory_lawful
  moves i n left hn hl := by
    unfold inMemory; dsimp only
    exact ⟨by omega, decide_eq_false (by omega)⟩
  stops i n hn := rfl

theorem oneByte_moving : oneByte.Moving where
  toLawful := oneByte_lawful
  moves i n left hn hl := by
    unfold oneByte; dsimp only
    exact ⟨by omega, decide_eq_false (by omega)⟩
  stops i n hn := rfl

theorem slowStart_moving : slowStart.Moving where
  fits i n left := by
    unfold slowStart
    split
    · exact oneByte_lawful.fits i n left
    · exact inMemory_lawful.fits i n left
  has i n left := by
    unfold slowStart
    split
    · exact oneByte_lawful.has i n left
    · exact inMemory_lawful.has i n left
  ends i n left := by
    unfold slowStart
    split
    · exact oneByte_lawful.ends i n left
    · exact inMemory_lawful.ends i n left
  moves i n left := by
    unfold slowStart
    split
    · exact oneByte_moving.moves i n left
    · exact inMemory_moving.moves i n left
  stops i n := by
    unfold slowStart
    split
    · exact oneByte_moving.stops i n
    · exact inMemory_moving.stops i n

/-- C97. Over every reader that keeps handing over data, however it splits it, `ReadFullyWithOffset(in, buffer, offset,
len)` stores the bytes `offset .. offset+len` of the stream at the start of the buffer (as many as fit), when the
stream has them. It leaves the stream at or after the end of these bytes, as its second result says. -/
theorem C97_reads_partial (P : Policy) (hP : P.Moving) (spare : Nat) (buffer : List UInt8)
    (offset len : Nat) (s : ByteSource) (hlen : len ≤ 2 ^ 31) (hd : offset + len ≤ s.data.length) :
    ∃ (s' : ByteSource) (over : Nat),
      readFullyWithOffset P spare buffer offset len s =
        (.ok (((s.data.drop offset).take len).take buffer.length ++ buffer.drop len, -(over : Int)), s') ∧
      s'.data = s.data ∧ s'.pos = offset + len + over := by
  unfold readFullyWithOffset
  dsimp only
  rw [if_neg (by omega), if_neg (by omega)]
  have htn : (len : Int).toNat = len := rfl
  rw [htn]
  have hl2 : (List.take len (List.drop offset s.data)).length = len := by
    rw [List.length_take, List.length_drop]; omega
  by_cases h0 : len = 0
  · subst h0
    refine ⟨{ s with pos := offset }, 0, ?_, rfl, by simp⟩
    simp [fullyLoop]
  · obtain ⟨m, s', h1, h2, -, h3, h4, h5⟩ :=
      fullyLoop_moving hP (want := len) (by omega) len len [] { s with pos := offset } (Nat.le_refl _) hd
    refine ⟨s', m - len, ?_, h4, by dsimp only at h5; omega⟩
    rw [h3]
    dsimp only at h2 ⊢
    have hl3 : (List.take m (List.drop offset s.data)).length = m := by
      rw [List.length_take, List.length_drop]; omega
    rw [List.nil_append, hl3, if_neg (by omega), List.take_append_of_le_length (by omega),
      show List.take len (List.take m (List.drop offset s.data)) = List.take len (List.drop offset s.data) by
        rw [List.take_take, Nat.min_eq_left h1], hl2]
    exact congrArg (fun x => (Res.ok (_, x), s')) (by omega)

/-- C97. When the stream ends before `offset+len`, `ReadFullyWithOffset` fails. -/
theorem C97_reads_past_end (P : Policy) (hP : P.Moving) (spare : Nat) (buffer : List UInt8)
    (offset len : Nat) (s : ByteSource) (h0 : 0 < len) (hd : s.data.length < offset + len) :
    (readFullyWithOffset P spare buffer offset len s).1 = .err := by
  unfold readFullyWithOffset
  dsimp only
  by_cases hbig : (2 * 1024 * 1024 * 1024 : Int) < len
  · rw [if_pos hbig]
  rw [if_neg hbig, if_neg (by omega)]
  have htn : (len : Int).toNat = len := rfl
  rw [htn]
  have := fullyLoop_short hP (want := len) h0 len len [] { s with pos := offset } (Nat.le_refl _) h0 hd
  revert this
  generalize fullyLoop P len len len [] { s with pos := offset } = x
  obtain ⟨a, b⟩ := x
  intro h
  dsimp only at h
  subst h
  rfl

/-- C97. `ReadFully(in, buffer)` fills the whole buffer from the start of the stream. -/
theorem C97_fills_partial (P : Policy) (hP : P.Moving) (spare : Nat) (buffer : List UInt8) (s : ByteSource)
    (hlen : buffer.length ≤ 2 ^ 31) (hd : buffer.length ≤ s.data.length) :
    ∃ (s' : ByteSource) (over : Nat), ioReadFully P spare buffer s = (.ok (s.data.take buffer.length, -(over : Int)), s') ∧
      s'.pos = buffer.length + over := by
  obtain ⟨s', over, h1, -, h3⟩ :=
    C97_reads_partial P hP spare buffer 0 buffer.length s hlen (by omega)
  refine ⟨s', over, ?_, by omega⟩
  unfold ioReadFully
  rw [h1]
  simp [List.take_take]

/-- C97. Over a prompt reader `ReadFullyWithOffset` reads exactly the bytes it is asked for, and reports that none
remains. -/
theorem C97_reads_exactly (P : Policy) (hP : P.Prompt) (spare : Nat) (buffer : List UInt8)
    (offset len : Nat) (s : ByteSource) (hlen : len ≤ 2 ^ 31) (hd : offset + len ≤ s.data.length) :
    ∃ s' : ByteSource, readFullyWithOffset P spare buffer offset len s =
        (.ok (((s.data.drop offset).take len).take buffer.length ++ buffer.drop len, 0), s') ∧
      s'.data = s.data ∧ s'.pos = offset + len := by
  unfold readFullyWithOffset
  dsimp only
  rw [if_neg (by omega), if_neg (by omega)]
  have htn : (len : Int).toNat = len := rfl
  rw [htn]
  have hl2 : (List.take len (List.drop offset s.data)).length = len := by
    rw [List.length_take, List.length_drop]; omega
  cases len with
  | zero =>
    refine ⟨{ s with pos := offset }, ?_, rfl, by simp⟩
    simp [fullyLoop]
  | succ k =>
    unfold fullyLoop
    rw [if_pos (by omega), read_prompt hP (by omega) _ (by dsimp only; omega)]
    dsimp only
    rw [show min (k + 1) (s.data.length - offset) = k + 1 by omega, hl2, if_neg Bool.false_ne_true,
      if_neg (by omega)]
    have : ∀ (acc : List UInt8) (t : ByteSource), fullyLoop P (k + 1) k (((k + 1 : Nat) : Int) - ((k + 1 : Nat) : Int)) acc t =
        (.ok (0, acc), t) := by
      intro acc t
      rw [Int.sub_self]
      cases k with
      | zero => rfl
      | succ j => unfold fullyLoop; rw [if_neg (by omega)]
    rw [this]
    dsimp only
    refine ⟨{ s with pos := offset + (k + 1), calls := s.calls + 1 }, ?_, rfl, rfl⟩
    rw [List.nil_append, hl2, if_neg (by omega), List.take_append_of_le_length (by omega),
      show List.take (k + 1) (List.take (k + 1) (List.drop offset s.data)) = List.take (k + 1) (List.drop offset s.data) by
        rw [List.take_take, Nat.min_self], hl2]

/-- C97 fails: "the number of bytes not read" can be negative, and the stream is then left behind the bytes asked for:
so it is for every stream and every length, over a reader whose first answer is a single byte. -/
theorem C97_fails_reads_too_much (spare : Nat) (buffer data : List UInt8) (offset len : Nat) (h2 : 2 ≤ len)
    (hlen : len ≤ 2 ^ 31) (hd : offset + len < data.length) :
    ∃ bytes, readFullyWithOffset slowStart spare buffer offset len ⟨data, 0, 0⟩ =
      (.ok (bytes, -1), ⟨data, offset + len + 1, 2⟩) := by
  unfold readFullyWithOffset
  dsimp only
  rw [if_neg (by omega), if_neg (by omega)]
  have htn : (len : Int).toNat = len := rfl
  rw [htn]
  obtain ⟨k, rfl⟩ : ∃ k, len = k + 2 := ⟨len - 2, by omega⟩
  unfold fullyLoop
  rw [if_pos (by omega)]
  unfold ByteSource.read slowStart oneByte
  simp only [if_true]
  rw [show min 1 (min (k + 2) (data.length - offset)) = 1 by omega,
    if_neg (by rw [decide_eq_true_eq]; omega)]
  have hl1 : (List.take 1 (List.drop offset data)).length = 1 := by
    rw [List.length_take, List.length_drop]; omega
  rw [hl1, if_neg (by omega)]
  unfold fullyLoop
  rw [if_pos (by push_cast; omega)]
  unfold ByteSource.read inMemory
  simp only [show ¬ (0 + 1 = 0) by decide, if_false]
  rw [show min (k + 2) (data.length - (offset + 1)) = k + 2 by omega, if_neg (by rw [decide_eq_true_eq]; omega)]
  have hl3 : (List.take (k + 2) (List.drop (offset + 1) data)).length = k + 2 := by
    rw [List.length_take, List.length_drop]; omega
  rw [hl3, if_neg (by omega)]
  have : ∀ (P : Policy) (acc : List UInt8) (t : ByteSource),
      fullyLoop P (k + 2) k (((k + 2 : Nat) : Int) - ((1 : Nat) : Int) - ((k + 2 : Nat) : Int)) acc t =
      (.ok (-1, acc), t) := by
    intro P acc t
    rw [show (((k + 2 : Nat) : Int) - ((1 : Nat) : Int) - ((k + 2 : Nat) : Int)) = -1 by omega]
    cases k with
    | zero => rfl
    | succ j => unfold fullyLoop; rw [if_neg (by omega)]
  rw [this]
  dsimp only
  rw [if_neg (by simp [hl1, hl3]; omega), show offset + 1 + (k + 2) = offset + (k + 2) + 1 by omega]
  exact ⟨_, rfl⟩

/-- C97. Over a prompt reader with enough data, `SkipFully(in, n)` moves the stream forward by `n` bytes if `n` is less
than 10000, a multiple of 10000, or all that is left. -/
theorem C97_skips_partial (P : Policy) (hP : P.Prompt) (spare n : Nat) (s : ByteSource) (hd : s.pos + n ≤ s.data.length)
    (hn : n < 10000 ∨ 10000 ∣ n ∨ s.pos + n = s.data.length) :
    ∃ s' : ByteSource, ioSkipFully P spare n s = (.ok 0, s') ∧ s'.data = s.data ∧ s'.pos = s.pos + n := by
  unfold ioSkipFully
  rw [if_neg (by omega)]
  dsimp only
  have htn : (n : Int).toNat = n := rfl
  rw [htn]
  by_cases h0 : n = 0
  · subst h0
    exact ⟨s, rfl, rfl, rfl⟩
  have key : ∀ sz : Nat, 0 < sz → min (s.data.length - s.pos) ((n + sz - 1) / sz * sz) = n →
      ∃ s' : ByteSource, (match skipFullyLoop P sz n n s with
        | (.ok remaining, s) => if remaining = 0 then (.ok 0, s) else skipFullyTail P spare n remaining s
        | (.err, s) => (.err, s)
        | (.panic, s) => (.panic, s)) = (.ok 0, s') ∧ s'.data = s.data ∧ s'.pos = s.pos + n := by
    intro sz hsz hm
    obtain ⟨m, s', h1, h2, h3, h4⟩ := skipFullyLoop_prompt hP hsz n n s (Nat.le_refl _) hd
    rw [hm] at h1
    subst h1
    rw [h2]
    dsimp only
    rw [if_pos (by omega)]
    exact ⟨s', rfl, h3, h4⟩
  by_cases hsmall : (n : Int) < 10000
  · rw [if_pos hsmall]
    refine key n (by omega) ?_
    have : (n + n - 1) / n = 1 := by
      rw [show n + n - 1 = (n - 1) + n by omega, Nat.add_div_right _ (by omega), Nat.div_eq_of_lt (by omega)]
    rw [this]; omega
  · rw [if_neg hsmall]
    refine key 10000 (by omega) ?_
    omega

/-- A negative length makes `ReadFullyWithOffset` panic. -/
theorem readFullyWithOffset_negative (P : Policy) (spare : Nat) (buffer : List UInt8) (offset : Nat) (len : Int)
    (s : ByteSource) (h : len < 0) :
    readFullyWithOffset P spare buffer offset len s = (.panic, { s with pos := offset }) := by
  unfold readFullyWithOffset
  dsimp only
  rw [if_neg (by omega), if_pos h]

/-- C97 fails: over a prompt reader, skipping more than 10000 bytes of a longer stream panics unless the number is a
multiple of 10000. -/
theorem C97_fails_skip_panics (P : Policy) (hP : P.Prompt) (spare n : Nat) (s : ByteSource) (hd : s.pos + n < s.data.length)
    (hn : 10000 < n) (hm : ¬ 10000 ∣ n) : (ioSkipFully P spare n s).1 = .panic := by
  unfold ioSkipFully
  rw [if_neg (by omega)]
  dsimp only
  have htn : (n : Int).toNat = n := rfl
  rw [htn, if_neg (by omega)]
  obtain ⟨m, s', h1, h2, h3, h4⟩ := skipFullyLoop_prompt hP (sz := 10000) (by omega) n n s (Nat.le_refl _) (by omega)
  have hmn : n < m := by omega
  rw [h2]
  dsimp only
  rw [if_neg (by omega)]
  obtain ⟨k, rfl⟩ : ∃ k, n = k + 1 := ⟨n - 1, by omega⟩
  unfold skipFullyTail
  rw [if_neg (by omega), readFullyWithOffset_negative P spare _ 0 _ s' (by omega)]

/-- C97. When the stream ends within the bytes to skip, `SkipFully` fails. -/
theorem C97_skips_past_end (P : Policy) (hP : P.Prompt) (spare n : Nat) (s : ByteSource) (h0 : 0 < n)
    (hd : s.data.length < s.pos + n) : (ioSkipFully P spare n s).1 = .err := by
  unfold ioSkipFully
  rw [if_neg (by omega)]
  dsimp only
  have htn : (n : Int).toNat = n := rfl
  rw [htn]
  have key : ∀ sz : Nat, 0 < sz → ((match skipFullyLoop P sz n n s with
        | (.ok remaining, s) => if remaining = 0 then (.ok 0, s) else skipFullyTail P spare n remaining s
        | (.err, s) => (.err, s)
        | (.panic, s) => (.panic, s)) : Res Int × ByteSource).1 = .err := by
    intro sz hsz
    have := skipFullyLoop_short hP hsz n n s (Nat.le_refl _) h0 hd
    revert this
    generalize skipFullyLoop P sz n n s = x
    obtain ⟨a, b⟩ := x
    intro h
    dsimp only at h
    subst h
    rfl
  by_cases hsmall : (n : Int) < 10000
  · rw [if_pos hsmall]; exact key n h0
  · rw [if_neg hsmall]; exact key 10000 (by omega)

/-- Three bytes from offset one, over a reader that hands over one byte at a time. -/
example : ∃ (s' : ByteSource) (over : Nat),
    readFullyWithOffset oneByte 0 [0, 0, 0, 0] 1 (3 : Nat) ⟨[7, 8, 9, 10, 11], 0, 0⟩ =
      (.ok ([8, 9, 10] ++ [0], -(over : Int)), s') ∧ s'.data = [7, 8, 9, 10, 11] ∧ s'.pos = 1 + 3 + over :=
  C97_reads_partial oneByte oneByte_moving 0 [0, 0, 0, 0] 1 3 ⟨[7, 8, 9, 10, 11], 0, 0⟩ (by decide)
    (by decide)

example : (readFullyWithOffset oneByte 0 [0, 0] 4 (2 : Nat) ⟨[7, 8, 9, 10, 11], 0, 0⟩).1 = .err :=
  C97_reads_past_end oneByte oneByte_moving 0 [0, 0] 4 2 ⟨[7, 8, 9, 10, 11], 0, 0⟩ (by decide) (by decide)

example : ∃ (s' : ByteSource) (over : Nat), ioReadFully oneByte 0 [0, 0] ⟨[7, 8, 9], 0, 0⟩ =
    (.ok ([7, 8], -(over : Int)), s') ∧ s'.pos = 2 + over :=
  C97_fills_partial oneByte oneByte_moving 0 [0, 0] ⟨[7, 8, 9], 0, 0⟩ (by decide) (by decide)

example : ∃ bytes, readFullyWithOffset slowStart 0 [0, 0] 1 (2 : Nat) ⟨[7, 8, 9, 10, 11], 0, 0⟩ =
    (.ok (bytes, -1), ⟨[7, 8, 9, 10, 11], 4, 2⟩) :=
  C97_fails_reads_too_much 0 [0, 0] [7, 8, 9, 10, 11] 1 2 (by decide) (by decide) (by decide)

example : ∃ s' : ByteSource, ioSkipFully inMemory 0 (2 : Nat) ⟨[7, 8, 9, 10], 1, 0⟩ = (.ok 0, s') ∧ s'.data = [7, 8, 9, 10] ∧
    s'.pos = 1 + 2 :=
  C97_skips_partial inMemory inMemory_prompt 0 2 ⟨[7, 8, 9, 10], 1, 0⟩ (by decide) (.inl (by decide))

example : (ioSkipFully inMemory 0 (15000 : Nat) ⟨List.replicate 20000 0, 0, 0⟩).1 = .panic :=
  C97_fails_skip_panics inMemory inMemory_prompt 0 15000 ⟨List.replicate 20000 0, 0, 0⟩
    (by simp only [List.length_replicate]; decide) (by decide) (by decide)

example : (ioSkipFully inMemory 0 (4 : Nat) ⟨[7, 8, 9, 10], 1, 0⟩).1 = .err :=
  C97_skips_past_end inMemory inMemory_prompt 0 4 ⟨[7, 8, 9, 10], 1, 0⟩ (by decide) (by decide)

example : ∃ s' : ByteSource, readFullyWithOffset inMemory 0 [0, 0, 0, 0] 1 (3 : Nat) ⟨[7, 8, 9, 10, 11], 0, 0⟩ =
      (.ok ([8, 9, 10] ++ [0], 0), s') ∧ s'.data = [7, 8, 9, 10, 11] ∧ s'.pos = 1 + 3 :=
  C97_reads_exactly inMemory inMemory_prompt 0 [0, 0, 0, 0] 1 3 ⟨[7, 8, 9, 10, 11], 0, 0⟩ (by decide)
    (by decide)

end Jxl
