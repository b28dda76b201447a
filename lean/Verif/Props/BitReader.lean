import Verif.Proofs.Ints
import Verif.Proofs.Skip
import Verif.Proofs.BitWriter
/-!
# Properties C01–C07, C09: the bit reader

`AtBit s p`: the reader state `s` stands at bit `p` of its data (Spec/Reader.lean).
`bitsFrom data p`: the bits of `data` from bit `p` on, least significant bit of each byte first (Spec/Bits.lean).
-/
namespace Jxl
open Spec

/-- A reader used in the examples: three bytes, three bits already read. -/
def exReader : BR := ⟨[0xA5, 0x3C, 0xFF], 1, 3, 3, 0xA5⟩
theorem exReader_at : AtBit exReader 3 := by right; decide

/-! ## C01 -/

/-- C01. `ReadBits(n)` at any position returns the next `n` bits and advances by `n`; it fails exactly when `n > 64`
or fewer than `n` bits are left. -/
theorem C01_readBits (s : BR) (p n : Nat) (h : AtBit s p) :
    (n ≤ 64 → p + n ≤ 8 * s.data.length →
      ∃ s', readBits n s = (.ok (leVal ((bitsFrom s.data p).take n)), s') ∧
        AtBit s' (p + n) ∧ s'.data = s.data ∧ s'.bitsRead = s.bitsRead + n) ∧
    (64 < n ∨ 8 * s.data.length < p + n → (readBits n s).1 = .err) := by
  have hs := readBits_spec n s p h
  refine ⟨hs.2.1, ?_⟩
  intro hc
  by_cases hn : 64 < n
  · rw [hs.1 hn]
  · exact hs.2.2 (by omega) (by rcases hc with h | h <;> omega)

example : AtBit exReader 3 ∧ 3 + 13 ≤ 8 * exReader.data.length := ⟨exReader_at, by decide⟩
example : (readBits 13 exReader).1 = .ok ((0xA5 + 256 * 0x3C) / 8 % 2 ^ 13) := by decide +kernel

/-- C01. A fresh reader stands at bit 0. -/
theorem C01_start (data : List UInt8) : AtBit (BR.new data) 0 := AtBit.new data

/-- `ReadBits` called once for each width. -/
def readMany : List Nat → Rd (List Nat)
  | [] => pure []
  | n :: ns => do
    let v ← readBits n
    let vs ← readMany ns
    return v :: vs

/-- The values obtained by cutting the bits into fields of the given widths. -/
def decMany : List Nat → Dec (List Nat)
  | [] => pure []
  | n :: ns => do
    let v ← decBits n
    let vs ← decMany ns
    return v :: vs

/-- C01. Any history of reads cuts the input into consecutive fields, from every starting position, and the first read
that runs out of input reports an error. -/
theorem C01_history (ns : List Nat) (h : ∀ n ∈ ns, n ≤ 64) : Implements (readMany ns) (decMany ns) := by
  induction ns with
  | nil => exact Implements.pure _
  | cons n ns ih =>
    refine Implements.bind (implements_bits n (h n (by simp))) fun v => ?_
    exact Implements.bind (ih (fun m hm => h m (by simp [hm]))) fun vs => Implements.pure _

example : ∀ n ∈ [1, 7, 64, 0, 13], n ≤ 64 := by decide

/-- C01. `ReadBool` is the next bit. -/
theorem C01_readBool : Implements readBool decBool := implements_bool

/-- C01. `ReadByte` is the next eight bits. -/
theorem C01_readByte : Implements readByte (decBits 8) := by
  unfold readByte
  have h : Implements (readBits 8 >>= fun v => (pure (u8 v) : Rd Nat)) (decBits 8 >>= fun v => (pure v : Dec Nat)) := by
    refine Implements.bind' (fun v => v < 2 ^ 8) (implements_bits 8 (by decide)) (fun _ _ _ h => decBits_lt h) ?_
    intro v hv
    have : u8 v = v := Nat.mod_eq_of_lt hv
    rw [this]; exact Implements.pure _
  refine h.congr_dec ?_
  intro l
  rw [Dec.bind_eq]
  cases decBits 8 l with
  | none => rfl
  | some x => rfl

/-! ## C02 -/

/-- C02. Reading `n` and then `m` bits returns the low and high parts of what reading `n+m` bits returns, and leaves
the reader at the same place (same offset, same bit index, same cached byte if it is in use, same counter). -/
theorem C02_split (s : BR) (p n m : Nat) (h : AtBit s p) (hnm : n + m ≤ 64) (hle : p + (n + m) ≤ 8 * s.data.length) :
    ∃ v s1 w s2 s3, readBits n s = (.ok v, s1) ∧ readBits m s1 = (.ok w, s2) ∧
      readBits (n + m) s = (.ok (v + 2 ^ n * w), s3) ∧
      s2.data = s3.data ∧ s2.pos = s3.pos ∧ s2.index = s3.index ∧ s2.bitsRead = s3.bitsRead ∧
      (s2.index ≠ 0 → s2.cur = s3.cur) := by
  obtain ⟨s1, a1, a2, a3, a4⟩ := (readBits_spec n s p h).2.1 (by omega) (by omega)
  obtain ⟨s2, b1, b2, b3, b4⟩ := (readBits_spec m s1 (p + n) a2).2.1 (by omega) (by rw [a3]; omega)
  obtain ⟨s3, c1, c2, c3, c4⟩ := (readBits_spec (n + m) s p h).2.1 (by omega) hle
  have hd : s2.data = s3.data := by rw [b3, a3, c3]
  have hp : AtBit s2 (p + (n + m)) := by rw [← Nat.add_assoc]; exact b2
  obtain ⟨e1, e2, e3⟩ := hp.same c2 hd
  refine ⟨_, s1, _, s2, s3, a1, b1, ?_, hd, e2, e1, by omega, e3⟩
  rw [c1, List.take_add, leVal_append, a3, ← bitsFrom_drop]
  have : ((bitsFrom s.data p).take n).length = n := by simp; omega
  rw [this]

example : AtBit exReader 3 ∧ 5 + 9 ≤ 64 ∧ 3 + (5 + 9) ≤ 8 * exReader.data.length :=
  ⟨exReader_at, by decide, by decide⟩

/-! ## C03 -/

/-- C03, what holds: when enough bits are left, `ShowBits(n)` returns what `ReadBits(n)` would return and does not
change the reader at all. Missing: the case of a failing peek, see `C03_failed_peek_consumes`. -/
theorem C03_showBits_partial (s : BR) (p n : Nat) (h : AtBit s p) (hn : n ≤ 64) (hle : p + n ≤ 8 * s.data.length) :
    ∃ v s', showBits n s = (.ok v, s) ∧ readBits n s = (.ok v, s') := by
  obtain ⟨s', e1, _⟩ := (readBits_spec n s p h).2.1 hn hle
  exact ⟨_, s', (showBits_spec n s p h hn).1 hle, e1⟩

example : AtBit exReader 3 ∧ 15 ≤ 64 ∧ 3 + 15 ≤ 8 * exReader.data.length := ⟨exReader_at, by decide, by decide⟩

/-- C03 fails at the end of the input: after four of eight bits, a peek of eight bits fails and the four remaining bits
are gone, although a peek must not consume. -/
theorem C03_failed_peek_consumes :
    let s := (readBits 4 (BR.new [0xA5])).2
    AtBit s 4 ∧ (readBits 4 s).1 = .ok 0xA ∧
      (showBits 8 s).1 = .err ∧ (readBits 4 (showBits 8 s).2).1 = .err := by
  refine ⟨?_, ?_⟩
  · right; decide +kernel
  · decide +kernel

/-- C03. `AtEnd` answers whether no bit is left and does not change the reader. -/
theorem C03_atEnd (s : BR) (p : Nat) (h : AtBit s p) :
    atEnd s = (decide (p = 8 * s.data.length), s) := by
  have hle := h.le
  by_cases he : p = 8 * s.data.length
  · -- at the end the reader is byte aligned and the failing read changes nothing
    have hm := h.mod
    have hi : s.index = 0 := by omega
    have hp : s.data.length ≤ s.pos := by
      rcases h with ⟨_, _, h⟩ | ⟨h, _⟩ <;> omega
    simp only [he, decide_true]
    have hr : readBits 1 s = (.err, s) := by
      simp only [readBits, hi]
      unfold readAligned readBytesLoop
      simp [readTail, List.getElem?_eq_none hp]
    unfold atEnd showBits
    simp [u32, hr]
  · have := (showBits_spec 1 s p h (by decide)).1 (by omega)
    simp [atEnd, this, he]

example : AtBit exReader 3 := exReader_at

/-! ## C04 -/

/-- C04, what holds: when enough bits are left, `SkipBits(n)` moves the reader to where reading `n` bits would.
Missing: the bit counter (`C04_counter_wrong`) and skips beyond the end (`C04_short_skip_accepted`). -/
theorem C04_skipBits_partial (s : BR) (p n : Nat) (h : AtBit s p) (hle : p + n ≤ 8 * s.data.length) :
    ∃ s', skipBits n s = (.ok (), s') ∧ AtBit s' (p + n) ∧ s'.data = s.data := by
  obtain ⟨s', e1, e2, e3, _⟩ := skipBits_spec n s p h hle
  exact ⟨s', e1, e2, e3⟩

example : AtBit exReader 3 ∧ 3 + 18 ≤ 8 * exReader.data.length := ⟨exReader_at, by decide⟩

/-- C04. After a skip, every later read returns what it would after reading and discarding. -/
theorem C04_skip_then_read_partial (s : BR) (p n m : Nat) (h : AtBit s p) (hn : n ≤ 64) (hm : m ≤ 64)
    (hle : p + n ≤ 8 * s.data.length) :
    ∃ s1 v s2, skipBits n s = (.ok (), s1) ∧ readBits n s = (.ok v, s2) ∧
      (readBits m s1).1 = (readBits m s2).1 := by
  obtain ⟨s1, a1, a2, a3, _⟩ := skipBits_spec n s p h hle
  obtain ⟨s2, b1, b2, b3, _⟩ := (readBits_spec n s p h).2.1 hn hle
  refine ⟨s1, _, s2, a1, b1, ?_⟩
  have r1 := readBits_spec m s1 _ a2
  have r2 := readBits_spec m s2 _ b2
  rw [a3] at r1
  rw [b3] at r2
  by_cases hc : p + n + m ≤ 8 * s.data.length
  · obtain ⟨_, c1, _⟩ := r1.2.1 hm hc
    obtain ⟨_, d1, _⟩ := r2.2.1 hm hc
    rw [c1, d1]
  · rw [r1.2.2 hm (by omega), r2.2.2 hm (by omega)]

example : AtBit exReader 3 ∧ 18 ≤ 64 ∧ 3 + 18 ≤ 8 * exReader.data.length := ⟨exReader_at, by decide, by decide⟩

/-- C04 fails for the number of bits read: whole bytes skipped are not counted. For every skip of `n ≥ 8` bits the
counter is too small. -/
theorem C04_counter_wrong (s : BR) (p n : Nat) (h : AtBit s p) (h8 : 8 ≤ n) (hle : p + n ≤ 8 * s.data.length) :
    ∃ s', skipBits n s = (.ok (), s') ∧ s'.bitsRead < s.bitsRead + n := by
  obtain ⟨s', e1, _, _, e4⟩ := skipBits_spec n s p h hle
  exact ⟨s', e1, by omega⟩

example : AtBit exReader 3 ∧ 8 ≤ 11 ∧ 3 + 11 ≤ 8 * exReader.data.length := ⟨exReader_at, by decide, by decide⟩

/-- C04 fails beyond the end: for every non-empty stream and every number of whole bytes larger than the stream, the
skip reports success, where reading that many bits would be an error. -/
theorem C04_short_skip_accepted (data : List UInt8) (k : Nat) (h0 : data ≠ []) (hk : data.length < k) :
    (skipBits (8 * k) (BR.new data)).1 = .ok () := by
  have hl : 0 < data.length := List.length_pos_iff.2 h0
  unfold skipBits
  have e : 8 * k / 8 = k := by omega
  have e2 : 8 * k - k * 8 = 0 := by omega
  simp only [BR.new, e, e2, show 0 < k by omega, if_true, show ¬ data.length ≤ 0 by omega, if_false, skipLoop]

example : ([1, 2] : List UInt8) ≠ [] ∧ ([1, 2] : List UInt8).length < 3 := by decide

/-- C04 fails for `Skip`: the byte count is multiplied by 8 in 32 bits, so skipping 2^29 bytes skips nothing and
reports success, on every stream. -/
theorem C04_skip_wraps (s : BR) : skipBytes 536870912 s = (.ok 536870912, s) := by
  have : u32 (536870912 <<< 3) = 0 := by decide +kernel
  unfold skipBytes
  rw [this]
  simp [skipBits, skipLoop]

/-! ## C05 -/

/-- Write every (value, width) pair. -/
def writeMany (w : BW) (l : List (Nat × Nat)) : BW := l.foldl (fun w x => w.writeBits x.1 x.2) w

theorem writeMany_out (l : List (Nat × Nat)) : ∀ w : BW, w.Ok →
    (writeMany w l).Ok ∧ (writeMany w l).out = w.out ++ l.flatMap (fun x => bitsOf x.2 x.1) := by
  induction l with
  | nil => intro w h; exact ⟨h, by simp [writeMany]⟩
  | cons x l ih =>
    intro w h
    have h1 := BW.writeBits_out w x.1 x.2 h
    obtain ⟨a, b⟩ := ih _ h1.1
    exact ⟨a, by simp only [writeMany, List.foldl_cons, List.flatMap_cons] at b ⊢; rw [b, h1.2, List.append_assoc]⟩

theorem reads_many (l : List (Nat × Nat)) (h : ∀ x ∈ l, x.2 ≤ 64 ∧ x.1 < 2 ^ x.2) :
    Reads (readMany (l.map (·.2))) (l.flatMap (fun x => bitsOf x.2 x.1)) (l.map (·.1)) := by
  induction l with
  | nil => exact Reads.pure _
  | cons x l ih =>
    have hx := h x (by simp)
    have ih := ih (fun y hy => h y (by simp [hy]))
    simp only [List.map_cons, List.flatMap_cons, readMany]
    refine Reads.bind (reads_bitsOf x.2 x.1 hx.1 hx.2) ?_
    have := Reads.bind (f := fun vs => (pure (x.1 :: vs) : Rd (List Nat))) ih (Reads.pure (x.1 :: l.map (·.1)))
    simpa using this

/-- C05. Values written at any widths, flushed and read back at the same widths, come back unchanged. -/
theorem C05_roundtrip (l : List (Nat × Nat)) (h : ∀ x ∈ l, x.2 ≤ 64 ∧ x.1 < 2 ^ x.2) :
    (readMany (l.map (·.2)) (BR.new (writeMany BW.new l).bytes)).1 = .ok (l.map (·.1)) := by
  obtain ⟨h1, h2⟩ := writeMany_out l BW.new BW.new_ok
  obtain ⟨pad, h3, _⟩ := BW.bytes_out _ h1
  obtain ⟨s', e1, _⟩ := reads_many l h (BR.new (writeMany BW.new l).bytes) 0 (AtBit.new _) (by
    refine ⟨pad, ?_⟩
    simp only [bitsFrom, List.drop_zero, BR.new]
    rw [h3, h2, BW.new_out, List.nil_append])
  rw [e1]

example : ∀ x ∈ [(5, 3), (0, 0), (2 ^ 64 - 1, 64), (1000, 13)], x.2 ≤ 64 ∧ x.1 < 2 ^ x.2 := by decide

/-- C05. A byte written with `WriteU8` is read back by `ReadU8`. -/
theorem C05_u8_roundtrip (v : Nat) (hv : v < 256) :
    (readU8 (BR.new (BW.new.writeU8 v).bytes)).1 = .ok v := by
  have key : (BW.new.writeU8 v).Ok ∧ (BW.new.writeU8 v).out = encU8 v := by
    unfold BW.writeU8 encU8
    by_cases h0 : v = 0
    · simp only [h0, if_true]
      exact BW.writeBit_out BW.new 0 BW.new_ok (by decide)
    · simp only [h0, if_false]
      have h1 := BW.writeBit_out BW.new 1 BW.new_ok (by decide)
      have h2 := BW.writeBits_out _ (u8Exp v 0) 3 h1.1
      have h3 := BW.writeBits_out _ (v - 1 <<< u8Exp v 0) (u8Exp v 0) h2.1
      refine ⟨h3.1, ?_⟩
      have hx := u8Exp_spec v 0 (by simp; omega)
      have hlog : Nat.log2 v = u8Exp v 0 := by
        have a1 := (Nat.le_log2 h0).2 hx.1
        have a2 := (Nat.log2_lt h0).2 hx.2
        omega
      rw [h3.2, h2.2, h1.2, BW.new_out, hlog, Nat.one_shiftLeft]
      simp
  obtain ⟨pad, h3, _⟩ := BW.bytes_out _ key.1
  obtain ⟨s', e1, _⟩ := (implements_u8.reads (fun r => decU8_enc v hv r)) (BR.new (BW.new.writeU8 v).bytes) 0
    (AtBit.new _) (by
      refine ⟨pad, ?_⟩
      simp only [bitsFrom, List.drop_zero, BR.new]
      rw [h3, key.2])
  rw [e1]

example : (200 : Nat) < 256 := by decide

/-! ## C06 -/

/-- C06. `ReadU32` implements `U32(c0+u(u0), c1+u(u1), c2+u(u2), c3+u(u3))`, for all constants with widths up to 64. -/
theorem C06_readU32 (d : Fin 4 → Nat × Nat) (hu : ∀ k, (d k).2 ≤ 64) :
    Implements (readU32 (d 0).1 (d 0).2 (d 1).1 (d 1).2 (d 2).1 (d 2).2 (d 3).1 (d 3).2) (decU32 d) :=
  implements_u32 d hu

example : ∀ k : Fin 4, ((fun k : Fin 4 => match k with
  | 0 => (0, 10) | 1 => (1024, 14) | 2 => (17408, 22) | 3 => (4211712, 30)) k : Nat × Nat).2 ≤ 64 := by decide

/-- C06. `ReadU64` implements `U64()`. -/
theorem C06_readU64 : Implements readU64 decU64 := implements_u64

/-- C06. Every 64-bit number has an encoding that `ReadU64` decodes to it. -/
theorem C06_u64_roundtrip (v : Nat) (hv : v < 2 ^ 64) : Reads readU64 (encU64 v) v :=
  implements_u64.reads (fun r => decU64_enc v hv r)

example : (2 ^ 63 + 12345 : Nat) < 2 ^ 64 := by decide

/-- C06. `ReadU8` implements `U8()`, every byte value has an encoding. -/
theorem C06_readU8 : Implements readU8 decU8 := implements_u8
theorem C06_u8_roundtrip (v : Nat) (hv : v < 256) : Reads readU8 (encU8 v) v :=
  implements_u8.reads (fun r => decU8_enc v hv r)

example : (255 : Nat) < 256 := by decide

/-- C06. `ReadEnum` implements `Enum()` and never returns more than 63. -/
theorem C06_readEnum : Implements readEnum decEnum := implements_enum
theorem C06_enum_range (s s' : BR) (v : Nat) (h : readEnum s = (.ok v, s')) : v ≤ 63 := by
  unfold readEnum at h
  rw [Rd.bind_eq] at h
  revert h
  rcases readU32 0 0 1 0 2 4 18 6 s with ⟨r, s1⟩
  cases r with
  | err => intro h; simp at h
  | panic => intro h; simp at h
  | ok c =>
    intro h
    simp only at h
    split at h
    · simp [Rd.fail] at h
    · have : c = v := by
        have := congrArg Prod.fst h
        simpa [Pure.pure, Rd.pure] using this
      omega

example : ∃ s', readEnum (BR.new [0x2E]) = (.ok 13, s') := ⟨(readEnum (BR.new [0x2E])).2, by decide +kernel⟩

/-- C06. Every value below 2^32 written as an ICC varint is read back (as an `int32`, so values from 2^31 on come back
negative), consuming exactly the bytes of the encoding. -/
theorem C06_icc_varint (v : Nat) (hv : v < 2 ^ 32) :
    Reads readICCVarint ((encVarint v).flatMap (bitsOf 8)) (i32 v) := by
  intro s p hs hp
  obtain ⟨s', e1, e2, e3⟩ := readICCVarintLoop_enc v 0 0 s p hs hp (Or.inl rfl) (by decide) (by simpa using hv)
  refine ⟨s', ?_, ?_, e3⟩
  · unfold readICCVarint
    rw [Rd.bind_ok e1]
    simp [Pure.pure, Rd.pure]
  · have : ∀ l : List Nat, (l.flatMap (bitsOf 8)).length = 8 * l.length := by
      intro l; induction l with
      | nil => rfl
      | cons a l ih => simp [ih]; omega
    rw [this]; exact e2

example : (300000 : Nat) < 2 ^ 32 := by decide
/-- C06. Values below 2^31 come back as themselves. -/
theorem C06_icc_varint_nonneg (v : Nat) (hv : v < 2 ^ 31) : i32 v = v := by
  simp only [i32]; omega
example : (300000 : Nat) < 2 ^ 31 := by decide

/-! ## C07 -/

/-- The zig-zag map: 2k ↦ k, 2k+1 ↦ -(k+1). -/
def zigzag (v : Nat) : Int := if v % 2 = 0 then (v / 2 : Nat) else -((v / 2 : Nat) + 1)

/-- C07, what holds: on the lower half of the range, and on all even inputs, `UnpackSigned` is the zig-zag map.
Missing: the odd inputs from 2^31 on, where the code is wrong (`C07_unpackSigned_wrong`). -/
theorem C07_unpackSigned_partial (v : Nat) (hv : v < 2 ^ 32) (h : v < 2 ^ 31 ∨ v % 2 = 0) :
    unpackSigned v = zigzag v := by
  unfold unpackSigned zigzag
  simp only [i32]
  split <;> omega

example : (2 ^ 31 - 1 : Nat) < 2 ^ 32 ∧ ((2 ^ 31 - 1 : Nat) < 2 ^ 31 ∨ (2 ^ 31 - 1 : Nat) % 2 = 0) := by decide

/-- C07 fails on every odd input from 2^31 on: the result is not the zig-zag value, it is not even negative. -/
theorem C07_unpackSigned_wrong (v : Nat) (hv : v < 2 ^ 32) (h31 : 2 ^ 31 ≤ v) (hodd : v % 2 = 1) :
    0 ≤ unpackSigned v ∧ zigzag v < 0 := by
  unfold unpackSigned zigzag
  simp only [i32]
  split <;> omega

example : (2 ^ 32 - 1 : Nat) < 2 ^ 32 ∧ 2 ^ 31 ≤ (2 ^ 32 - 1 : Nat) ∧ (2 ^ 32 - 1 : Nat) % 2 = 1 := by decide

/-- C07 fails: the map is not one-to-one, 0 and 2^32-1 both give 0. -/
theorem C07_not_injective : unpackSigned 0 = 0 ∧ unpackSigned 4294967295 = 0 := by decide +kernel

/-- C07. On the lower half the map is a bijection onto -2^30..2^30-1. -/
theorem C07_bijective_partial (z : Int) (h1 : -2 ^ 30 ≤ z) (h2 : z < 2 ^ 30) :
    ∃ v : Nat, v < 2 ^ 31 ∧ unpackSigned v = z ∧ ∀ w : Nat, w < 2 ^ 31 → unpackSigned w = z → w = v := by
  refine ⟨if 0 ≤ z then 2 * z.toNat else 2 * (-z).toNat - 1, ?_, ?_, ?_⟩
  · split <;> omega
  · rw [C07_unpackSigned_partial _ (by split <;> omega) (Or.inl (by split <;> omega))]
    unfold zigzag; split <;> split <;> omega
  · intro w hw h
    rw [C07_unpackSigned_partial _ (by omega) (Or.inl hw)] at h
    unfold zigzag at h; split at h <;> split <;> omega

example : (-2 ^ 30 : Int) ≤ -5 ∧ (-5 : Int) < 2 ^ 30 := by decide

/-- C07, 64-bit version: correct on the lower half and on all even inputs. -/
theorem C07_unpackSigned64_partial (v : Nat) (hv : v < 2 ^ 64) (h : v < 2 ^ 63 ∨ v % 2 = 0) :
    unpackSigned64 v = zigzag v := by
  unfold unpackSigned64 zigzag
  simp only [i64]
  split <;> omega

example : (2 ^ 63 - 1 : Nat) < 2 ^ 64 ∧ ((2 ^ 63 - 1 : Nat) < 2 ^ 63 ∨ (2 ^ 63 - 1 : Nat) % 2 = 0) := by decide

/-- C07, 64-bit version fails on every odd input from 2^63 on. -/
theorem C07_unpackSigned64_wrong (v : Nat) (hv : v < 2 ^ 64) (h31 : 2 ^ 63 ≤ v) (hodd : v % 2 = 1) :
    0 ≤ unpackSigned64 v ∧ zigzag v < 0 := by
  unfold unpackSigned64 zigzag
  simp only [i64]
  split <;> omega

example : (2 ^ 64 - 1 : Nat) < 2 ^ 64 ∧ 2 ^ 63 ≤ (2 ^ 64 - 1 : Nat) ∧ (2 ^ 64 - 1 : Nat) % 2 = 1 := by decide

/-! ## C09 -/

/-- C09. `ZeroPadToByte` always succeeds and moves to the next byte boundary (nowhere if already on one). -/
theorem C09_zeroPad (s : BR) (p : Nat) (h : AtBit s p) :
    ∃ s', zeroPadToByte s = (.ok (), s') ∧ AtBit s' (8 * ((p + 7) / 8)) ∧ s'.data = s.data ∧
      p ≤ 8 * ((p + 7) / 8) ∧ 8 * ((p + 7) / 8) < p + 8 := by
  obtain ⟨s', e1, e2, e3⟩ := zeroPad_spec s p h
  exact ⟨s', e1, e2, e3, by omega, by omega⟩

example : AtBit exReader 3 := exReader_at

/-- C09. Nothing changes when the reader is already aligned. -/
theorem C09_zeroPad_aligned (s : BR) (h : s.index = 0) : zeroPadToByte s = (.ok (), s) := by
  simp [zeroPadToByte, h]

example : (BR.new [1, 2]).index = 0 := rfl

end Jxl
