import Verif.Spec.Boxes
import Verif.Proofs.Skip
import Verif.Props.ImageHeader
/-! Lemmas on the container. -/
namespace Jxl
open Spec

/-- A reader between two bytes: `pre` is behind it, `rest` ahead. -/
def At (s : BR) (pre rest : List UInt8) : Prop := s.data = pre ++ rest ∧ s.pos = pre.length ∧ s.index = 0

theorem At.drop {s : BR} {pre rest : List UInt8} (h : At s pre rest) : s.data.drop s.pos = rest := by
  rw [h.1, h.2.1, List.drop_left]

theorem At.atBit {s : BR} {pre rest : List UInt8} (h : At s pre rest) : AtBit s (8 * pre.length) := by
  left
  refine ⟨h.2.2, ?_, by rw [h.2.1]⟩
  rw [h.1, h.2.1, List.length_append]
  omega

theorem readBuf_at (l : List UInt8) (hl : l ≠ []) {s : BR} {pre rest : List UInt8} (h : At s pre (l ++ rest)) :
    ∃ s', readBytesToBuffer l.length s = (.ok l, s') ∧ At s' (pre ++ l) rest := by
  have hd := h.drop
  have hlen : 0 < l.length := List.length_pos_of_ne_nil hl
  unfold readBytesToBuffer
  rw [if_neg (by rw [h.2.2]; decide), if_neg (by rw [h.1, h.2.1]; simp only [List.length_append]; omega), hd, List.take_left, if_neg (by simp)]
  refine ⟨_, rfl, ?_, ?_, h.2.2⟩
  · rw [List.append_assoc]; exact h.1
  · show s.pos + l.length = _
    rw [h.2.1, List.length_append]

theorem readBuf_short (n : Nat) {s : BR} {pre rest : List UInt8} (h : At s pre rest) (hn : rest.length < n) : (readBytesToBuffer n s).1 = .err := by
  unfold readBytesToBuffer
  rw [if_neg (by rw [h.2.2]; decide)]
  split
  · rfl
  · rw [h.drop, if_pos (by rw [List.length_take]; omega)]

theorem skipBits_whole (n : Nat) {s : BR} {pre l rest : List UInt8} (h : At s pre (l ++ rest)) (hl : l.length = n) :
    ∃ s', skipBits (8 * n) s = (.ok (), s') ∧ At s' (pre ++ l) rest := by
  unfold skipBits
  dsimp only
  rw [show 8 * n / 8 = n by omega, show 8 * n - n * 8 = 0 by omega]
  by_cases h0 : 0 < n
  · rw [if_pos h0, if_neg (by rw [h.1, h.2.1]; simp only [List.length_append]; omega), h.drop]
    refine ⟨_, rfl, ?_, ?_, h.2.2⟩
    · rw [List.append_assoc]; exact h.1
    · show s.pos + _ = _
      rw [h.2.1, ← hl, List.take_left, List.length_append]
  · rw [if_neg h0]
    refine ⟨s, rfl, ?_⟩
    have : l = [] := List.length_eq_zero_iff.mp (by omega)
    subst this
    simpa using h

/-- A skip over fewer bytes than there are is exact below 2^29 bytes. -/
theorem skipFully_at (l : List UInt8) (hl : l.length < 2 ^ 29) {s : BR} {pre rest : List UInt8} (h : At s pre (l ++ rest)) :
    ∃ s', skipFully l.length s = (.ok 0, s') ∧ At s' (pre ++ l) rest := by
  obtain ⟨s', h1, h2⟩ := skipBits_whole l.length h rfl
  have e1 : u32 l.length = l.length := Nat.mod_eq_of_lt (by omega)
  have e2 : u32 (l.length <<< 3) = 8 * l.length := by
    rw [Nat.shiftLeft_eq, Nat.mul_comm]
    exact Nat.mod_eq_of_lt (by omega)
  have : skipBytes l.length s = (.ok l.length, s') := by
    unfold skipBytes
    rw [e2, h1]
  refine ⟨s', ?_, h2⟩
  unfold skipFully
  rw [e1]
  refine (Rd.bind_ok this).trans ?_
  have e3 : i64 (l.length : Int) = l.length := by unfold i64; omega
  rw [e3, Int.sub_self]
  rfl

theorem makeTag_val (a0 a1 a2 a3 : UInt8) : makeTag [a0, a1, a2, a3] = ((a0.toNat * 256 + a1.toNat) * 256 + a2.toNat) * 256 + a3.toNat := by
  have key : ∀ (t : Nat) (b : UInt8), t < 2 ^ 24 → u64 (t <<< 8) ||| b.toNat = t * 256 + b.toNat := by
    intro t b ht
    have hb := b.toNat_lt
    rw [show u64 (t <<< 8) = t <<< 8 from Nat.mod_eq_of_lt (by rw [Nat.shiftLeft_eq]; omega)]
    rw [← Nat.shiftLeft_add_eq_or_of_lt (show b.toNat < 2 ^ 8 from hb), Nat.shiftLeft_eq]
  have h0 := a0.toNat_lt
  have h1 := a1.toNat_lt
  have h2 := a2.toNat_lt
  unfold makeTag
  simp only [List.foldl_cons, List.foldl_nil]
  rw [key 0 a0 (by omega), key _ a1 (by omega), key _ a2 (by omega), key _ a3 (by omega)]
  omega

theorem makeTag_be32 (n : Nat) (h : n < 2 ^ 32) : makeTag (be32 n) = n := by
  unfold be32
  rw [makeTag_val]
  simp only [UInt8.toNat_ofNat']
  omega

/-- Different tags are different numbers. -/
theorem makeTag_inj {a b : List UInt8} (ha : a.length = 4) (hb : b.length = 4) (h : makeTag a = makeTag b) : a = b := by
  match a, b, ha, hb with
  | [a0, a1, a2, a3], [b0, b1, b2, b3], _, _ =>
    rw [makeTag_val, makeTag_val] at h
    have := a0.toNat_lt; have := a1.toNat_lt; have := a2.toNat_lt; have := a3.toNat_lt
    have := b0.toNat_lt; have := b1.toNat_lt; have := b2.toNat_lt; have := b3.toNat_lt
    rw [UInt8.toNat_inj.mp (show a0.toNat = b0.toNat by omega), UInt8.toNat_inj.mp (show a1.toNat = b1.toNat by omega),
      UInt8.toNat_inj.mp (show a2.toNat = b2.toNat by omega), UInt8.toNat_inj.mp (show a3.toNat = b3.toNat by omega)]

theorem readBoxSize_at (n : Nat) (h8 : 8 ≤ n) (hn : n < 2 ^ 32) {s : BR} {pre rest : List UInt8} (h : At s pre (be32 n ++ rest)) :
    ∃ s', readBoxSize s = (.ok (n - 8), s') ∧ At s' (pre ++ be32 n) rest := by
  obtain ⟨s1, h1, h2⟩ := readBuf_at (be32 n) (List.cons_ne_nil _ _) h
  refine ⟨s1, ?_, h2⟩
  unfold readBoxSize
  refine (Rd.bind_ok h1).trans ?_
  rw [makeTag_be32 n hn]
  refine (Rd.bind_ok (a := n) (s' := s1) (by
    unfold readIf
    rw [if_neg (by rw [beq_iff_eq]; omega)]
    rfl)).trans ?_
  rw [if_pos (by omega)]
  have : sub64 n 8 = n - 8 := by unfold sub64 u64; omega
  rw [this]
  rfl

/-- What the code makes of a piece of codestream. -/
def toHeader (x : Nat × Nat × Bool) : BoxHeader := ⟨if x.2.2 then tagJXLP else tagJXLC, x.2.1, false, x.1⟩

theorem readByte_at (b : UInt8) {s : BR} {pre rest : List UInt8} (h : At s pre ([b] ++ rest)) :
    ∃ s', readByte s = (.ok b.toNat, s') ∧ At s' (pre ++ [b]) rest := by
  have hget : s.data[s.pos]? = some b := by
    rw [h.1, h.2.1, List.getElem?_append_right (Nat.le_refl _), Nat.sub_self]
    rfl
  have : readBits 8 s = (.ok b.toNat, { s with pos := s.pos + 1, bitsRead := s.bitsRead + 8 }) := by
    unfold readBits
    rw [if_neg (by decide), if_neg (by decide), if_neg (by rw [h.2.2]; decide)]
    dsimp only
    unfold readAligned
    rw [readBytesLoop, if_pos (by decide), hget]
    dsimp only
    rw [readBytesLoop, if_neg (by decide)]
    dsimp only
    unfold readTail
    rw [if_neg (by decide)]
    simp
  refine ⟨{ s with pos := s.pos + 1, bitsRead := s.bitsRead + 8 }, (Rd.bind_ok this).trans ?_, ?_, ?_, h.2.2⟩
  · show (Res.ok (u8 b.toNat), _) = _
    rw [show u8 b.toNat = b.toNat from Nat.mod_eq_of_lt b.toNat_lt]
  · rw [List.append_assoc]; exact h.1
  · show s.pos + 1 = _
    rw [h.2.1, List.length_append]
    rfl

theorem readBoxBody_at (b : Box) (hb : b.Usual) (boxes : List BoxHeader) (level : Nat) {s : BR} {pre rest : List UInt8}
    (h : At s pre (b.kind ++ (b.payload ++ rest))) :
    ∃ s', readBoxBody b.payload.length boxes level s =
        (.ok (boxes ++ ((if b.kind = kindC then [(pre.length + 4, b.payload.length, false)] else if b.kind = kindP then [(pre.length + 8, b.payload.length - 4, true)] else []).map toHeader),
          if b.kind = kindL then (b.payload.headD 5).toNat else level), s') ∧ At s' (pre ++ b.kind ++ b.payload) rest := by
  obtain ⟨⟨hk, hsz, hlv, hp⟩, hlen, hemp⟩ := hb
  obtain ⟨s1, e1, a1⟩ := readBuf_at b.kind (by intro h; rw [h] at hk; cases hk) h
  rw [hk] at e1
  unfold readBoxBody
  have tp : makeTag b.kind = tagJXLP ↔ b.kind = kindP := ⟨fun e => makeTag_inj hk (by decide) e, fun e => by rw [e]; decide⟩
  have tl : makeTag b.kind = tagJXLL ↔ b.kind = kindL := ⟨fun e => makeTag_inj hk (by decide) e, fun e => by rw [e]; decide⟩
  have tc : makeTag b.kind = tagJXLC ↔ b.kind = kindC := ⟨fun e => makeTag_inj hk (by decide) e, fun e => by rw [e]; decide⟩
  rw [Rd.bind_ok e1]
  by_cases hP : b.kind = kindP
  · have h4 := hp hP
    rw [if_pos (tp.mpr hP), if_neg (by rw [hP]; decide), if_pos hP, if_neg (by rw [hP]; decide)]
    have split : b.payload = b.payload.take 4 ++ b.payload.drop 4 := (List.take_append_drop 4 _).symm
    have hl4 : (b.payload.take 4).length = 4 := by rw [List.length_take]; omega
    have a1' : At s1 (pre ++ b.kind) (b.payload.take 4 ++ (b.payload.drop 4 ++ rest)) := by
      rw [← List.append_assoc, ← split]; exact a1
    obtain ⟨s2, e2, a2⟩ := readBuf_at (b.payload.take 4) (by intro h; rw [h] at hl4; cases hl4) a1'
    rw [hl4] at e2
    rw [Rd.bind_ok e2]
    have e3 : filePos s2 = (.ok (pre.length + 8), s2) := by
      unfold filePos
      rw [a2.2.1]
      simp only [List.length_append, hk, hl4]
    rw [Rd.bind_ok e3]
    have hs4 : sub64 b.payload.length 4 = (b.payload.drop 4).length := by
      rw [List.length_drop]; unfold sub64 u64; omega
    obtain ⟨s3, e4, a3⟩ := skipFully_at (b.payload.drop 4) (by rw [List.length_drop]; omega) a2
    rw [hs4, Rd.bind_ok e4]
    refine ⟨s3, ?_, ?_⟩
    · rw [List.length_drop, (tp.mpr hP)]
      rfl
    · rw [List.append_assoc (pre ++ b.kind), ← split] at a3
      exact a3
  · rw [if_neg (fun h => hP (tp.mp h))]
    by_cases hL : b.kind = kindL
    · have hv := hlv hL
      have h1 : b.payload.length = 1 := by rcases hv with h | h <;> rw [h] <;> rfl
      rw [if_pos (tl.mpr hL), if_neg (by rw [h1]; decide), if_neg (by rw [hL]; decide), if_neg hP, if_pos hL]
      obtain ⟨v, hpv, hv2⟩ : ∃ v : UInt8, b.payload = [v] ∧ (v.toNat = 5 ∨ v.toNat = 10) := by
        rcases hv with h | h
        · exact ⟨5, h, Or.inl rfl⟩
        · exact ⟨10, h, Or.inr rfl⟩
      rw [hpv] at a1
      obtain ⟨s2, e2, a2⟩ := readByte_at v a1
      have e3 : readLevel s1 = (.ok v.toNat, s2) := by
        unfold readLevel
        rw [Rd.bind_ok e2, if_neg (by omega)]
        rfl
      rw [Rd.bind_ok e3]
      refine ⟨s2, ?_, ?_⟩
      · rw [hpv, List.map_nil, List.append_nil]
        rfl
      · rw [hpv]; exact a2
    · rw [if_neg (fun h => hL (tl.mp h)), if_neg hL, if_neg hP]
      by_cases hC : b.kind = kindC
      · rw [if_pos (tc.mpr hC), if_pos hC]
        have e3 : filePos s1 = (.ok (pre.length + 4), s1) := by
          unfold filePos
          rw [a1.2.1, List.length_append, hk]
        rw [Rd.bind_ok e3]
        obtain ⟨s3, e4, a3⟩ := skipFully_at b.payload hlen a1
        rw [Rd.bind_ok e4]
        refine ⟨s3, ?_, a3⟩
        rw [tc.mpr hC]
        rfl
      · rw [if_neg (fun h => hC (tc.mp h)), if_neg hC]
        have hpos : b.payload.length > 0 := List.length_pos_of_ne_nil (fun h => hC (hemp h))
        rw [if_pos hpos]
        obtain ⟨s3, e4, a3⟩ := skipFully_at b.payload hlen a1
        rw [Rd.bind_ok e4, if_neg (by simp)]
        refine ⟨s3, ?_, a3⟩
        rw [List.map_nil, List.append_nil]
        rfl

theorem boxLoop_at (bs : List Box) : ∀ (hb : ∀ b ∈ bs, b.Usual) (fuel : Nat) (boxes : List BoxHeader) (level : Nat) (s : BR) (pre rest : List UInt8),
    At s pre (bs.flatMap Box.bytes ++ rest) → (bs.flatMap Box.bytes).length < fuel →
    ∃ s', boxLoop fuel boxes level s = boxLoop (fuel - bs.length) (boxes ++ (pieces pre.length bs).map toHeader)
        (bs.foldl (fun l b => if b.kind = kindL then (b.payload.headD 5).toNat else l) level) s' ∧ At s' (pre ++ bs.flatMap Box.bytes) rest := by
  induction bs with
  | nil =>
    intro _ fuel boxes level s pre rest h _
    refine ⟨s, ?_, ?_⟩
    · simp [pieces]
    · simpa using h
  | cons b bs ih =>
    intro hb fuel boxes level s pre rest h hf
    have hu := hb b List.mem_cons_self
    obtain ⟨⟨hk, hsz, hlv, hp⟩, hlen, hemp⟩ := id hu
    have hbl : b.bytes.length = 8 + b.payload.length := by
      unfold Box.bytes be32
      simp only [List.length_append, List.length_cons, List.length_nil, hk]
    rw [List.flatMap_cons, List.length_append, hbl] at hf
    obtain ⟨fuel, rfl⟩ : ∃ f, fuel = f + 1 := ⟨fuel - 1, by omega⟩
    have h' : At s pre (be32 (8 + b.payload.length) ++ (b.kind ++ (b.payload ++ (bs.flatMap Box.bytes ++ rest)))) := by
      have := h
      rw [List.flatMap_cons] at this
      unfold Box.bytes at this
      simp only [List.append_assoc] at this
      exact this
    obtain ⟨s1, e1, a1⟩ := readBoxSize_at (8 + b.payload.length) (by omega) hsz h'
    obtain ⟨s2, e2, a2⟩ := readBoxBody_at b hu boxes level a1
    rw [show 8 + b.payload.length - 8 = b.payload.length by omega] at e1
    have hpre : pre ++ be32 (8 + b.payload.length) ++ b.kind ++ b.payload = pre ++ b.bytes := by
      unfold Box.bytes
      simp only [List.append_assoc]
    rw [hpre] at a2
    obtain ⟨s3, e3, a3⟩ := ih (fun x hx => hb x (List.mem_cons_of_mem _ hx)) fuel _ _ s2 (pre ++ b.bytes) rest a2 (by omega)
    refine ⟨s3, ?_, ?_⟩
    · rw [boxLoop]
      dsimp only
      rw [if_neg (by
        rw [h'.1, h'.2.1]
        simp only [List.length_append, be32, List.length_cons]
        omega)]
      rw [Rd.bind_ok e1, Rd.bind_ok e2]
      refine e3.trans ?_
      rw [show fuel + 1 - (b :: bs).length = fuel - bs.length by rw [List.length_cons]; omega]
      rw [List.foldl_cons]
      congr 1
      rw [pieces, List.map_append, List.append_assoc]
      have : (pre ++ be32 (8 + b.payload.length)).length = pre.length + 4 := by
        rw [List.length_append]; rfl
      rw [this, List.length_append, hbl]
      simp only [Nat.add_assoc, Nat.reduceAdd]
    · rw [List.flatMap_cons, ← List.append_assoc]
      exact a3

end Jxl
namespace Jxl
open Spec

/-- A skip that reaches the end of the file is not noticed. -/
theorem skipFully_short (size : Nat) (l : List UInt8) (hl : l ≠ []) (hk : l.length ≤ u32 (u32 size <<< 3) / 8) {s : BR} {pre : List UInt8} (h : At s pre l) :
    ∃ s', skipFully size s = (.ok (i64 (i64 size - u32 size)), s') ∧ At s' (pre ++ l) [] := by
  have hpos : 0 < l.length := List.length_pos_of_ne_nil hl
  have h8 : u32 (u32 size <<< 3) - u32 (u32 size <<< 3) / 8 * 8 = 0 := by
    unfold u32
    rw [Nat.shiftLeft_eq]
    omega
  have hd : s.data.drop s.pos = l := h.drop
  have : ∃ s', skipBits (u32 (u32 size <<< 3)) s = (.ok (), s') ∧ At s' (pre ++ l) [] := by
    unfold skipBits
    dsimp only
    rw [h8, if_pos (by omega), if_neg (by rw [h.1, h.2.1, List.length_append]; omega), hd]
    refine ⟨_, rfl, ?_, ?_, h.2.2⟩
    · rw [List.append_nil]; exact h.1
    · show s.pos + _ = _
      rw [List.take_of_length_le hk, h.2.1, List.length_append]
  obtain ⟨s', h1, h2⟩ := this
  refine ⟨s', ?_, h2⟩
  unfold skipFully
  refine (Rd.bind_ok (a := u32 size) (s' := s') ?_).trans rfl
  unfold skipBytes
  rw [h1]

theorem skipFully_end (size : Nat) (hk : 0 < u32 (u32 size <<< 3) / 8) {s : BR} {pre : List UInt8} (h : At s pre []) : (skipFully size s).1 = .err := by
  have : skipBytes (u32 size) s = (.err, s) := by
    unfold skipBytes skipBits
    dsimp only
    rw [if_pos hk, if_pos (by rw [h.1, h.2.1]; simp)]
  unfold skipFully
  show (Rd.bind _ _ s).1 = _
  unfold Rd.bind
  rw [this]

theorem boxLoop_end (fuel : Nat) (boxes : List BoxHeader) (level : Nat) {s : BR} {pre : List UInt8} (h : At s pre []) :
    boxLoop (fuel + 1) boxes level s = (.ok (boxes, level), s) := by
  rw [boxLoop]
  dsimp only
  rw [if_pos ⟨h.2.2, by rw [h.1, h.2.1]; simp⟩]

theorem boxLoop_step (fuel : Nat) (boxes : List BoxHeader) (level : Nat) {s : BR} {pre rest : List UInt8} (h : At s pre rest) (hr : rest ≠ []) :
    boxLoop (fuel + 1) boxes level s = (do
      let size ← readBoxSize
      let r ← readBoxBody size boxes level
      boxLoop fuel r.1 r.2) s := by
  have := List.length_pos_of_ne_nil hr
  rw [boxLoop]
  dsimp only
  rw [if_neg (by rw [h.1, h.2.1, List.length_append]; omega)]

/-- The parser on a container that begins with ordinary boxes. -/
theorem readBoxHeader_at (bs : List Box) (hb : ∀ b ∈ bs, b.Usual) (rest : List UInt8) :
    ∃ s' n, readBoxHeader (BR.new (container bs ++ rest)) = boxLoop (n + 1) ((pieces 12 bs).map toHeader) (levelOf bs) s' ∧ At s' (container bs) rest ∧
      rest.length ≤ n := by
  have h0 : At { BR.new (container bs ++ rest) with pos := 0 } [] (signature ++ (bs.flatMap Box.bytes ++ rest)) := by
    refine ⟨?_, rfl, rfl⟩
    show container bs ++ rest = _
    unfold container
    rw [List.nil_append, List.append_assoc]
  obtain ⟨s1, e1, a1⟩ := readBuf_at signature (by decide) h0
  rw [List.nil_append] at a1
  have hd : s1.data = container bs ++ rest := by rw [a1.1]; unfold container; rw [List.append_assoc]
  have hn : bs.length ≤ (bs.flatMap Box.bytes).length := by
    clear a1 e1 h0 hd
    induction bs with
    | nil => exact Nat.zero_le _
    | cons b bs ih =>
      have := ih (fun x hx => hb x (List.mem_cons_of_mem _ hx))
      rw [List.flatMap_cons, List.length_append, List.length_cons]
      have : 0 < b.bytes.length := by unfold Box.bytes be32; simp
      omega
  have hlen : s1.data.length = 12 + (bs.flatMap Box.bytes).length + rest.length := by
    rw [a1.1]
    simp only [List.length_append]
    rw [show signature.length = 12 by decide]
    omega
  obtain ⟨s2, e2, a2⟩ := boxLoop_at bs hb (s1.data.length + 1) [] 5 s1 signature rest a1 (by omega)
  refine ⟨s2, s1.data.length - bs.length, ?_, ?_, by omega⟩
  · unfold readBoxHeader
    refine (Rd.bind_ok (m := seekStart 0) (a := ()) (s' := { BR.new (container bs ++ rest) with pos := 0 }) rfl).trans ?_
    refine (Rd.bind_ok (show readBytesToBuffer 12 _ = _ from e1)).trans ?_
    rw [if_neg (by decide)]
    rw [e2, List.nil_append, show s1.data.length + 1 - bs.length = s1.data.length - bs.length + 1 by omega]
    rfl
  · exact a2

theorem pieces_slices (bs : List Box) : ∀ (hb : ∀ b ∈ bs, b.kind.length = 4) (pre rest : List UInt8),
    (pieces pre.length bs).map (fun x => ((pre ++ bs.flatMap Box.bytes ++ rest).drop x.1).take x.2.1) =
      bs.filterMap (fun b => if b.kind = kindC then some b.payload else if b.kind = kindP then some (b.payload.drop 4) else none) := by
  induction bs with
  | nil => intro _ pre rest; rfl
  | cons b bs ih =>
    intro hb pre rest
    have hk := hb b List.mem_cons_self
    have hbl : b.bytes.length = 8 + b.payload.length := by
      unfold Box.bytes be32
      simp only [List.length_append, List.length_cons, List.length_nil, hk]
    have ih' := ih (fun x hx => hb x (List.mem_cons_of_mem _ hx)) (pre ++ b.bytes) rest
    rw [List.length_append, hbl, ← Nat.add_assoc] at ih'
    have hfile : pre ++ (b :: bs).flatMap Box.bytes ++ rest = pre ++ b.bytes ++ bs.flatMap Box.bytes ++ rest := by
      rw [List.flatMap_cons]
      simp only [List.append_assoc]
    have hfile2 : pre ++ b.bytes ++ bs.flatMap Box.bytes ++ rest = (pre ++ be32 (8 + b.payload.length) ++ b.kind) ++ (b.payload ++ (bs.flatMap Box.bytes ++ rest)) := by
      rw [Box.bytes]
      simp only [List.append_assoc]
    rw [pieces, List.map_append, hfile, ih', List.filterMap_cons]
    have h8 : (pre ++ be32 (8 + b.payload.length) ++ b.kind).length = pre.length + 8 := by
      simp only [List.length_append, hk, be32, List.length_cons, List.length_nil]
    by_cases hC : b.kind = kindC
    · rw [if_pos hC, if_pos hC, List.map_cons, List.map_nil]
      dsimp only
      rw [hfile2, ← h8, List.drop_left, List.take_left]
      rfl
    · rw [if_neg hC, if_neg hC]
      by_cases hP : b.kind = kindP
      · rw [if_pos hP, if_pos hP, List.map_cons, List.map_nil]
        dsimp only
        rw [hfile2, show pre.length + 12 = pre.length + 8 + 4 from rfl, ← List.drop_drop, ← h8, List.drop_left]
        by_cases h4 : 4 ≤ b.payload.length
        · rw [List.drop_append_of_le_length h4, ← List.length_drop, List.take_left]
          rfl
        · rw [show b.payload.length - 4 = 0 by omega, List.take_zero, List.drop_eq_nil_of_le (by omega)]
          rfl
      · rw [if_neg hP, if_neg hP]
        rfl

theorem tagP_ne {kind : List UInt8} (hk : kind.length = 4) (h : kind ≠ kindP) : ¬ makeTag kind = tagJXLP :=
  fun e => h (makeTag_inj hk (by decide) (e.trans (by decide)))
theorem tagL_ne {kind : List UInt8} (hk : kind.length = 4) (h : kind ≠ kindL) : ¬ makeTag kind = tagJXLL :=
  fun e => h (makeTag_inj hk (by decide) (e.trans (by decide)))
theorem tagC_ne {kind : List UInt8} (hk : kind.length = 4) (h : kind ≠ kindC) : ¬ makeTag kind = tagJXLC :=
  fun e => h (makeTag_inj hk (by decide) (e.trans (by decide)))

theorem skipFully_value {size : Nat} {s s' : BR} {x : Int} (h : skipFully size s = (.ok x, s')) : x = i64 (i64 size - u32 size) := by
  unfold skipFully at h
  obtain ⟨y, s1, h1, h2⟩ := Rd.of_bind h
  have hy : y = u32 size := by
    unfold skipBytes at h1
    generalize skipBits (u32 (u32 size <<< 3)) s = r at h1
    obtain ⟨_ | _ | _, _⟩ := r
    · exact (Res.ok.inj (Prod.mk.inj h1).1).symm
    · cases h1
    · cases h1
  rw [← hy]
  exact (Res.ok.inj (Prod.mk.inj h2).1).symm

/-- Actions that only move forward. -/
def Fwd {α : Type} (m : Rd α) : Prop := ∀ s a s', m s = (.ok a, s') → s'.data = s.data ∧ s.pos ≤ s'.pos

theorem Fwd.pure {α : Type} (a : α) : Fwd (Pure.pure a : Rd α) := by
  intro s b s' h
  cases h
  exact ⟨rfl, Nat.le_refl _⟩

theorem Fwd.bind {α β : Type} {m : Rd α} {f : α → Rd β} (hm : Fwd m) (hf : ∀ a, Fwd (f a)) : Fwd (m >>= f) := by
  intro s b s' h
  obtain ⟨a, s1, h1, h2⟩ := Rd.of_bind h
  obtain ⟨d1, p1⟩ := hm _ _ _ h1
  obtain ⟨d2, p2⟩ := hf a _ _ _ h2
  exact ⟨d2.trans d1, Nat.le_trans p1 p2⟩

theorem Fwd.fail {α : Type} : Fwd (Rd.fail : Rd α) := by intro s a s' h; cases h
theorem Fwd.crash {α : Type} : Fwd (Rd.crash : Rd α) := by intro s a s' h; cases h

theorem Fwd.ite {α : Type} {c : Prop} [Decidable c] {m n : Rd α} (hm : Fwd m) (hn : Fwd n) : Fwd (if c then m else n) := by
  split <;> assumption

theorem fwd_buf (n : Nat) : Fwd (readBytesToBuffer n) := by
  intro s a s' h
  unfold readBytesToBuffer at h
  split at h
  · cases h
  · split at h
    · cases h
    · dsimp only at h
      split at h
      · cases h
      · cases h
        exact ⟨rfl, Nat.le_add_right _ _⟩

theorem fwd_bit : Fwd readBit := by
  intro s a s' h
  unfold readBit at h
  split at h
  · split at h
    · cases h
    · cases h
      exact ⟨rfl, Nat.le_add_right _ _⟩
  · cases h
    exact ⟨rfl, Nat.le_refl _⟩

theorem fwd_skipLoop : ∀ k, Fwd (skipLoop k)
  | 0 => by
    intro s a s' h
    cases h
    exact ⟨rfl, Nat.le_refl _⟩
  | k + 1 => by
    intro s a s' h
    rw [skipLoop] at h
    dsimp only at h
    rcases hb : readBit s with ⟨b | _ | _, s1⟩
    · rw [hb] at h
      obtain ⟨d1, p1⟩ := fwd_bit _ _ _ hb
      obtain ⟨d2, p2⟩ := fwd_skipLoop k _ _ _ h
      exact ⟨d2.trans d1, Nat.le_trans p1 p2⟩
    · rw [hb] at h; cases h
    · rw [hb] at h; cases h

theorem fwd_skipBits (n : Nat) : Fwd (skipBits n) := by
  intro s a s' h
  unfold skipBits at h
  dsimp only at h
  split at h
  · split at h
    · cases h
    · obtain ⟨d2, p2⟩ := fwd_skipLoop _ _ _ _ h
      exact ⟨d2, Nat.le_trans (Nat.le_add_right _ _) p2⟩
  · exact fwd_skipLoop _ _ _ _ h

theorem fwd_skipFully (n : Nat) : Fwd (skipFully n) := by
  refine Fwd.bind ?_ (fun _ => Fwd.pure _)
  intro s a s' h
  unfold skipBytes at h
  rcases hb : skipBits (u32 (u32 n <<< 3)) s with ⟨b | _ | _, s1⟩
  · rw [hb] at h
    cases h
    exact fwd_skipBits _ _ _ _ hb
  · rw [hb] at h; cases h
  · rw [hb] at h; cases h

theorem fwd_bytesLoop (need : Nat) : ∀ k acc, Fwd (readBytesLoop need k acc) := by
  induction need using Nat.strongRecOn with
  | _ need ih =>
    intro k acc s a s' h
    rw [readBytesLoop] at h
    split at h
    · rcases hg : s.data[s.pos]? with _ | b
      · rw [hg] at h; cases h
      · rw [hg] at h
        obtain ⟨d, p⟩ := ih (need - 8) (by omega) _ _ _ _ _ h
        exact ⟨d, Nat.le_trans (Nat.le_add_right _ _) p⟩
    · cases h
      exact ⟨rfl, Nat.le_refl _⟩

theorem fwd_bits (n : Nat) : Fwd (readBits n) := by
  have haux : ∀ need k acc, Fwd (readAligned need k acc) := by
    intro need k acc s a s' h
    unfold readAligned at h
    rcases hb : readBytesLoop need k acc s with ⟨⟨x, y, z⟩ | _ | _, s1⟩
    · rw [hb] at h
      obtain ⟨d1, p1⟩ := fwd_bytesLoop _ _ _ _ _ _ hb
      dsimp only at h
      unfold readTail at h
      split at h
      · rcases hg : s1.data[s1.pos]? with _ | b
        · rw [hg] at h; cases h
        · rw [hg] at h
          cases h
          exact ⟨d1, Nat.le_trans p1 (Nat.le_add_right _ _)⟩
      · cases h
        exact ⟨d1, p1⟩
    · rw [hb] at h; cases h
    · rw [hb] at h; cases h
  intro s a s' h
  unfold readBits at h
  split at h
  · cases h; exact ⟨rfl, Nat.le_refl _⟩
  · split at h
    · cases h
    · by_cases hi : s.index ≠ 0
      · rw [if_pos hi] at h
        dsimp only at h
        obtain ⟨d, p⟩ := haux _ _ _ _ _ _ h
        exact ⟨d, p⟩
      · rw [if_neg hi] at h
        exact haux _ _ _ _ _ _ h

theorem fwd_level : Fwd readLevel := by
  unfold readLevel readByte
  exact Fwd.bind (Fwd.bind (fwd_bits 8) (fun _ => Fwd.pure _)) (fun l => Fwd.ite Fwd.fail (Fwd.pure _))

theorem fwd_body (size : Nat) (boxes : List BoxHeader) (level : Nat) : Fwd (readBoxBody size boxes level) := by
  unfold readBoxBody
  have hpos : Fwd filePos := by
    intro s a s' h
    cases h
    exact ⟨rfl, Nat.le_refl _⟩
  refine Fwd.bind (fwd_buf 4) (fun t => ?_)
  refine Fwd.ite (Fwd.bind (fwd_buf 4) (fun _ => Fwd.bind hpos (fun _ => Fwd.bind (fwd_skipFully _) (fun _ => Fwd.pure _)))) ?_
  refine Fwd.ite (Fwd.ite Fwd.fail (Fwd.bind fwd_level (fun _ => Fwd.pure _))) ?_
  refine Fwd.ite (Fwd.bind hpos (fun _ => Fwd.bind (fwd_skipFully _) (fun _ => Fwd.pure _))) ?_
  exact Fwd.ite (Fwd.bind (fwd_skipFully _) (fun _ => Fwd.ite Fwd.fail (Fwd.pure _))) Fwd.crash

theorem readBoxSize_fwd {s s' : BR} {n : Nat} (h : readBoxSize s = (.ok n, s')) : s'.data = s.data ∧ s.pos < s'.pos ∧ s.pos < s.data.length := by
  unfold readBoxSize at h
  obtain ⟨b, s1, h1, h2⟩ := Rd.of_bind h
  have hf : Fwd (do
      let size1 ← readIf (makeTag b == 1) (do
        let b8 ← readBytesToBuffer 8
        Pure.pure (if makeTag b8 > 0 then sub64 (makeTag b8) 8 else makeTag b8)) (makeTag b)
      Pure.pure (if size1 > 0 then sub64 size1 8 else size1) : Rd Nat) := by
    refine Fwd.bind ?_ (fun _ => Fwd.pure _)
    unfold readIf
    exact Fwd.ite (Fwd.bind (fwd_buf 8) (fun _ => Fwd.pure _)) (Fwd.pure _)
  obtain ⟨d2, p2⟩ := hf _ _ _ h2
  unfold readBytesToBuffer at h1
  split at h1
  · cases h1
  · split at h1
    · cases h1
    · dsimp only at h1
      split at h1
      · cases h1
      · rename_i hlen hne
        cases h1
        refine ⟨d2, ?_, by omega⟩
        have h4 : ((s.data.drop s.pos).take 4).length = 4 := by omega
        have : s.pos + ((s.data.drop s.pos).take 4).length ≤ s'.pos := p2
        omega

/-- Rounds beyond the number of bytes left do not matter. -/
theorem boxLoop_fuel : ∀ (n m : Nat) (boxes : List BoxHeader) (level : Nat) (s : BR), s.data.length - s.pos < n → s.data.length - s.pos < m →
    boxLoop n boxes level s = boxLoop m boxes level s
  | 0, _, _, _, _, h, _ => absurd h (Nat.not_lt_zero _)
  | _, 0, _, _, _, _, h => absurd h (Nat.not_lt_zero _)
  | n + 1, m + 1, boxes, level, s, hn, hm => by
    rw [boxLoop, boxLoop]
    dsimp only
    split
    · rfl
    · show Rd.bind _ _ s = Rd.bind _ _ s
      unfold Rd.bind
      rcases h1 : readBoxSize s with ⟨size | _ | _, s1⟩
      · obtain ⟨d1, p1, q1⟩ := readBoxSize_fwd h1
        show Rd.bind _ _ s1 = Rd.bind _ _ s1
        unfold Rd.bind
        rcases h2 : readBoxBody size boxes level s1 with ⟨r | _ | _, s2⟩
        · obtain ⟨d2, p2⟩ := fwd_body _ _ _ _ _ _ h2
          have hd : s2.data = s.data := d2.trans d1
          exact boxLoop_fuel n m r.1 r.2 s2 (by rw [hd]; omega) (by rw [hd]; omega)
        · rfl
        · rfl
      · rfl
      · rfl

theorem levelOf_cases (bs : List Box) (hb : ∀ b ∈ bs, b.Usual) : levelOf bs = 5 ∨ levelOf bs = 10 := by
  unfold levelOf
  have : ∀ (l : Nat), l = 5 ∨ l = 10 → bs.foldl (fun l b => if b.kind = kindL then (b.payload.headD 5).toNat else l) l = 5 ∨
      bs.foldl (fun l b => if b.kind = kindL then (b.payload.headD 5).toNat else l) l = 10 := by
    induction bs with
    | nil => intro l h; exact h
    | cons b bs ih =>
      intro l h
      rw [List.foldl_cons]
      refine ih (fun x hx => hb x (List.mem_cons_of_mem _ hx)) _ ?_
      split
      · rename_i hk
        rcases (hb b List.mem_cons_self).1.2.2.1 hk with h | h <;> rw [h]
        · exact Or.inl rfl
        · exact Or.inr rfl
      · exact h
  exact this 5 (Or.inl rfl)

/-- Reading the header at a place of a file. -/
theorem header_at (level : Nat) (hl : level = 5 ∨ level = 10) (s : BR) (pre rest : List UInt8) (h : At s pre rest) (im : ImageHeader) (r : List Bool)
    (hd : decImageHeader level (streamBits rest) = some (im, r)) :
    ∃ s', (match atEnd s with
      | (true, s') => (.ok none, s')
      | (false, s') => (do
        let h ← readImageHeaderFields level
        Pure.pure (some h)) s' : Res (Option ImageHeader) × BR) = (.ok (some im), s') := by
  have hb : bitsFrom s.data (8 * pre.length) = streamBits rest := by
    unfold bitsFrom
    rw [h.1, streamBits_append, List.drop_left' (by rw [length_streamBits])]
  have hne : rest ≠ [] := by
    intro e
    rw [e] at hd
    cases hd
  have hlen := List.length_pos_of_ne_nil hne
  have hend : atEnd s = (false, s) := by
    unfold atEnd
    rw [(showBits_spec 1 s _ h.atBit (by decide)).1 (by rw [h.1, List.length_append]; omega)]
  rw [hend]
  dsimp only
  obtain ⟨s', p', e, _⟩ := follows_header level (by omega) s _ h.atBit im r (by rw [hb]; exact hd)
  rw [Rd.bind_ok e]
  exact ⟨s', rfl⟩

theorem pieces_none (bs : List Box) (hn : ∀ b ∈ bs, b.kind ≠ kindC ∧ b.kind ≠ kindP) : ∀ p, pieces p bs = [] := by
  induction bs with
  | nil => intro p; rfl
  | cons b bs ih =>
    intro p
    obtain ⟨h1, h2⟩ := hn b List.mem_cons_self
    rw [pieces, if_neg h1, if_neg h2, List.nil_append]
    exact ih (fun x hx => hn x (List.mem_cons_of_mem _ hx)) _

theorem pieces_single (before after : List Box) (payload : List UInt8) (h1 : ∀ b ∈ before, b.kind ≠ kindC ∧ b.kind ≠ kindP)
    (h2 : ∀ b ∈ after, b.kind ≠ kindC ∧ b.kind ≠ kindP) (hk : ∀ b ∈ before, b.kind.length = 4) : ∀ pre : List UInt8,
    pieces pre.length (before ++ [⟨kindC, payload⟩] ++ after) = [((pre ++ before.flatMap Box.bytes).length + 8, payload.length, false)] := by
  induction before with
  | nil =>
    intro pre
    rw [List.nil_append, List.singleton_append, pieces, if_pos rfl, pieces_none after h2]
    simp
  | cons b bs ih =>
    intro pre
    obtain ⟨a1, a2⟩ := h1 b List.mem_cons_self
    have hbl : b.bytes.length = 8 + b.payload.length := by
      unfold Box.bytes be32
      simp only [List.length_append, List.length_cons, List.length_nil, hk b List.mem_cons_self]
    rw [List.cons_append, List.cons_append, pieces, if_neg a1, if_neg a2, List.nil_append]
    have := ih (fun x hx => h1 x (List.mem_cons_of_mem _ hx)) (fun x hx => hk x (List.mem_cons_of_mem _ hx)) (pre ++ b.bytes)
    rw [List.length_append, hbl, ← Nat.add_assoc] at this
    rw [this, List.flatMap_cons, List.append_assoc]

end Jxl
