import Verif.Proofs.Boxes
/-!
# Containers (C32) and the way to the image header (C60)
-/
namespace Jxl
open Spec

/-! ## C32 -/

/-- C32, in part. In a container of any number of well-formed boxes, each of less than 2^29 bytes and none of them empty unless it is
codestream, the parser finds every piece of codestream, at its exact place with its exact length, and the level. -/
theorem C32_boxes_partial (bs : List Box) (hb : ∀ b ∈ bs, b.Usual) :
    ∃ hs s', readBoxHeader (BR.new (container bs)) = (.ok (hs, levelOf bs), s') ∧
      hs.map (fun h => (h.offset, h.size, h.tag == tagJXLP)) = pieces 12 bs ∧ (∀ h ∈ hs, h.tag = tagJXLC ∨ h.tag = tagJXLP) ∧
      hs.map (fun h => ((container bs).drop h.offset).take h.size) =
        bs.filterMap (fun b => if b.kind = kindC then some b.payload else if b.kind = kindP then some (b.payload.drop 4) else none) := by
  obtain ⟨s', n, e, a, _⟩ := readBoxHeader_at bs hb []
  rw [List.append_nil] at e
  refine ⟨_, s', e.trans (boxLoop_end n _ _ a), ?_, ?_, ?_⟩
  · rw [List.map_map]
    conv_rhs => rw [← List.map_id (pieces 12 bs)]
    refine List.map_congr_left (fun x _ => ?_)
    obtain ⟨a, b, c⟩ := x
    cases c <;> rfl
  · intro h hh
    obtain ⟨x, _, rfl⟩ := List.mem_map.mp hh
    unfold toHeader
    dsimp only
    split
    · exact Or.inr rfl
    · exact Or.inl rfl
  · rw [List.map_map]
    have := pieces_slices bs (fun b hx => (hb b hx).1.1) signature []
    rw [List.append_nil, show signature.length = 12 by decide] at this
    exact this

/-- A container with an `ftyp` box, level 10, and a codestream in two parts. -/
example : ∀ b ∈ [⟨fourCC ['f', 't', 'y', 'p'], [1, 2, 3]⟩, ⟨kindL, [10]⟩, ⟨kindP, [0, 0, 0, 0, 0xFF, 0x0A]⟩, (⟨kindP, [0x80, 0, 0, 1, 7]⟩ : Box)], b.Usual := by
  decide
example : pieces 12 [⟨fourCC ['f', 't', 'y', 'p'], [1, 2, 3]⟩, ⟨kindL, [10]⟩, ⟨kindP, [0, 0, 0, 0, 0xFF, 0x0A]⟩, ⟨kindP, [0x80, 0, 0, 1, 7]⟩] = [(44, 2, true), (58, 1, true)] := by
  decide

/-- C32 is false of the code: an empty box of another type crashes the parser, whatever precedes and follows it. -/
theorem C32_empty_box_crashes (bs : List Box) (hb : ∀ b ∈ bs, b.Usual) (kind : List UInt8) (hk : kind.length = 4) (hc : kind ≠ kindC) (hp : kind ≠ kindP)
    (hl : kind ≠ kindL) (rest : List UInt8) : (readBoxHeader (BR.new (container bs ++ (Box.bytes ⟨kind, []⟩ ++ rest)))).1 = .panic := by
  obtain ⟨s', n, e, a, _⟩ := readBoxHeader_at bs hb (Box.bytes ⟨kind, []⟩ ++ rest)
  have a' : At s' (container bs) (be32 8 ++ (kind ++ rest)) := by
    have : Box.bytes ⟨kind, []⟩ ++ rest = be32 8 ++ (kind ++ rest) := by
      unfold Box.bytes
      simp only [List.append_nil, List.append_assoc]
      rfl
    rw [← this]; exact a
  rw [e, boxLoop_step n _ _ a' (by unfold be32; simp)]
  obtain ⟨s1, e1, a1⟩ := readBoxSize_at 8 (by decide) (by decide) a'
  rw [Rd.bind_ok e1]
  obtain ⟨s2, e2, a2⟩ := readBuf_at kind (by intro h; rw [h] at hk; cases hk) a1
  rw [hk] at e2
  have : readBoxBody (8 - 8) ((pieces 12 bs).map toHeader) (levelOf bs) s1 = (.panic, s2) := by
    unfold readBoxBody
    rw [Rd.bind_ok e2, if_neg (tagP_ne hk hp), if_neg (tagL_ne hk hl), if_neg (tagC_ne hk hc), if_neg (by decide)]
    rfl
  show (Rd.bind _ _ s1).1 = _
  unfold Rd.bind
  rw [this]

/-- C32 is false of the code: a box that extends to the end of the file (size 0) crashes the parser, unless it is codestream. -/
theorem C32_open_box_crashes (bs : List Box) (hb : ∀ b ∈ bs, b.Usual) (kind : List UInt8) (hk : kind.length = 4) (hc : kind ≠ kindC) (hp : kind ≠ kindP)
    (hl : kind ≠ kindL) (rest : List UInt8) : (readBoxHeader (BR.new (container bs ++ (be32 0 ++ (kind ++ rest))))).1 = .panic := by
  obtain ⟨s', n, e, a', _⟩ := readBoxHeader_at bs hb (be32 0 ++ (kind ++ rest))
  rw [e, boxLoop_step n _ _ a' (by unfold be32; simp)]
  obtain ⟨s1, e1, a1⟩ := readBuf_at (be32 0) (by decide) a'
  have e1' : readBoxSize s' = (.ok 0, s1) := by
    unfold readBoxSize
    refine (Rd.bind_ok (show readBytesToBuffer 4 s' = _ from e1)).trans rfl
  rw [Rd.bind_ok e1']
  obtain ⟨s2, e2, a2⟩ := readBuf_at kind (by intro h; rw [h] at hk; cases hk) a1
  rw [hk] at e2
  have : readBoxBody 0 ((pieces 12 bs).map toHeader) (levelOf bs) s1 = (.panic, s2) := by
    unfold readBoxBody
    rw [Rd.bind_ok e2, if_neg (tagP_ne hk hp), if_neg (tagL_ne hk hl), if_neg (tagC_ne hk hc), if_neg (by decide)]
    rfl
  show (Rd.bind _ _ s1).1 = _
  unfold Rd.bind
  rw [this]

/-- A type as in the two theorems above. -/
example : fourCC ['E', 'x', 'i', 'f'] ≠ kindC ∧ fourCC ['E', 'x', 'i', 'f'] ≠ kindP ∧ fourCC ['E', 'x', 'i', 'f'] ≠ kindL ∧ (fourCC ['E', 'x', 'i', 'f']).length = 4 := by decide

/-- C32 is false of the code: a codestream box with a 64-bit size (size field 1, then the type, then the size) is never accepted. The code
looks for the size before the type. -/
theorem C32_long_box_rejected (bs : List Box) (hb : ∀ b ∈ bs, b.Usual) (size : Nat) (hs : size < 2 ^ 30) (rest : List UInt8) :
    (readBoxHeader (BR.new (container bs ++ (be32 1 ++ (kindC ++ (be32 0 ++ (be32 size ++ rest))))))).1 = .err := by
  obtain ⟨s', n, e, a', _⟩ := readBoxHeader_at bs hb (be32 1 ++ (kindC ++ (be32 0 ++ (be32 size ++ rest))))
  rw [e, boxLoop_step n _ _ a' (by unfold be32; simp)]
  obtain ⟨s1, e1, a1⟩ := readBuf_at (be32 1) (by decide) a'
  rw [← List.append_assoc kindC] at a1
  obtain ⟨s2, e2, a2⟩ := readBuf_at (kindC ++ be32 0) (by decide) a1
  have e1' : readBoxSize s' = (.ok (makeTag (kindC ++ be32 0) - 16), s2) := by
    unfold readBoxSize
    refine (Rd.bind_ok (show readBytesToBuffer 4 s' = _ from e1)).trans ?_
    refine (Rd.bind_ok (a := makeTag (kindC ++ be32 0) - 8) (s' := s2) ((Rd.bind_ok (show readBytesToBuffer 8 s1 = _ from e2)).trans ?_)).trans ?_
    · rw [if_pos (by decide), show sub64 (makeTag (kindC ++ be32 0)) 8 = makeTag (kindC ++ be32 0) - 8 by decide]
      rfl
    · rw [if_pos (by decide), show sub64 (makeTag (kindC ++ be32 0) - 8) 8 = makeTag (kindC ++ be32 0) - 16 by decide]
      rfl
  rw [Rd.bind_ok e1']
  obtain ⟨s3, e3, a3⟩ := readBuf_at (be32 size) (by unfold be32; simp) a2
  have hbig : u32 (u32 (makeTag (kindC ++ be32 0) - 16) <<< 3) / 8 = 2 ^ 29 - 16 := by decide
  suffices h : (readBoxBody (makeTag (kindC ++ be32 0) - 16) ((pieces 12 bs).map toHeader) (levelOf bs) s2).1 = .err by
    show (Rd.bind _ _ s2).1 = _
    unfold Rd.bind
    rcases hx : readBoxBody (makeTag (kindC ++ be32 0) - 16) ((pieces 12 bs).map toHeader) (levelOf bs) s2 with ⟨_ | _ | _, _⟩
    · rw [hx] at h; cases h
    · rfl
    · rw [hx] at h; cases h
  unfold readBoxBody
  rw [Rd.bind_ok (show readBytesToBuffer 4 s2 = _ from e3), makeTag_be32 size (by omega)]
  have tp : tagJXLP = 1786276976 := by decide
  have tl : tagJXLL = 1786276972 := by decide
  have tc : tagJXLC = 1786276963 := by decide
  rw [if_neg (by omega), if_neg (by omega), if_neg (by omega), if_pos (by decide)]
  have hmod : ∀ s : BR, (∀ x s'', skipFully (makeTag (kindC ++ be32 0) - 16) s = (.ok x, s'') → x ≠ 0) → (skipFully (makeTag (kindC ++ be32 0) - 16) s).1 ≠ .panic →
      ((do let rest ← skipFully (makeTag (kindC ++ be32 0) - 16)
           if rest ≠ 0 then Rd.fail else Pure.pure ((pieces 12 bs).map toHeader, levelOf bs) : Rd (List BoxHeader × Nat)) s).1 = .err := by
    intro s h1 h2
    show (Rd.bind _ _ s).1 = _
    unfold Rd.bind
    rcases hx : skipFully (makeTag (kindC ++ be32 0) - 16) s with ⟨x | _ | _, s''⟩
    · dsimp only
      rw [if_pos (h1 x s'' hx)]
      rfl
    · rfl
    · rw [hx] at h2; exact absurd rfl h2
  refine hmod s3 ?_ ?_
  · intro x s'' h
    have := skipFully_value h
    rw [this, show makeTag (kindC ++ be32 0) - 16 = 7672001137683202032 by decide]
    decide
  · unfold skipFully
    have hsb : (skipBytes (u32 (makeTag (kindC ++ be32 0) - 16)) s3).1 ≠ .panic := by
      unfold skipBytes
      have : (skipBits (u32 (u32 (makeTag (kindC ++ be32 0) - 16) <<< 3)) s3).1 ≠ .panic := by
        unfold skipBits
        dsimp only
        rw [hbig, if_pos (by decide), show u32 (u32 (makeTag (kindC ++ be32 0) - 16) <<< 3) - (2 ^ 29 - 16) * 8 = 0 by decide]
        split
        · intro h; cases h
        · intro h; cases h
      rcases hx : skipBits (u32 (u32 (makeTag (kindC ++ be32 0) - 16) <<< 3)) s3 with ⟨_ | _ | _, _⟩
      · intro h; cases h
      · intro h; cases h
      · rw [hx] at this; exact absurd rfl this
    show (Rd.bind _ _ s3).1 ≠ _
    unfold Rd.bind
    rcases hx : skipBytes (u32 (makeTag (kindC ++ be32 0) - 16)) s3 with ⟨_ | _ | _, _⟩
    · intro h; cases h
    · intro h; cases h
    · rw [hx] at hsb; exact absurd rfl hsb

/-- C32 is false of the code: a codestream box of which only a part is in the file is accepted with its announced size. -/
theorem C32_truncated_accepted (bs : List Box) (hb : ∀ b ∈ bs, b.Usual) (size : Nat) (hs : 8 + size < 2 ^ 29) (part : List UInt8) (hp : part ≠ [])
    (hl : part.length < size) :
    ∃ s', readBoxHeader (BR.new (container bs ++ (be32 (8 + size) ++ (kindC ++ part)))) =
      (.ok ((pieces 12 bs).map toHeader ++ [⟨tagJXLC, size, false, (container bs).length + 8⟩], levelOf bs), s') := by
  obtain ⟨s', n, e, a', hn⟩ := readBoxHeader_at bs hb (be32 (8 + size) ++ (kindC ++ part))
  rw [e, boxLoop_step n _ _ a' (by unfold be32; simp)]
  obtain ⟨s1, e1, a1⟩ := readBoxSize_at (8 + size) (by omega) (by omega) a'
  rw [Rd.bind_ok e1, show 8 + size - 8 = size by omega]
  obtain ⟨s2, e2, a2⟩ := readBuf_at kindC (by decide) a1
  have e8 : u32 (u32 size <<< 3) / 8 = size := by
    unfold u32
    rw [Nat.shiftLeft_eq]
    omega
  obtain ⟨s3, e3, a3⟩ := skipFully_short size part hp (by omega) a2
  have e4 : filePos s2 = (.ok ((container bs).length + 8), s2) := by
    unfold filePos
    rw [a2.2.1, List.length_append, List.length_append]
    rfl
  have : readBoxBody size ((pieces 12 bs).map toHeader) (levelOf bs) s1 =
      (.ok ((pieces 12 bs).map toHeader ++ [⟨tagJXLC, size, false, (container bs).length + 8⟩], levelOf bs), s3) := by
    unfold readBoxBody
    rw [Rd.bind_ok (show readBytesToBuffer 4 s1 = _ from e2), if_neg (by decide), if_neg (by decide), if_pos (by decide), Rd.bind_ok e4, Rd.bind_ok e3]
    rfl
  rw [Rd.bind_ok this]
  have hn1 : n = n - 1 + 1 := by
    have : 0 < (be32 (8 + size) ++ (kindC ++ part)).length := by unfold be32; simp
    omega
  rw [hn1]
  exact ⟨s3, boxLoop_end _ _ _ a3⟩

example : 8 + 1000 < 2 ^ 29 ∧ ([0xFF, 0x0A] : List UInt8) ≠ [] ∧ ([0xFF, 0x0A] : List UInt8).length < 1000 := by decide

/-- C32 is false of the code: a size between 2 and 7, less than the header of the box, is accepted as a size of almost 2^64. -/
theorem C32_small_size_accepted (bs : List Box) (hb : ∀ b ∈ bs, b.Usual) (size : Nat) (h2 : 2 ≤ size) (h7 : size ≤ 7) (rest : List UInt8) (hr : rest ≠ [])
    (hl : rest.length < 2 ^ 28) :
    ∃ s', readBoxHeader (BR.new (container bs ++ (be32 size ++ (kindC ++ rest)))) =
      (.ok ((pieces 12 bs).map toHeader ++ [⟨tagJXLC, 2 ^ 64 - 8 + size, false, (container bs).length + 8⟩], levelOf bs), s') := by
  obtain ⟨s', n, e, a', hn⟩ := readBoxHeader_at bs hb (be32 size ++ (kindC ++ rest))
  rw [e, boxLoop_step n _ _ a' (by unfold be32; simp)]
  obtain ⟨s1, e1, a1⟩ := readBuf_at (be32 size) (by unfold be32; simp) a'
  have e1' : readBoxSize s' = (.ok (2 ^ 64 - 8 + size), s1) := by
    unfold readBoxSize
    refine (Rd.bind_ok (show readBytesToBuffer 4 s' = _ from e1)).trans ?_
    rw [makeTag_be32 size (by omega)]
    refine (Rd.bind_ok (a := size) (s' := s1) (by
      unfold readIf
      rw [if_neg (by rw [beq_iff_eq]; omega)]
      rfl)).trans ?_
    rw [if_pos (by omega), show sub64 size 8 = 2 ^ 64 - 8 + size by unfold sub64 u64; omega]
    rfl
  rw [Rd.bind_ok e1']
  obtain ⟨s2, e2, a2⟩ := readBuf_at kindC (by decide) a1
  have e8 : 2 ^ 28 ≤ u32 (u32 (2 ^ 64 - 8 + size) <<< 3) / 8 := by
    unfold u32
    rw [Nat.shiftLeft_eq]
    omega
  obtain ⟨s3, e3, a3⟩ := skipFully_short (2 ^ 64 - 8 + size) rest hr (by omega) a2
  have e4 : filePos s2 = (.ok ((container bs).length + 8), s2) := by
    unfold filePos
    rw [a2.2.1, List.length_append, List.length_append]
    rfl
  have : readBoxBody (2 ^ 64 - 8 + size) ((pieces 12 bs).map toHeader) (levelOf bs) s1 =
      (.ok ((pieces 12 bs).map toHeader ++ [⟨tagJXLC, 2 ^ 64 - 8 + size, false, (container bs).length + 8⟩], levelOf bs), s3) := by
    unfold readBoxBody
    rw [Rd.bind_ok (show readBytesToBuffer 4 s1 = _ from e2), if_neg (by decide), if_neg (by decide), if_pos (by decide), Rd.bind_ok e4, Rd.bind_ok e3]
    rfl
  rw [Rd.bind_ok this]
  have hn1 : n = n - 1 + 1 := by
    have : 0 < (be32 size ++ (kindC ++ rest)).length := by unfold be32; simp
    omega
  rw [hn1]
  exact ⟨s3, boxLoop_end _ _ _ a3⟩

/-- C32 is false of the code: a well-formed file whose codestream box has 2^29 bytes is parsed as if the box were empty; when the contents
begin with eight zeros, the parser crashes. -/
theorem C32_large_box_crashes (payload : List UInt8) (hl : payload.length = 2 ^ 29) (tail : List UInt8) (hp : payload = List.replicate 8 0 ++ tail) :
    (Box.mk kindC payload).Wellformed ∧ (readBoxHeader (BR.new (container [⟨kindC, payload⟩]))).1 = .panic := by
  refine ⟨⟨rfl, by dsimp only; rw [hl]; decide, fun h => absurd (show kindC = kindL from h) (by decide), fun h => absurd (show kindC = kindP from h) (by decide)⟩, ?_⟩
  have hfile : container [⟨kindC, payload⟩] = container [] ++ (be32 (8 + 2 ^ 29) ++ (kindC ++ (be32 0 ++ ([0, 0, 0, 0] ++ tail)))) := by
    unfold container Box.bytes
    simp only [List.flatMap_cons, List.flatMap_nil, List.append_nil, List.append_assoc, hl]
    rw [hp]
    rfl
  rw [hfile]
  obtain ⟨s', n, e, a', hn⟩ := readBoxHeader_at [] (fun b h => absurd h (List.not_mem_nil)) (be32 (8 + 2 ^ 29) ++ (kindC ++ (be32 0 ++ ([0, 0, 0, 0] ++ tail))))
  rw [e, boxLoop_step n _ _ a' (by unfold be32; simp)]
  obtain ⟨s1, e1, a1⟩ := readBoxSize_at (8 + 2 ^ 29) (by decide) (by decide) a'
  rw [Rd.bind_ok e1]
  obtain ⟨s2, e2, a2⟩ := readBuf_at kindC (by decide) a1
  have e4 : filePos s2 = (.ok s2.pos, s2) := rfl
  have e3 : skipFully (8 + 2 ^ 29 - 8) s2 = (.ok 0, s2) := by
    unfold skipFully
    refine (Rd.bind_ok (a := 2 ^ 29) (s' := s2) ?_).trans rfl
    unfold skipBytes
    rw [show u32 (u32 (8 + 2 ^ 29 - 8) <<< 3) = 0 by decide]
    rfl
  have : readBoxBody (8 + 2 ^ 29 - 8) ((pieces 12 []).map toHeader) (levelOf []) s1 = (.ok ([⟨tagJXLC, 2 ^ 29, false, s2.pos⟩], 5), s2) := by
    unfold readBoxBody
    rw [Rd.bind_ok (show readBytesToBuffer 4 s1 = _ from e2), if_neg (by decide), if_neg (by decide), if_pos (by decide), Rd.bind_ok e4, Rd.bind_ok e3]
    rfl
  rw [Rd.bind_ok this]
  have hn1 : n = n - 1 + 1 := by
    have : 0 < (be32 (8 + 2 ^ 29) ++ (kindC ++ (be32 0 ++ ([0, 0, 0, 0] ++ tail)))).length := by unfold be32; simp
    omega
  rw [hn1, boxLoop_step _ _ _ a2 (by unfold be32; simp)]
  obtain ⟨s3, e5, a3⟩ := readBuf_at (be32 0) (by decide) a2
  have e5' : readBoxSize s2 = (.ok 0, s3) := by
    unfold readBoxSize
    refine (Rd.bind_ok (show readBytesToBuffer 4 s2 = _ from e5)).trans rfl
  rw [Rd.bind_ok e5']
  obtain ⟨s4, e6, a4⟩ := readBuf_at [0, 0, 0, 0] (by decide) a3
  have : readBoxBody 0 [⟨tagJXLC, 2 ^ 29, false, s2.pos⟩] 5 s3 = (.panic, s4) := by
    unfold readBoxBody
    rw [Rd.bind_ok (show readBytesToBuffer 4 s3 = _ from e6), if_neg (by decide), if_neg (by decide), if_neg (by decide), if_neg (by decide)]
    rfl
  show (Rd.bind _ _ s3).1 = _
  unfold Rd.bind
  rw [this]

/-- Such contents. -/
example : (List.replicate (2 ^ 29) (0 : UInt8)).length = 2 ^ 29 ∧ List.replicate (2 ^ 29) (0 : UInt8) = List.replicate 8 0 ++ List.replicate (2 ^ 29 - 8) 0 := by
  refine ⟨List.length_replicate, ?_⟩
  rw [← List.replicate_add, show 8 + (2 ^ 29 - 8) = 2 ^ 29 by decide]

/-- C32. The parser terminates on every file: its loop never needs more rounds than there are bytes left. -/
theorem C32_terminates (n : Nat) (boxes : List BoxHeader) (level : Nat) (s : BR) (hn : s.data.length - s.pos < n) :
    boxLoop n boxes level s = boxLoop (s.data.length + 1) boxes level s := boxLoop_fuel n _ boxes level s hn (by omega)

/-! ## C60: the image header is found -/

/-- C60, in part. The header of an image in a container is that at the beginning of its codestream box, whatever boxes precede and follow
it (ordinary ones, no other codestream). -/
theorem C60_container_partial (before after : List Box) (payload : List UInt8) (hb : ∀ b ∈ before ++ [⟨kindC, payload⟩] ++ after, b.Usual)
    (h1 : ∀ b ∈ before, b.kind ≠ kindC ∧ b.kind ≠ kindP) (h2 : ∀ b ∈ after, b.kind ≠ kindC ∧ b.kind ≠ kindP) (im : ImageHeader) (r : List Bool)
    (hd : decImageHeader (levelOf (before ++ [⟨kindC, payload⟩] ++ after)) (streamBits (payload ++ after.flatMap Box.bytes)) = some (im, r)) :
    ∃ s', getImageHeader (BR.new (container (before ++ [⟨kindC, payload⟩] ++ after))) = (.ok (some im), s') := by
  obtain ⟨s1, n, e, a, _⟩ := readBoxHeader_at _ hb []
  rw [List.append_nil] at e
  rw [boxLoop_end n _ _ a] at e
  have hp : pieces 12 (before ++ [⟨kindC, payload⟩] ++ after) = [((container before).length + 8, payload.length, false)] := by
    have := pieces_single before after payload h1 h2 (fun b h => (hb b (by simp [h])).1.1) signature
    rw [show signature.length = 12 by decide] at this
    exact this
  rw [hp] at e
  have hfile : container (before ++ [⟨kindC, payload⟩] ++ after) = (container before ++ be32 (8 + payload.length) ++ kindC) ++ (payload ++ after.flatMap Box.bytes) := by
    unfold container
    simp only [List.flatMap_append, List.flatMap_cons, List.flatMap_nil, List.append_nil, Box.bytes, List.append_assoc]
  have hdata : s1.data = container (before ++ [⟨kindC, payload⟩] ++ after) := by rw [a.1, List.append_nil]
  unfold getImageHeader
  rw [Rd.bind_ok e]
  rw [if_neg (by simp)]
  rw [Rd.bind_ok (show Rd.lift (idx _ 0) s1 = (.ok (⟨tagJXLC, payload.length, false, (container before).length + 8⟩ : BoxHeader), s1) from rfl)]
  rw [Rd.bind_ok (show seekStart _ s1 = (.ok (), { s1 with pos := (container before).length + 8 }) from rfl)]
  refine header_at _ (levelOf_cases _ hb) _ (container before ++ be32 (8 + payload.length) ++ kindC) (payload ++ after.flatMap Box.bytes) ?_ im r hd
  refine ⟨hdata.trans hfile, ?_, a.2.2⟩
  show (container before).length + 8 = _
  rw [List.length_append, List.length_append]
  rfl

/-- An image of 1920 by 1080 pixels with an all-default header, between an `ftyp` box and an `Exif` box. -/
example : (∀ b ∈ [⟨fourCC ['f', 't', 'y', 'p'], [1, 2, 3]⟩] ++ [⟨kindC, [0xFF, 0x0A, 0xBA, 0x21, 0x1D]⟩] ++ [(⟨fourCC ['E', 'x', 'i', 'f'], [7]⟩ : Box)], b.Usual) ∧
    (decImageHeader 5 (streamBits ([0xFF, 0x0A, 0xBA, 0x21, 0x1D] ++ [(⟨fourCC ['E', 'x', 'i', 'f'], [7]⟩ : Box)].flatMap Box.bytes))).map (fun x => x.1.size) = some ⟨1920, 1080⟩ := by
  refine ⟨by decide, by decide +kernel⟩

/-- C60, in part. The header of a bare codestream of at least twelve bytes is that at its beginning. -/
theorem C60_bare_partial (file : List UInt8) (hl : 12 ≤ file.length) (hs : file.take 12 ≠ signature) (im : ImageHeader) (r : List Bool)
    (hd : decImageHeader 5 (streamBits file) = some (im, r)) : ∃ s', getImageHeader (BR.new file) = (.ok (some im), s') := by
  have h0 : At { BR.new file with pos := 0 } [] (file.take 12 ++ file.drop 12) := by
    rw [List.take_append_drop]
    exact ⟨rfl, rfl, rfl⟩
  have hl12 : (file.take 12).length = 12 := by rw [List.length_take]; omega
  obtain ⟨s1, e1, a1⟩ := readBuf_at (file.take 12) (by intro h; rw [h] at hl12; cases hl12) h0
  rw [hl12] at e1
  have e : readBoxHeader (BR.new file) = (.ok ([⟨tagJXLC, 0, true, 0⟩], 5), s1) := by
    unfold readBoxHeader
    refine (Rd.bind_ok (m := seekStart 0) (a := ()) (s' := { BR.new file with pos := 0 }) rfl).trans ?_
    refine (Rd.bind_ok e1).trans ?_
    rw [if_pos (show file.take 12 ≠ containerHeader from fun h => hs (h.trans (by decide)))]
    rfl
  unfold getImageHeader
  rw [Rd.bind_ok e, if_neg (by decide)]
  rw [Rd.bind_ok (show Rd.lift (idx _ 0) s1 = (.ok (⟨tagJXLC, 0, true, 0⟩ : BoxHeader), s1) from rfl)]
  rw [Rd.bind_ok (show seekStart _ s1 = (.ok (), { s1 with pos := 0 }) from rfl)]
  refine header_at 5 (Or.inl rfl) { s1 with pos := 0 } [] file ⟨?_, rfl, a1.2.2⟩ im r hd
  show s1.data = _
  rw [a1.1, List.nil_append, List.nil_append, List.take_append_drop]

example : 12 ≤ ([0xFF, 0x0A, 0xBA, 0x21, 0x1D, 0, 0, 0, 0, 0, 0, 0] : List UInt8).length ∧
    (decImageHeader 5 (streamBits [0xFF, 0x0A, 0xBA, 0x21, 0x1D, 0, 0, 0, 0, 0, 0, 0])).map (fun x => x.1.size) = some ⟨1920, 1080⟩ := by
  refine ⟨by decide, by decide +kernel⟩

/-- C60 is false of the code: a bare codestream of less than twelve bytes is rejected, whatever it contains. -/
theorem C60_short_rejected (file : List UInt8) (hl : file.length < 12) : (getImageHeader (BR.new file)).1 = .err := by
  have h0 : At { BR.new file with pos := 0 } [] file := ⟨rfl, rfl, rfl⟩
  have e1 := readBuf_short 12 h0 hl
  have e : (readBoxHeader (BR.new file)).1 = .err := by
    unfold readBoxHeader
    rw [Rd.bind_ok (m := seekStart 0) (a := ()) (s' := { BR.new file with pos := 0 }) rfl]
    show (Rd.bind _ _ _).1 = _
    unfold Rd.bind
    rcases hx : readBytesToBuffer 12 { BR.new file with pos := 0 } with ⟨_ | _ | _, _⟩
    · rw [hx] at e1; cases e1
    · rfl
    · rw [hx] at e1; cases e1
  unfold getImageHeader
  show (Rd.bind _ _ _).1 = _
  unfold Rd.bind
  rcases hx : readBoxHeader (BR.new file) with ⟨_ | _ | _, _⟩
  · rw [hx] at e; cases e
  · rfl
  · rw [hx] at e; cases e

/-- C60 is false of the code: a container without codestream crashes it. -/
theorem C60_no_codestream_crashes (bs : List Box) (hb : ∀ b ∈ bs, b.Usual) (hn : ∀ b ∈ bs, b.kind ≠ kindC ∧ b.kind ≠ kindP) :
    (getImageHeader (BR.new (container bs))).1 = .panic ∧ (decodeHeader (BR.new (container bs))).1 = .panic := by
  obtain ⟨s1, n, e, a, _⟩ := readBoxHeader_at bs hb []
  rw [List.append_nil, boxLoop_end n _ _ a, pieces_none bs hn] at e
  constructor
  · unfold getImageHeader
    rw [Rd.bind_ok e]
    rfl
  · unfold decodeHeader
    rw [Rd.bind_ok e]
    rfl

/-- C60 is false of the code: the header of a codestream in several parts is never returned. -/
theorem C60_split_rejected (bs : List Box) (hb : ∀ b ∈ bs, b.Usual) (hn : 1 < (pieces 12 bs).length) : (getImageHeader (BR.new (container bs))).1 = .err := by
  obtain ⟨s1, n, e, a, _⟩ := readBoxHeader_at bs hb []
  rw [List.append_nil, boxLoop_end n _ _ a] at e
  unfold getImageHeader
  rw [Rd.bind_ok e, if_pos (by rw [List.length_map]; exact hn)]
  rfl

end Jxl
