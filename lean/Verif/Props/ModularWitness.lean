import Verif.Props.ModularCoding
import Verif.Props.TreeCoding
import Verif.Props.FrameDecode

/-!
# C84: examples of coded frames, and frames that the code does not decode
-/
namespace Jxl
open Spec

/-- A gray image. -/
def grayImage : ImageHeader := { sampleHeader with size := ⟨2, 2⟩ }

/-- A modular frame of one pass without filters. -/
def modularFrame (w h : Nat) (passes : Passes) : FrameHeader :=
  { frameSized w h with groupDim := 128, lfGroupDim := 1024, logGroupDim := 7, logLFGroupDim := 10, passes := passes, restoration := { Restoration.dflt with gab := false, iterations := 0 } }

theorem modularFrame_plain (w h : Nat) (hw : 0 < w ∧ w ≤ 2 ^ 30) (hh : 0 < h ∧ h ≤ 2 ^ 30) (passes : Passes) : Plain grayImage (modularFrame w h passes) where
  framed := ⟨⟨0, by decide, rfl⟩, rfl, (by show ∀ v ∈ [0, 0, 0], v ≤ 1; decide), (by show ∀ v ∈ [0, 0, 0], v ≤ 1; decide), ⟨hw.1, by show w ≤ _; omega⟩, ⟨hh.1, by show h ≤ _; omega⟩⟩
  small := ⟨hh.2, hw.2⟩
  modular := rfl
  xyb := rfl
  gray := fun _ => rfl
  integers := ⟨rfl, by intro e he; cases he⟩
  jpegX := rfl
  jpegY := rfl
  filters := ⟨rfl, rfl⟩
  flags := by
    show Nat.testBit 0 0 = false ∧ Nat.testBit 0 1 = false ∧ Nat.testBit 0 4 = false
    decide

theorem onePass_stated : PassesStated onePass := ⟨⟨[false, false], [], by decide +kernel⟩, by decide⟩

/-- The channels of a picture are tables of small numbers. -/
theorem imageChannels_shaped (n : Nat) (size : Dim) (v : Nat → Nat → Nat → Int) (hv : ∀ c y x, y < size.height → x < size.width → -2 ^ 26 ≤ v c y x ∧ v c y x ≤ 2 ^ 26) :
    ∀ c ∈ imageChannels n size v, c.Shaped ∧ Small c.buffer := by
  intro c hc
  obtain ⟨i, -, rfl⟩ := List.mem_map.mp hc
  refine ⟨tab_rect _ _ _, ?_⟩
  intro r hr a ha
  dsimp only at hr
  unfold tab at hr
  split at hr
  · cases hr
  · obtain ⟨y, hy, rfl⟩ := List.mem_map.mp hr
    obtain ⟨x, hx, rfl⟩ := List.mem_map.mp ha
    exact hv i y x (List.mem_range.mp hy) (List.mem_range.mp hx)

/-! ## A frame with one section -/

/-- Two by two pixels. -/
def diagonalPicture : Nat → Nat → Nat → Int := fun _ y x => if y = x then 3 else 0

/-- Default factors, the tree of `codedTree_at`, no transforms, the numbers 2, 0, 0, 2, zeros. -/
def diagonalData : List UInt8 := [75, 10, 9, 18, 8, 88, 10, 72, 82, 72, 144, 64, 192, 137, 0, 0]

theorem diagonal_at : ∃ es, GlobalAt 8 128 diagonalData 0 113 [1 / 4096, 1 / 512, 1 / 256] (some (codedTree, es)) ⟨true, defaultWP, []⟩ (imageChannels 1 ⟨2, 2⟩ diagonalPicture) 0
    (imageChannels 1 ⟨2, 2⟩ diagonalPicture) := by
  obtain ⟨ds, h1, h2⟩ := codesAt_of diagonalData 2 6 (treeCodes 6) treeCodes_valid6 (by decide +kernel) (by decide +kernel)
  have h3 := treeNumbers diagonalData 44 6 ds h2 0 codedTreeOut (by decide) (by decide) (by decide) (by decide +kernel) (by decide +kernel)
  obtain ⟨ds', h4, h5⟩ := codesAt_of diagonalData 61 2 (treeCodes 2) treeCodes_valid2 (by decide +kernel) (by decide +kernel)
  have h6 := treeNumbers diagonalData 107 2 ds' h5 2 [(1, 2), (1, 0), (1, 0), (1, 2)] (by decide) (by decide) (by decide) (by decide +kernel) (by decide +kernel)
  refine ⟨_, 1, 103, ⟨by decide +kernel, by decide +kernel⟩, ⟨⟨by decide +kernel, by decide +kernel⟩, ⟨_, 44, 61, codedTreeOut, h1, codedTree_serial, h3, h4⟩, by decide⟩,
    107, 107, codedTree, _, [(1, 2), (1, 0), (1, 0), (1, 2)], ⟨by decide +kernel, by decide +kernel⟩, ⟨rfl, rfl⟩, .nil _ _, ?_, by decide +kernel, h6⟩
  have := imageChannels_shaped 1 ⟨2, 2⟩ diagonalPicture (by intro c y x _ _; unfold diagonalPicture; split <;> decide)
  exact fun c hc => this c (List.mem_of_mem_take hc)

/-- The hypotheses of `C84_single_partial` are met by the example. -/
example (P : FrameParts) (I : FloatImpl) : ∃ out s', decodeFrame P I grayImage (modularFrame 2 2 onePass) ⟨1, 1, 1, 1⟩ ⟨none, [16]⟩ (BR.new diagonalData) = (.ok out, s') ∧
    ShowsPicture 1 ⟨2, 2⟩ diagonalPicture out ∧ AtBit s' 113 ∧ s'.data = diagonalData := by
  obtain ⟨es, h⟩ := diagonal_at
  refine C84_single_partial P I (modularFrame_plain 2 2 (by decide) (by decide) onePass) (v := diagonalPicture) ?_ (by decide) (by decide) (.inr onePass_stated) rfl h (by decide +kernel) (AtBit.new _) rfl
  intro c y x _ _ _
  unfold diagonalPicture
  split <;> decide

/-! ## A frame with two groups -/

/-- 129 pixels in one row. -/
def rampPicture : Nat → Nat → Nat → Int := fun _ _ x => if x < 128 then x + 1 else 2

/-- The global section is as in the example above, without numbers; those of the LF group and the third are empty; the groups have 128 and 1 numbers. -/
def rampData : List UInt8 := [75, 10, 9, 18, 8, 88, 10, 72, 82, 72, 144, 64, 192, 1, 3, 0, 0, 0, 0, 0, 0, 0, 0, 0, 0, 0, 0, 0, 0, 0, 0, 19, 0]

theorem ramp_shaped : ∀ c ∈ imageChannels 1 ⟨129, 1⟩ rampPicture, c.Shaped ∧ Small c.buffer := by
  refine imageChannels_shaped 1 ⟨129, 1⟩ rampPicture ?_
  intro c y x _ hx
  have hx' : x < 129 := hx
  unfold rampPicture
  split <;> omega

/-- A group of the picture. -/
theorem ramp_group (es : ES) (index id : Nat) (bytes : List UInt8) (w q : Nat) (out : List (Int × Nat)) (v : Nat → Nat → Nat → Int) (hw : 0 < w)
    (hv : ∀ c y x, y < 1 → x < w → -2 ^ 26 ≤ v c y x ∧ v c y x ≤ 2 ^ 26)
    (hh : DecAt decModHeader bytes 0 4 ⟨true, defaultWP, []⟩) (ha : tileArea 128 2 ⟨⟨129, 1, 0, 0, false, tab 1 129 (rampPicture 0)⟩, []⟩ id = ⟨0, 128 * id, 1, w⟩)
    (hc : ∀ x, x < w → v 0 0 x = rampPicture 0 0 (128 * id + x) ∧ 128 * id + x < 129)
    (ho : encodeAll defaultWP codedTree index w (imageChannels 1 ⟨w, 1⟩ v) [] = some out) (hn : NumbersAt bytes 4 q es w out) :
    GroupAt 8 128 2 (some (codedTree, es)) index bytes id (imageChannels 1 ⟨129, 1⟩ rampPicture) := by
  have hm : maxWidth (imageChannels 1 ⟨w, 1⟩ v) = w := Nat.max_zero w
  refine .inr ⟨imageChannels 1 ⟨w, 1⟩ v, imageChannels 1 ⟨w, 1⟩ v, ⟨true, defaultWP, []⟩, 0, q, .cons ⟨?_, ?_⟩ .nil, (by intro t ht; cases ht), 4, 4, codedTree, es, out, hh, ⟨rfl, rfl⟩, .nil _ _, ?_, ?_, ?_⟩
  · rw [ha]
    rfl
  · rw [ha]
    have t1 := tab_holds (H := 1) (W := w) (by decide) hw (v 0)
    have t2 := tab_holds (H := 1) (W := 129) (by decide) (by decide) (rampPicture 0)
    refine ⟨t1.1, ?_⟩
    intro y x hy hx
    have hy' : y = 0 := Nat.lt_one_iff.mp hy
    subst hy'
    obtain ⟨c1, c2⟩ := hc x hx
    have e1 := t1.2 0 x (by decide) hx
    have e2 := t2.2 0 (128 * id + x) (by decide) c2
    rw [c1] at e1
    exact e1.trans e2.symm
  · intro c hc
    exact imageChannels_shaped 1 ⟨w, 1⟩ v hv c (List.mem_of_mem_take hc)
  · rw [List.take_length, hm]
    exact ho
  · rw [hm]
    exact hn

theorem ramp_at : ∃ tree, SectionsAt grayImage (modularFrame 129 1 onePass) (storedSection (rampData.drop 0) [14, 0, 0, 17, 1]) [1 / 4096, 1 / 512, 1 / 256] tree ⟨true, defaultWP, []⟩
    (imageChannels 1 ⟨129, 1⟩ rampPicture) 0 (imageChannels 1 ⟨129, 1⟩ rampPicture) := by
  obtain ⟨d, hd⟩ : ∃ d, d = storedSection (rampData.drop 0) [14, 0, 0, 17, 1] 0 ++ [0, 0, 0, 0] := ⟨_, rfl⟩
  have hd' : d = [75, 10, 9, 18, 8, 88, 10, 72, 82, 72, 144, 64, 192, 1, 0, 0, 0, 0] := by rw [hd]; decide
  obtain ⟨ds, h1, h2⟩ := codesAt_of d 2 6 (treeCodes 6) treeCodes_valid6 (by rw [hd']; decide +kernel) (by rw [hd']; decide +kernel)
  have h3 := treeNumbers d 44 6 ds h2 0 codedTreeOut (by decide) (by decide) (by decide) (by rw [hd']; decide +kernel) (by rw [hd']; decide +kernel)
  obtain ⟨ds', h4, h5⟩ := codesAt_of d 61 2 (treeCodes 2) treeCodes_valid2 (by rw [hd']; decide +kernel) (by rw [hd']; decide +kernel)
  have h6 := treeNumbers d 107 2 ds' h5 129 [] (by decide) (by decide) (by decide) (by rw [hd']; decide +kernel) (by rw [hd']; decide +kernel)
  refine ⟨some (codedTree, ES.mk' ((treeCodes 2).map.map Int.ofNat) ds' none), ⟨107, ?_⟩, ?_, ?_⟩
  · rw [← hd]
    refine ⟨1, 103, ⟨by rw [hd']; decide +kernel, by rw [hd']; decide +kernel⟩, ⟨⟨by rw [hd']; decide +kernel, by rw [hd']; decide +kernel⟩,
      ⟨_, 44, 61, codedTreeOut, h1, codedTree_serial, h3, h4⟩, by decide⟩,
      107, 107, codedTree, _, [], ⟨by rw [hd']; decide +kernel, by rw [hd']; decide +kernel⟩, ⟨rfl, rfl⟩, .nil _ _, (fun c hc => ramp_shaped c (List.mem_of_mem_take hc)), by decide +kernel, h6⟩
  · have : imageChannels 1 ⟨129, 1⟩ rampPicture = [⟨⟨129, 1, 0, 0, false, tab 1 129 (rampPicture 0)⟩, []⟩] := rfl
    rw [this]
    intro c hc
    obtain rfl := List.mem_singleton.mp (List.mem_of_mem_drop hc)
    exact ⟨⟨by decide +kernel, by decide, by decide, by decide, by decide, by decide, by decide⟩, by decide⟩
  · intro pass id hpass hid
    have hp0 : pass = 0 := by
      have : pass < 1 := hpass
      omega
    subst hp0
    have hch : channelsOf onePass 0 ((imageChannels 1 ⟨129, 1⟩ rampPicture).drop (globalCount 128 0 (imageChannels 1 ⟨129, 1⟩ rampPicture))) =
        imageChannels 1 ⟨129, 1⟩ rampPicture := by decide +kernel
    have h2 : id < 2 := hid
    have key : id = 0 ∨ id = 1 := by omega
    rcases key with rfl | rfl
    · have e : storedSection (rampData.drop 0) [14, 0, 0, 17, 1] 3 ++ [0, 0, 0, 0] = [3, 0, 0, 0, 0, 0, 0, 0, 0, 0, 0, 0, 0, 0, 0, 0, 0, 0, 0, 0, 0] := by decide
      have h7 := treeNumbers [3, 0, 0, 0, 0, 0, 0, 0, 0, 0, 0, 0, 0, 0, 0, 0, 0, 0, 0, 0, 0] 4 2 ds' h5 128 (List.replicate 128 (0, 0)) (by decide +kernel) (by decide +kernel) (by decide +kernel) (by decide +kernel) (by decide +kernel)
      have := ramp_group _ 21 0 _ 128 _ _ rampPicture (by decide) (by intro c y x _ hx; unfold rampPicture; split <;> omega) ⟨by decide +kernel, by decide +kernel⟩ (by decide +kernel) (by intro x hx; exact ⟨by rw [Nat.mul_zero, Nat.zero_add], by omega⟩) (by decide +kernel) h7
      rw [← e, ← hch] at this
      exact this
    · have e : storedSection (rampData.drop 0) [14, 0, 0, 17, 1] 4 ++ [0, 0, 0, 0] = [19, 0, 0, 0, 0] := by decide
      have h7 := treeNumbers [19, 0, 0, 0, 0] 4 2 ds' h5 1 [(0, 2)] (by decide) (by decide +kernel) (by decide +kernel) (by decide +kernel) (by decide +kernel)
      have := ramp_group _ 22 1 _ 1 _ _ (fun _ _ _ => 2) (by decide) (by intro c y x _ hx; omega) ⟨by decide +kernel, by decide +kernel⟩ (by decide +kernel)
        (by intro x hx; obtain rfl : x = 0 := by omega
            exact ⟨rfl, by decide⟩) (by decide +kernel) h7
      rw [← e, ← hch] at this
      exact this

/-- The hypotheses of `C84_frame_partial` are met by the example. -/
theorem ramp_decodes (P : FrameParts) (I : FloatImpl) : ∃ out s', decodeFrame P I grayImage (modularFrame 129 1 onePass) ⟨2, 1, 2, 1⟩ ⟨none, [14, 0, 0, 17, 1]⟩ (BR.new rampData) = (.ok out, s') ∧
    ShowsPicture 1 ⟨129, 1⟩ rampPicture out ∧ AtBit s' (8 * 32) ∧ s'.data = rampData := by
  obtain ⟨tree, h⟩ := ramp_at
  refine C84_frame_partial P I (modularFrame_plain 129 1 (by decide) (by decide) onePass) (v := rampPicture) ?_ (by decide) (by decide) (by decide) onePass_stated (k := 0) rfl rfl (by decide) (by decide) h (AtBit.new _) rfl
  intro c y x _ _ hx
  have hx' : x < 129 := hx
  unfold rampPicture
  rw [abs_lt]
  split <;> omega

/-! ## Frames that the code does not decode -/

/-- A palette of a group loses the places of all its channels but the first, a squeeze those of all. -/
theorem C84_group_origins_lost (o : Origin) : originsAfter [(⟨1, 0, 0, 3, 4, 0, 0, []⟩, [])] [o, o, o] = .ok [o, (0, 0), (0, 0)] ∧
    originsAfter [(⟨2, 0, 0, 0, 0, 0, 0, []⟩, [⟨true, true, 0, 1⟩])] [o] = .ok [(0, 0)] := ⟨rfl, rfl⟩

/-- The group at (0, 0) is then overwritten by the others, whose own place stays empty: here two groups with one pixel each, of a channel of two pixels. -/
theorem C84_group_palette_misplaced (a b : Int) :
    pasteChannel 0 [some [(⟨⟨1, 1, 0, 0, false, [[a]]⟩, []⟩, (0, 0))], some [(⟨⟨1, 1, 0, 0, false, [[b]]⟩, []⟩, (0, 0))]] ⟨⟨2, 1, 0, 0, false, [[0, 0]]⟩, []⟩ =
      .ok ⟨⟨2, 1, 0, 0, false, [[b, 0]]⟩, []⟩ ∧
    pasteChannel 0 [some [(⟨⟨1, 1, 0, 0, false, [[a]]⟩, []⟩, (0, 0))], some [(⟨⟨1, 1, 0, 0, false, [[b]]⟩, []⟩, (0, 1))]] ⟨⟨2, 1, 0, 0, false, [[0, 0]]⟩, []⟩ =
      .ok ⟨⟨2, 1, 0, 0, false, [[a, b]]⟩, []⟩ := ⟨rfl, rfl⟩

/-- The number of groups side by side is computed from the size of the channel instead of the frame. A frame of 257 by 1 pixels has two groups of 256 by 256; the differences
of a horizontal squeeze, 128 by 1, have no part in the second. The code puts a part of 128 by 256 there, in row 256. -/
theorem C84_odd_width_misplaced (b p : List (List Int)) : channelTile 256 1 128 0 1 1 = .ok ⟨256, 0, 256, 128⟩ ∧
    tileArea 256 2 ⟨⟨128, 1, 1, 0, false, b⟩, p⟩ 1 = ⟨0, 128, 1, 0⟩ := by
  refine ⟨by decide +kernel, ?_⟩
  show (⟨((1 / 2 * (256 >>> 0) : Nat) : Int), ((1 % 2 * (256 >>> 1) : Nat) : Int), min (256 >>> 0) (1 - 1 / 2 * (256 >>> 0)), min (256 >>> 1) (128 - 1 % 2 * (256 >>> 1))⟩ : Area) = _
  decide +kernel

theorem idx_cases {α : Type} (l : List α) (i : Int) : (∃ a, idx l i = .ok a) ∨ idx l i = .panic := by
  unfold idx
  split
  · exact .inr rfl
  · split
    · exact .inl ⟨_, rfl⟩
    · exact .inr rfl

theorem setAt_cases {α : Type} (l : List α) (i : Int) (v : α) : (∃ a, setAt l i v = .ok a) ∨ setAt l i v = .panic := by
  unfold setAt
  split
  · exact .inr rfl
  · split
    · exact .inl ⟨_, rfl⟩
    · exact .inr rfl

theorem pasteRows_cases {α : Type} (x : Int) (rs : List (List α)) : ∀ (y : Int) (buf : List (List α)), (∃ a, pasteRows x rs y buf = .ok a) ∨ pasteRows x rs y buf = .panic := by
  induction rs with
  | nil => intro y buf; exact .inl ⟨_, rfl⟩
  | cons r rs ih =>
    intro y buf
    unfold pasteRows
    rcases idx_cases buf y with ⟨row, e⟩ | e
    swap
    · rw [e]; exact .inr rfl
    rw [e, Res.bind_ok]
    have : (∃ a, copyInto row x r = .ok a) ∨ copyInto row x r = .panic := by
      unfold copyInto
      split
      · exact .inr rfl
      · exact .inl ⟨_, rfl⟩
    rcases this with ⟨row', e⟩ | e
    swap
    · rw [e]; exact .inr rfl
    rw [e, Res.bind_ok]
    rcases setAt_cases buf y row' with ⟨b', e⟩ | e
    swap
    · rw [e]; exact .inr rfl
    rw [e, Res.bind_ok]
    exact ih _ _

/-- If the stream of a group cannot be read, the error is not returned: putting the groups of a pass together panics, whatever the other groups are. -/
theorem C84_failed_group_panics (sh : Nat × Nat) (groups : List (Option (List (MChan × Origin)))) (hg : none ∈ groups) (cs : List MChan) (hc : ∃ c ∈ cs, inPass sh c = true) (j : Nat) :
    pastePass sh groups cs j = .panic := by
  have one : ∀ (groups : List (Option (List (MChan × Origin)))), none ∈ groups → ∀ (j : Nat) (c : MChan), pasteChannel j groups c = .panic := by
    intro groups
    induction groups with
    | nil => intro h; cases h
    | cons g gs ih =>
      intro h j c
      cases g with
      | none => rfl
      | some g =>
        have h' : none ∈ gs := by
          rcases List.mem_cons.mp h with h | h
          · cases h
          · exact h
        unfold pasteChannel
        rcases idx_cases g (j : Int) with ⟨e, he⟩ | he
        swap
        · rw [he]; rfl
        rw [he, Res.bind_ok]
        rcases pasteRows_cases e.2.2 e.1.buffer e.2.1 c.buffer with ⟨b, hb⟩ | hb
        · rw [hb, Res.bind_ok, ih h']
        · rw [hb]; rfl
  induction cs with
  | nil => obtain ⟨c, hc, -⟩ := hc; cases hc
  | cons c cs ih =>
    unfold pastePass
    cases e : inPass sh c with
    | true =>
      rw [if_pos rfl, one groups hg]
      rfl
    | false =>
      rw [if_neg (by decide), ih]
      · rfl
      · obtain ⟨c', hc1, hc2⟩ := hc
        rcases List.mem_cons.mp hc1 with rfl | h
        · rw [e] at hc2; cases hc2
        · exact ⟨c', h, hc2⟩

/-- An empty group in the first of two groups. -/
example : pastePass (0, 3) [none, some []] [⟨⟨2, 1, 0, 0, false, []⟩, []⟩] 0 = .panic :=
  C84_failed_group_panics _ _ List.mem_cons_self _ ⟨_, List.mem_cons_self, rfl⟩ 0

theorem allRead_none {α : Type} : ∀ l : List (Option α), none ∈ l → allRead l = .err
  | none :: _, _ => rfl
  | some a :: l, h => by
    have h' : none ∈ l := by
      rcases List.mem_cons.mp h with h | h
      · cases h
      · exact h
    rw [allRead, allRead_none l h']
    rfl

/-- **C84**, in part: if an LF group cannot be read, the frame is an error, whatever the other groups are. -/
theorem C84_failed_lf_group_partial {h : ImageHeader} {f : FrameHeader} {l : Layout} {toc : TOC} {readers : List SectionReader} {padded : Dim} {g : ModGlobal} {s s' : BR}
    {lfs : List (Option (List (MChan × Origin)))} (hr : readLFGroups h f l toc readers padded g l.numLFGroups 0 s = (.ok lfs, s')) (hn : none ∈ lfs) :
    decodeModularGroups h f l toc readers padded g s = (.err, s') := by
  unfold decodeModularGroups
  rw [Rd.bind_ok hr, allRead_none lfs hn]
  rfl

/-- An LF group whose section is empty, of a frame with a channel that is coded in LF groups. -/
example : ∃ lfs s', readLFGroups grayImage (modularFrame 2 2 onePass) ⟨1, 1, 1, 1⟩ ⟨none, [1]⟩ [.shared] ⟨2, 2⟩ ⟨[], none, ⟨[], [], [⟨⟨1, 1, 3, 3, false, []⟩, []⟩]⟩⟩ 1 0 (BR.new []) = (.ok lfs, s') ∧
    none ∈ lfs := by
  have h : (readLFGroups grayImage (modularFrame 2 2 onePass) ⟨1, 1, 1, 1⟩ ⟨none, [1]⟩ [.shared] ⟨2, 2⟩ ⟨[], none, ⟨[], [], [⟨⟨1, 1, 3, 3, false, []⟩, []⟩]⟩⟩ 1 0 (BR.new [])).1 = .ok [none] := by
    decide +kernel
  exact ⟨_, _, Prod.ext h rfl, List.mem_cons_self⟩

/-- A stream that uses the tree of the frame where the frame has none: a panic instead of an error. -/
theorem C84_no_tree_panics (groupDim : Nat) (chs : List MChan) (hne : chs ≠ []) (s s' : BR) (hd : ModHeader) (p : Plan × List (TransformInfo × List SqueezeParam))
    (hr : readModHeader s = (.ok hd, s')) (hu : hd.useGlobalTree = true) (hp : planAll hd.transforms ⟨chs, 0⟩ = .ok p) : (readGlobalStream groupDim none chs s).1 = .panic := by
  cases chs with
  | nil => exact absurd rfl hne
  | cons c cs =>
    unfold readGlobalStream
    dsimp only
    rw [Rd.bind_ok hr, Rd.bind_ok (lift_ok hp s'), hu]
    rfl

/-- The header that consists of the bits 1, 1, 0, 0. -/
example : (readGlobalStream 128 none [⟨⟨2, 1, 0, 0, false, []⟩, []⟩] (BR.new [3])).1 = .panic := by
  obtain ⟨s', h⟩ : ∃ s', readModHeader (BR.new [3]) = (.ok ⟨true, defaultWP, []⟩, s') := by
    have h : (readModHeader (BR.new [3])).1 = .ok ⟨true, defaultWP, []⟩ := by decide +kernel
    exact ⟨_, Prod.ext h rfl⟩
  exact C84_no_tree_panics 128 _ (by simp) _ s' _ (⟨[⟨⟨2, 1, 0, 0, false, []⟩, []⟩], 0⟩, []) h rfl rfl

/-- Frames whose header does not state the passes (`C46_reference_only`), larger than a group, without transforms: no pass decodes their channels, and storing the samples panics. -/
theorem C84_reference_only_panics (P : FrameParts) (I : FloatImpl) {h : ImageHeader} {f : FrameHeader} (hp : Plain h f) (hps : f.passes = ⟨1, 0, [], [], []⟩)
    (hbig : f.groupDim < f.size.width ∨ f.groupDim < f.size.height) {v : Nat → Nat → Nat → Int}
    (hn : groupsAcross f.groupDim f.size.width * groupsAcross f.groupDim f.size.height < 2 ^ 31) {l : Layout} (hl : frameLayout f = .ok l)
    {toc : TOC} (hperm : toc.permutation = none)
    (htoc : toc.lengths.length = 2 + groupsAcross (f.groupDim * 8) f.size.width * groupsAcross (f.groupDim * 8) f.size.height +
      f.passes.numPasses * (groupsAcross f.groupDim f.size.width * groupsAcross f.groupDim f.size.height))
    {data : List UInt8} {k : Nat} (hk : k + toc.lengths.sum ≤ data.length)
    (hb : ∀ i, i < toc.lengths.length → k + (toc.lengths.take i).sum < data.length) {deq : List ℚ} {tree : GlobalTree} {hd : ModHeader} (hts : hd.transforms = [])
    (hS : ∃ q, GlobalAt h.bitDepth.bits f.groupDim (storedSection (data.drop k) toc.lengths 0 ++ [0, 0, 0, 0]) 0 q deq tree hd (imageChannels (channelCount h) f.size v) 0
      (imageChannels (channelCount h) f.size v)) {s : BR} (hs : AtBit s (8 * k)) (hdata : s.data = data) :
    (decodeFrame P I h f l toc s).1 = .panic := by
  have hi0 : s.index = 0 ∧ s.pos = k := by
    rcases hs with ⟨h1, h2, h3⟩ | ⟨h1, h2, h3, h4, h5⟩
    · omega
    · omega
  obtain ⟨readers, s1, r1, r2, r3, r4⟩ := C18_unpermuted_partial toc s hi0.1 (by rw [hi0.2, hdata]; exact hk) (by rw [hi0.2, hdata]; exact hb) (by rw [htoc]; omega) hperm
  have hsec : ∀ i, i < toc.lengths.length → getBitreader toc readers i = .ok (.own (storedSection (data.drop k) toc.lengths i ++ [0, 0, 0, 0])) := by
    intro i hi
    rw [r4 i hi, hdata, hi0.2, hperm]
    rfl
  obtain ⟨q, hG⟩ := hS
  obtain ⟨s2, steps, R, e1, a1, d1, f1, hgood, -, hsteps⟩ := modGlobal_ok (plain_flags hp) (imageChannels_ne f.size v) (imageChannels_blank hp v) hG (AtBit.new _) rfl
  obtain rfl := hsteps hts
  have hlay := layout_ok hp.framed hn
  rw [hl] at hlay
  obtain ⟨g1, g2⟩ := frame_grids hp.framed hn hl
  have hcount : globalCount f.groupDim 0 (imageChannels (channelCount h) f.size v) = 0 := by
    unfold globalCount
    rw [List.drop_zero, Nat.zero_add]
    cases e : imageChannels (channelCount h) f.size v with
    | nil => exact absurd e (imageChannels_ne f.size v)
    | cons c cs =>
      have hc : c ∈ imageChannels (channelCount h) f.size v := by rw [e]; exact List.mem_cons_self
      obtain ⟨i, -, rfl⟩ := List.mem_map.mp hc
      rw [List.findIdx_cons]
      have : Exceeds f.groupDim ⟨⟨f.size.width, f.size.height, 0, 0, false, tab f.size.height f.size.width (v i)⟩, []⟩ = true := by
        unfold Exceeds
        dsimp only
        rw [Bool.or_eq_true, decide_eq_true_eq, decide_eq_true_eq]
        exact hbig
      rw [this]
      rfl
  rw [hcount, List.drop_zero, imageChannels_blank hp v] at e1
  rw [hcount, List.take_zero, List.map_nil, List.map_eq_nil_iff] at f1
  subst f1
  have hblank : ∀ c ∈ globalBlanks h f, c.hshift = 0 ∧ c.vshift = 0 ∧ c.buffer = [] := by
    rw [← imageChannels_blank hp v]
    intro c hc
    obtain ⟨c', hc', rfl⟩ := List.mem_map.mp hc
    obtain ⟨i, -, rfl⟩ := List.mem_map.mp hc'
    exact ⟨rfl, rfl, rfl⟩
  have hlen : (globalBlanks h f).length = channelCount h := by
    rw [← imageChannels_blank hp v, List.length_map]
    unfold imageChannels
    rw [List.length_map, List.length_range]
  have hsh : passShifts f.passes f.passes.numPasses 0 3 = .ok [(3, 3)] := by rw [hps]; rfl
  have hgr := groups_skip (h := h) (f := f) (l := l) (toc := toc) (readers := readers) (g := ⟨deq.map F32.fin, tree, ⟨[], [], globalBlanks h f⟩⟩) (shs := [(3, 3)])
    (by
      intro c hc
      obtain ⟨c1, c2, -⟩ := hblank c hc
      unfold inLFGroups inPass
      rw [c1, c2]
      refine ⟨by decide, ?_⟩
      intro sh hs
      obtain rfl := List.mem_singleton.mp hs
      decide)
    (by
      intro i hi
      refine ⟨_, hsec i ?_⟩
      rw [htoc, hps]
      rw [Res.ok.inj hlay] at hi
      exact hi) hsh g1 f.size g2 s1
  have hap : ∀ cs, applyTransforms h.bitDepth.bits [] cs = .ok cs := fun _ => rfl
  have eg : onSection toc readers 0 (readModGlobal h f) s1 = (.ok ⟨deq.map F32.fin, tree, ⟨[], [], globalBlanks h f⟩⟩, s1) := by
    unfold onSection
    rw [Rd.bind_ok (lift_ok (hsec 0 (by rw [htoc]; omega)) s1)]
    dsimp only
    rw [e1]
    rfl
  have ec : decodeModularGroups h f l toc readers f.size ⟨deq.map F32.fin, tree, ⟨[], [], globalBlanks h f⟩⟩ s1 = (.ok (globalBlanks h f), s1) := by
    rw [hgr]
    exact lift_ok (hap _) s1
  have hst : storeModular I h f (deq.map F32.fin) ((globalBlanks h f).map fun c => c.buffer)
      (List.replicate (channelCount h) ⟨f.size.width, f.size.height, 0, [], List.replicate f.size.height (List.replicate f.size.width 0)⟩) = .panic := by
    obtain ⟨n, hn⟩ : ∃ n, channelCount h = n + 1 := ⟨(if h.colour.space = 1 then 0 else 2) + h.extra.length, by unfold channelCount; split <;> omega⟩
    obtain ⟨H, hH⟩ : ∃ H, f.size.height = H + 1 := ⟨f.size.height - 1, by have := hp.framed.height; omega⟩
    obtain ⟨W, hW⟩ : ∃ W, f.size.width = W + 1 := ⟨f.size.width - 1, by have := hp.framed.width; omega⟩
    have hm : (globalBlanks h f).map (fun c => c.buffer) = List.replicate (n + 1) [] := by
      refine List.eq_replicate_iff.mpr ⟨by rw [List.length_map, hlen, hn], ?_⟩
      intro b hb
      obtain ⟨c, hc, rfl⟩ := List.mem_map.mp hb
      exact (hblank c hc).2.2
    rw [hm, hn]
    unfold storeModular
    rw [List.length_replicate, forFrom]
    have : storeChannel I h f (deq.map F32.fin) (List.replicate (n + 1) []) 0
        (List.replicate (n + 1) ⟨f.size.width, f.size.height, 0, [], List.replicate f.size.height (List.replicate f.size.width 0)⟩) = .panic := by
      unfold storeChannel
      dsimp only
      rw [hp.xyb, Bool.false_and]
      unfold outputIndex outputScale
      rw [if_neg (by decide), List.length_replicate, List.length_replicate, Res.bind_ok, Res.bind_ok, if_neg (by decide), Res.bind_ok]
      have hz : (((0 : Nat) : Int) + (((n + 1 : Nat) : Int) - ((n + 1 : Nat) : Int))) = ((0 : Nat) : Int) := by omega
      rw [hz]
      show (storeInto I f.size _ _ _ 0 _ >>= _) = _
      have : storeInto I f.size (.fin 1) (false && (0 : Nat) == 2) (List.replicate (n + 1) ([] : List (List Int))) 0
          ⟨f.size.width, f.size.height, 0, [], List.replicate f.size.height (List.replicate f.size.width 0)⟩ = .panic := by
        unfold storeInto storeInts
        rw [hH, hW]
        rfl
      rw [this]
      rfl
    rw [this]
    rfl
  unfold decodeFrame
  rw [hp.modular, if_neg (by decide)]
  unfold decodeModularFrame
  rw [Rd.bind_ok r1, Rd.bind_ok eg, Rd.bind_ok (lift_ok (plain_padded hp) s1), Rd.bind_ok (lift_ok (plain_planes hp) s1), Rd.bind_ok ec, hst]
  rfl

/-- A reference-only frame of 129 by 1 pixels. -/
example (P : FrameParts) (I : FloatImpl) :
    (decodeFrame P I grayImage (modularFrame 129 1 ⟨1, 0, [], [], []⟩) ⟨2, 1, 2, 1⟩ ⟨none, [14, 0, 0, 17, 1]⟩ (BR.new rampData)).1 = .panic := by
  obtain ⟨tree, h⟩ := ramp_at
  refine C84_reference_only_panics P I (modularFrame_plain 129 1 (by decide) (by decide) _) (v := rampPicture) rfl (.inl (by decide)) (by decide) (by decide) (toc := ⟨none, [14, 0, 0, 17, 1]⟩)
    (data := rampData) (k := 0) rfl rfl (by decide) (by decide) (hd := ⟨true, defaultWP, []⟩) rfl h.global (AtBit.new _) rfl

end Jxl
