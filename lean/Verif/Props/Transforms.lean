import Verif.Proofs.Transforms
import Verif.Proofs.Ints

/-! # C22, C23, C24, C48: the modular transforms -/
namespace Jxl
open Spec

/-! ## C22: colour transforms -/

/-- **C22**, the first half: all 42 colour transforms are undone exactly, for all channels of 32-bit samples of any size,
wherever they are in the list; overflow wraps around and is undone too. Missing: the types 42 to 73 can be read and crash
(`C22_violated`). -/
theorem C22_lossless_partial (h w : Nat) (o0 o1 o2 : MChan) (h0 : o0.Of32 h w) (h1 : o1.Of32 h w) (h2 : o2.Of32 h w) (ty : Nat) (hty : ty < 42)
    (pre post : List MChan) :
    undoRCT pre.length ty (pre ++ [(encodeRCT ty o0 o1 o2).1, (encodeRCT ty o0 o1 o2).2.1, (encodeRCT ty o0 o1 o2).2.2] ++ post) = .ok (pre ++ [o0, o1, o2] ++ post) :=
  undoRCT_ok h0 h1 h2 hty pre post

/-- **C22** is violated in its second half: every type from 42 on crashes the decoder, for all channels of equal size, and
such a type can be read. -/
theorem C22_violated :
    (∀ (h w : Nat) (v0 v1 v2 : MChan), v0.Of32 h w → v1.Of32 h w → v2.Of32 h w → ∀ ty, 42 ≤ ty → ∀ pre post : List MChan,
      undoRCT pre.length ty (pre ++ [v0, v1, v2] ++ post) = .panic) ∧
    (readTransformInfo (BR.new [0x80, 0x41])).1 = .ok ⟨0, 0, 42, 0, 0, 0, 0, []⟩ := by
  refine ⟨?_, by decide +kernel⟩
  intro h w v0 v1 v2 h0 h1 h2 ty hty pre post
  rw [List.append_assoc]
  unfold undoRCT
  have i0 := idx_mid pre 0 ([v0, v1, v2] ++ post) v0 rfl
  have i1 := idx_mid pre 1 ([v0, v1, v2] ++ post) v1 rfl
  have i2 := idx_mid pre 2 ([v0, v1, v2] ++ post) v2 rfl
  rw [show (pre.length : Int) + (0 : Nat) = pre.length by omega] at i0
  rw [show (pre.length : Int) + (1 : Nat) = pre.length + 1 by omega] at i1
  rw [show (pre.length : Int) + (2 : Nat) = pre.length + 2 by omega] at i2
  obtain ⟨v, ev, -⟩ := fill_loop (f := fun y x v => rctAt (ty % 7) y x v) (fun _ _ v => Rect h w v.a ∧ Rect h w v.b ∧ Rect h w v.c) h w
    ⟨v0.buffer, v1.buffer, v2.buffer⟩ ⟨h0.2.2.1, h1.2.2.1, h2.2.2.1⟩
    (fun y x v hy hx hv => by
      obtain ⟨v', e, u⟩ := rctAt_eq hy hx (show ty % 7 < 7 by omega) hv.1 hv.2.1 hv.2.2
      exact ⟨v', e, u.ra, u.rb, u.rc⟩)
    (fun _ _ _ hv => hv)
  rw [i0, Res.bind_ok, i1, Res.bind_ok, i2, Res.bind_ok, h0.1, h0.2.1, ev, Res.bind_ok]
  have hp : idx permutationLUT ((ty / 7 : Nat) : Int) = .panic := by
    unfold idx
    rw [if_neg (by omega), List.getElem?_eq_none (by simp [permutationLUT]; omega)]
  rw [hp]
  rfl

/-- Three channels for the examples. -/
def exampleChan (b : List (List Int)) : MChan := ⟨⟨2, 1, 0, 0, false, b⟩, []⟩

example : (exampleChan [[5, -2147483648]]).Of32 1 2 ∧ (exampleChan [[7, 3]]).Of32 1 2 ∧ (exampleChan [[-9, 2147483647]]).Of32 1 2 := by
  unfold MChan.Of32 Rect Is32; decide

example : encodeRCT 13 (exampleChan [[5, -2147483648]]) (exampleChan [[7, 3]]) (exampleChan [[-9, 2147483647]]) =
    (exampleChan [[-2, 1610612736]], exampleChan [[2, -2147483645]], exampleChan [[-15, 1073741822]]) := by decide

/-! ## C23: squeeze -/

/-- **C23** for rows: squeezing the rows of a channel and undoing it restores it, for all sizes and samples of magnitude up to 2^27. -/
theorem C23_rows (c : MChan) (hc : c.Squeezable) : unsqueeze true (squeezeH c).1 (squeezeH c).2 = .ok c := unsqueeze_ok hc (Or.inl rfl)

/-- **C23** for columns; the channel must have columns, or an even number of rows (`C23_violated`). -/
theorem C23_columns_partial (c : MChan) (hc : c.Squeezable) (hw : 0 < c.width ∨ c.height % 2 = 0) : unsqueeze false (squeezeV c).1 (squeezeV c).2 = .ok c :=
  unsqueeze_ok hc (Or.inr hw)

/-- **C23** for all sequences of squeeze steps: undoing them, last first, restores the list of channels. -/
theorem C23_steps_partial (sps : List SqueezeParam) (chs : List MChan) (h : StepsOK sps chs) : undoSqueeze sps (squeezeAll sps chs) = .ok chs := undoSqueeze_ok sps chs h

/-- **C23** is violated by channels without columns: a one-pixel wide channel of odd height, squeezed by rows and its
(empty) residual squeezed by columns, crashes the decoder. -/
theorem C23_violated : undoSqueeze [⟨true, true, 0, 1⟩, ⟨false, true, 1, 1⟩]
    (squeezeAll [⟨true, true, 0, 1⟩, ⟨false, true, 1, 1⟩] [⟨⟨1, 3, 0, 0, false, [[4], [5], [6]]⟩, []⟩]) = .panic := by decide +kernel

/-- **C23**, what the tendency term does: a pair with residual 0 between a previous sample `a` and a next average `c` that
are monotonic is reconstructed monotonically between them; where they are not monotonic both samples are the average. -/
theorem C23_smooth (a b c : Int) (ha : -2 ^ 27 ≤ a ∧ a ≤ 2 ^ 27) (hb : -2 ^ 27 ≤ b ∧ b ≤ 2 ^ 27) (hc : -2 ^ 27 ≤ c ∧ c ≤ 2 ^ 27) :
    let diff := tendancy a b c
    let first := b + diff.tdiv 2
    let second := first - diff
    (c ≤ b ∧ b ≤ a → c ≤ second ∧ second ≤ first ∧ first ≤ a) ∧ (a ≤ b ∧ b ≤ c → a ≤ first ∧ first ≤ second ∧ second ≤ c) ∧
      (¬ (c ≤ b ∧ b ≤ a) → ¬ (a ≤ b ∧ b ≤ c) → first = b ∧ second = b) := by
  dsimp only
  rw [tendancy_eq (by omega) (by omega) (by omega)]
  unfold sqTend
  by_cases h1 : b ≤ a ∧ c ≤ b
  · rw [if_pos h1]
    have hx : 0 ≤ (4 * a - 3 * c - b + 6).tdiv 12 := Int.tdiv_nonneg (by omega) (by omega)
    have hx' : (4 * a - 3 * c - b + 6).tdiv 12 = (4 * a - 3 * c - b + 6) / 12 := Int.tdiv_eq_ediv_of_nonneg (by omega)
    have hcase : (b = a ∧ c = b) ∨ ¬ (a ≤ b ∧ b ≤ c) := by omega
    rw [hx'] at hx ⊢
    generalize hX : (4 * a - 3 * c - b + 6) / 12 = x at hx ⊢
    dsimp only
    generalize hy : (if 2 * (a - b) < x - x % 2 then 2 * (a - b) + 1 else x) = y
    have hy0 : 0 ≤ y := by rw [← hy]; split <;> omega
    have hy1 : y - y % 2 ≤ 2 * (a - b) := by rw [← hy]; split <;> omega
    generalize hz : (if 2 * (b - c) < y + y % 2 then 2 * (b - c) else y) = z
    have hz0 : 0 ≤ z := by rw [← hz]; split <;> omega
    have hz1 : z - z % 2 ≤ 2 * (a - b) := by rw [← hz]; split <;> omega
    have hz2 : z + z % 2 ≤ 2 * (b - c) := by rw [← hz]; split <;> omega
    rw [Int.tdiv_eq_ediv_of_nonneg hz0]
    refine ⟨fun _ => by omega, fun h2 => by omega, fun h2 => absurd (by omega) h2⟩
  · rw [if_neg h1]
    by_cases h2 : a ≤ b ∧ b ≤ c
    · rw [if_pos h2]
      have hx' : (4 * a - 3 * c - b - 6).tdiv 12 = - ((3 * c + b + 6 - 4 * a) / 12) := by
        rw [show 4 * a - 3 * c - b - 6 = -(3 * c + b + 6 - 4 * a) by omega, Int.neg_tdiv, Int.tdiv_eq_ediv_of_nonneg (by omega)]
      have hx : - ((3 * c + b + 6 - 4 * a) / 12) ≤ 0 := by omega
      rw [hx']
      generalize - ((3 * c + b + 6 - 4 * a) / 12) = x at hx ⊢
      dsimp only
      generalize hy : (if x + x % 2 < 2 * (a - b) then 2 * (a - b) - 1 else x) = y
      have hy0 : y ≤ 0 := by rw [← hy]; split <;> omega
      have hy1 : 2 * (a - b) ≤ y + y % 2 := by rw [← hy]; split <;> omega
      generalize hz : (if y - y % 2 < 2 * (b - c) then 2 * (b - c) else y) = z
      have hz0 : z ≤ 0 := by rw [← hz]; split <;> omega
      have hz1 : 2 * (a - b) ≤ z + z % 2 := by rw [← hz]; split <;> omega
      have hz2 : 2 * (b - c) ≤ z - z % 2 := by rw [← hz]; split <;> omega
      have hd : z.tdiv 2 = - ((-z) / 2) := by
        rw [show z = -(-z) by omega, Int.neg_tdiv, Int.tdiv_eq_ediv_of_nonneg (by omega), Int.neg_neg]
      rw [hd]
      refine ⟨fun h => by omega, fun _ => by omega, fun _ h => absurd h2 h⟩
    · rw [if_neg h2]
      rw [Int.zero_tdiv]
      exact ⟨fun h => by omega, fun h => by omega, fun _ _ => by omega⟩

/-- A 5 by 3 channel and three steps for the examples. -/
def exampleSqueeze : MChan := ⟨⟨5, 3, 0, 0, false, [[10, 20, 30, 40, -50], [0, 0, 7, 7, 7], [100, 90, 80, 134217728, -134217728]]⟩, []⟩
def exampleSteps : List SqueezeParam := [⟨true, true, 0, 1⟩, ⟨false, true, 0, 1⟩, ⟨false, false, 0, 2⟩]

instance (b : List (List Int)) : Decidable (Small27 b) := by unfold Small27; infer_instance
instance (c : MChan) : Decidable c.Shaped := by unfold MChan.Shaped Rect; infer_instance
instance (c : MChan) : Decidable c.Squeezable := by unfold MChan.Squeezable; infer_instance
instance (sp : SqueezeParam) (c : MChan) : Decidable (sp.fits c) := by unfold SqueezeParam.fits; infer_instance
instance decStepsOK : (sps : List SqueezeParam) → (chs : List MChan) → Decidable (StepsOK sps chs)
  | [], _ => .isTrue trivial
  | sp :: sps, chs => by
    have := decStepsOK sps (squeezeStep sp chs)
    unfold StepsOK
    infer_instance

example : exampleSqueeze.Squeezable ∧ StepsOK exampleSteps [exampleSqueeze] := by decide +kernel
example : (squeezeAll exampleSteps [exampleSqueeze]).map (fun c => (c.height, c.width)) = [(1, 3), (1, 3), (3, 2), (1, 3), (0, 3)] := by decide +kernel

/-! ## C24: palette -/

/-- **C24**, where it holds: if the palette has one component, or the index channel is the last one. Then the index channel is
replaced by the components of the image, in order, and all other channels are unchanged; differences (negative indices and the
first `nbDeltas`) are added to their prediction. Missing: palettes with several components and channels after them
(`C24_violated`), the weighted predictor (`C24_weighted_crash`), bit depths 1 and 2 (`C24_depth_wrong`). -/
theorem C24_expand_partial (t : TransformInfo) (bitDepth : Nat) (palch first : MChan) (outs : Nat → List (List Int)) (hP : PaletteOK t palch.buffer bitDepth)
    (hb : first.Shaped) (h32 : Is32 first.buffer)
    (ho : ∀ c, c < t.numC → Rect first.height first.width (outs c) ∧ (Img.ofRows (outs c)).Bounded ∧
      IsExpansion t (Img.ofRows palch.buffer) bitDepth first.height first.width c (Img.ofRows first.buffer) (Img.ofRows (outs c)))
    (pre post : List MChan) (hp : pre.length = t.beginC) (hn : 1 ≤ t.numC) (hpost : t.numC = 1 ∨ post = []) :
    undoPalette t bitDepth (palch :: pre ++ first :: post) = .ok (pre ++ (List.range t.numC).map (expanded first outs) ++ post) := by
  have hlen : ((palch :: pre ++ [first]).map (fun c => ((0, c) : ChanRef))).length = t.beginC + 2 := by simp [hp]
  rcases hpost with h1 | h1
  · rw [undoPalette_core (outs := outs) hP hb h32 ho pre post (post.map (fun c => ((0, c) : ChanRef))) hp hn (by simp) (by
      rw [h1]; simp [forFrom, tags])]
    congr 2
    unfold tailAt
    rw [List.map_map, List.map_map, List.map_congr_left (g := id)]
    · simp
    · intro c _
      simp only [Function.comp]
      rw [if_neg (by omega)]; rfl
  · subst h1
    rw [undoPalette_core (outs := outs) hP hb h32 ho pre [] [] hp hn (by simp) (by rw [adds_end first _ _ _ hlen, List.append_nil])]
    rfl

/-- **C24** is violated whenever a palette of several components has a channel after its index channel: that channel is lost,
and the last component is there twice. -/
theorem C24_violated (t : TransformInfo) (bitDepth : Nat) (palch first : MChan) (outs : Nat → List (List Int)) (hP : PaletteOK t palch.buffer bitDepth)
    (hb : first.Shaped) (h32 : Is32 first.buffer)
    (ho : ∀ c, c < t.numC → Rect first.height first.width (outs c) ∧ (Img.ofRows (outs c)).Bounded ∧
      IsExpansion t (Img.ofRows palch.buffer) bitDepth first.height first.width c (Img.ofRows first.buffer) (Img.ofRows (outs c)))
    (pre post : List MChan) (lost : MChan) (hp : pre.length = t.beginC) (hn : 2 ≤ t.numC) :
    undoPalette t bitDepth (palch :: pre ++ first :: lost :: post) =
      .ok (pre ++ (List.range t.numC).map (expanded first outs) ++ expanded first outs (t.numC - 1) :: post) := by
  have hlen : ((palch :: pre ++ [first]).map (fun c => ((0, c) : ChanRef))).length = t.beginC + 2 := by simp [hp]
  rw [undoPalette_core (outs := outs) hP hb h32 ho pre (lost :: post) ((t.beginC + t.numC, first.copy) :: post.map (fun c => ((0, c) : ChanRef))) hp (by omega)
    (by
      intro e he
      rw [List.mem_cons] at he
      rcases he with rfl | he
      · exact Or.inr ⟨rfl, hn⟩
      · rw [List.mem_map] at he
        obtain ⟨c, -, rfl⟩ := he
        exact Or.inl rfl)
    (by
      have := adds_mid first (t.numC - 2) (t.beginC + 2) _ (0, lost) (post.map (fun c => ((0, c) : ChanRef))) hlen
      rw [show t.numC - 2 + 1 = t.numC - 1 by omega, show t.beginC + 2 + (t.numC - 2) = t.beginC + t.numC by omega] at this
      rw [← this]
      simp)]
  congr 2
  unfold tailAt
  rw [List.map_cons, List.map_cons, if_pos ⟨rfl, rfl⟩, List.map_map, List.map_map]
  congr 1
  rw [List.map_congr_left (g := id)]
  · simp
  · intro c _
    simp only [Function.comp]
    rw [if_neg (by omega)]; rfl

/-- A palette of three colours (the first of them a difference) and two components. -/
def exampleTransform : TransformInfo := ⟨1, 0, 0, 2, 3, 1, 1, []⟩
def examplePalette : MChan := ⟨⟨3, 2, -1, -1, false, [[5, 100, 200], [-5, 150, 250]]⟩, []⟩
def exampleIndex : MChan := ⟨⟨4, 1, 0, 0, false, [[1, 0, 2, 0]]⟩, []⟩
def exampleOuts (c : Nat) : List (List Int) := if c = 0 then [[100, 105, 200, 205]] else [[150, 145, 250, 245]]

example : undoPalette exampleTransform 8 [examplePalette, exampleIndex] = .ok ((List.range 2).map (expanded exampleIndex exampleOuts)) := by decide +kernel
/-- The channel after the index channel is lost. -/
example : undoPalette exampleTransform 8 [examplePalette, exampleIndex, exampleSqueeze] =
    .ok [expanded exampleIndex exampleOuts 0, expanded exampleIndex exampleOuts 1, expanded exampleIndex exampleOuts 1] := by decide +kernel

example : PaletteOK exampleTransform examplePalette.buffer 8 := ⟨by unfold Rect; decide, by decide, by decide⟩

example : ∀ c, c < exampleTransform.numC → Rect exampleIndex.height exampleIndex.width (exampleOuts c) ∧ (Img.ofRows (exampleOuts c)).Bounded ∧
    IsExpansion exampleTransform (Img.ofRows examplePalette.buffer) 8 exampleIndex.height exampleIndex.width c (Img.ofRows exampleIndex.buffer) (Img.ofRows (exampleOuts c)) := by
  have small : ∀ b : List (List Int), (∀ r ∈ b, ∀ v ∈ r, -1000 ≤ v ∧ v ≤ 1000) → (Img.ofRows b).Bounded := by
    intro b hb y x
    have : -1000 ≤ Img.ofRows b y x ∧ Img.ofRows b y x ≤ 1000 := by
      unfold Img.ofRows
      simp only [List.getD_eq_getElem?_getD]
      cases hr : b[y]? with
      | none => simp
      | some r =>
        simp only [Option.getD_some]
        cases hv : r[x]? with
        | none => simp
        | some v => exact hb r (List.mem_of_getElem? hr) v (List.mem_of_getElem? hv)
    omega
  intro c hc
  have hc' : c = 0 ∨ c = 1 := by unfold exampleTransform at hc; dsimp only at hc; omega
  rcases hc' with rfl | rfl
  · refine ⟨by unfold Rect; decide, small _ (by decide), ?_⟩
    intro y x hy hx
    have hy' : y = 0 := by unfold exampleIndex at hy; dsimp only at hy; omega
    have hx' : x = 0 ∨ x = 1 ∨ x = 2 ∨ x = 3 := by unfold exampleIndex at hx; dsimp only at hx; omega
    subst hy'
    rcases hx' with rfl | rfl | rfl | rfl <;> decide
  · refine ⟨by unfold Rect; decide, small _ (by decide), ?_⟩
    intro y x hy hx
    have hy' : y = 0 := by unfold exampleIndex at hy; dsimp only at hy; omega
    have hx' : x = 0 ∨ x = 1 ∨ x = 2 ∨ x = 3 := by unfold exampleIndex at hx; dsimp only at hx; omega
    subst hy'
    rcases hx' with rfl | rfl | rfl | rfl <;> decide

/-- **C24**: no index leaves a table: for every 32-bit index and every component there is a colour, the one of the format. -/
theorem C24_colours (pal : List (List Int)) (numC nbColours bitDepth c : Nat) (hR : Rect numC nbColours pal) (hc : c < numC) (h3 : 3 ≤ bitDepth)
    (h29 : bitDepth ≤ 29) (index : Int) (hi : -2 ^ 31 ≤ index) :
    paletteValue pal nbColours bitDepth c index = .ok (paletteColour (Img.ofRows pal) nbColours bitDepth c index) :=
  paletteValue_eq hR hc h3 h29 (by omega)

example : Rect 2 3 examplePalette.buffer ∧ paletteColour (Img.ofRows examplePalette.buffer) 3 8 1 (-7) = 0 ∧
    paletteColour (Img.ofRows examplePalette.buffer) 3 8 1 (3 + 13) = 223 := by unfold Rect; decide

/-- **C24** at bit depths 1 and 2: the first implicit colour is 1 in the format, the code computes 0. -/
theorem C24_depth_wrong (pal : List (List Int)) (nbColours bitDepth c : Nat) (h : bitDepth = 1 ∨ bitDepth = 2) :
    paletteValue pal nbColours bitDepth c nbColours = .ok 0 ∧ paletteColour (Img.ofRows pal) nbColours bitDepth c nbColours = 1 := by
  unfold paletteValue paletteColour
  have e : sar ((nbColours : Int) - nbColours) (2 * c) = 0 := by unfold sar; rw [Int.sub_self, Int.zero_ediv]
  have e2 : ((nbColours : Int) - nbColours) / 4 ^ c = 0 := by rw [Int.sub_self, Int.zero_ediv]
  rw [if_neg (by omega), if_pos (by omega), if_pos (by omega), if_neg (by omega), if_neg (by omega), if_pos (by omega), e, e2]
  rcases h with rfl | rfl <;> decide

/-- **C24** with the weighted predictor: the second component has no predictions, and a difference in it crashes the decoder. -/
theorem C24_weighted_crash : undoPalette { exampleTransform with dPred := 6 } 8 [examplePalette, { exampleIndex with pred := [[0, 0, 0, 0]] }] = .panic := by decide +kernel

/-! ## C48: headers -/

theorem implements_params {sq : Dec SqueezeParam} (h : Implements readSqueezeParam sq) : ∀ n, Implements (readSqueezeParams n) (decMany sq n)
  | 0 => Implements.pure _
  | n + 1 => by
    rw [readSqueezeParams, decMany]
    exact Implements.bind h (fun p => Implements.bind (implements_params h n) (fun ps => Implements.pure _))

/-- **C48**, everything but the explicit squeeze steps: the headers of colour transforms, palettes and squeezes (default, or
with `n` steps) are read as documented, at every position of every stream. Missing: the steps themselves (`C48_violated`). -/
theorem C48_headers_partial (sq : Dec SqueezeParam) (h : Implements readSqueezeParam sq) : Implements readTransformInfo (decTransform sq) := by
  unfold readTransformInfo decTransform
  refine Implements.bind' (fun v => v < 2 ^ 2) (implements_bits 2 (by decide)) (fun _ _ _ h => decBits_lt h) ?_
  intro tr htr
  have hB : Implements (readU32 0 3 8 6 72 10 1096 13) (decU32 distBeginC) := implements_u32 distBeginC (by decide)
  by_cases h2 : tr = 2
  · rw [if_pos h2, if_pos h2]
    exact Implements.bind (implements_u32 distNumSqueezes (by decide)) (fun n => Implements.bind (implements_params h n) (fun sp => Implements.pure _))
  · rw [if_neg h2, if_neg h2]
    have h013 : tr = 0 ∨ tr = 1 ∨ tr = 3 := by omega
    rcases h013 with rfl | rfl | rfl
    · exact Implements.bind hB (fun b => Implements.bind (implements_u32 distRctType (by decide)) (fun r => Implements.pure _))
    · exact Implements.bind hB (fun b => Implements.bind (implements_u32 distPaletteNumC (by decide)) (fun n => Implements.bind (implements_u32 distNbColours (by decide))
        (fun c => Implements.bind (implements_u32 distNbDeltas (by decide)) (fun d => Implements.bind (implements_bits 4 (by decide)) (fun e => Implements.pure _)))))
    · exact Implements.bind hB (fun b => Implements.pure _)

/-- What the code reads as a squeeze step: the arguments are in the wrong order. -/
def codeBeginC : Fin 4 → Nat × Nat := ![(3, 6), (10, 13), (0, 8), (72, 1096)]
def codeNumC : Fin 4 → Nat × Nat := ![(0, 0), (0, 4), (1, 2), (3, 4)]
def decCodeBeginC : Dec Nat := do
  let sel ← decBits 2
  if sel = 3 then Dec.fail
  else do
    let k : Fin 4 := ⟨sel % 4, Nat.mod_lt _ (by decide)⟩
    let v ← decBits (codeBeginC k).2
    return ((codeBeginC k).1 + v) % 2 ^ 32
def decCodeParam : Dec SqueezeParam := do
  let horizontal ← decBool
  let inPlace ← decBool
  let beginC ← decCodeBeginC
  let numC ← decU32 codeNumC
  return ⟨horizontal, inPlace, beginC, numC⟩

theorem implements_codeParam : Implements readSqueezeParam decCodeParam := by
  unfold readSqueezeParam decCodeParam
  refine Implements.bind implements_bool (fun h => Implements.bind implements_bool (fun p => Implements.bind ?_ (fun b =>
    Implements.bind (implements_u32 codeNumC (by decide)) (fun n => Implements.pure _))))
  unfold readU32 decCodeBeginC
  refine Implements.bind' (fun v => v < 2 ^ 2) (implements_bits 2 (by decide)) (fun _ _ _ h => decBits_lt h) ?_
  intro sel hsel
  have key : ∀ c u : Nat, u ≤ 64 → c < 2 ^ 32 → Implements (do
      let b ← readBits (u32 u)
      return u32 (u32 c + u32 b)) (do
      let v ← decBits u
      return (c + v) % 2 ^ 32) := by
    intro c u hu hc
    have : u32 u = u := by simp only [u32]; omega
    rw [this]
    refine Implements.bind (implements_bits _ hu) ?_
    intro v
    have e : u32 (u32 c + u32 v) = (c + v) % 2 ^ 32 := by simp only [u32]; omega
    rw [e]
    exact Implements.pure _
  have h4 : sel = 0 ∨ sel = 1 ∨ sel = 2 ∨ sel = 3 := by omega
  rcases h4 with rfl | rfl | rfl | rfl
  · exact key 3 6 (by decide) (by decide)
  · exact key 10 13 (by decide) (by decide)
  · exact key 0 8 (by decide) (by decide)
  · intro s p _
    rfl

theorem decBits_some {n : Nat} {l r : List Bool} {v : Nat} (h : decBits n l = some (v, r)) : n ≤ l.length ∧ v = leVal (l.take n) ∧ r = l.drop n := by
  unfold decBits at h
  split at h
  · rename_i hle
    simp only [Option.some.injEq, Prod.mk.injEq] at h
    exact ⟨hle, h.1.symm, h.2.symm⟩
  · cases h

theorem Dec.bind_some {α β : Type} {m : Dec α} {f : α → Dec β} {l r : List Bool} {b : β} (h : (m >>= f) l = some (b, r)) :
    ∃ a l', m l = some (a, l') ∧ f a l' = some (b, r) := by
  change (match m l with | some (a, r) => f a r | none => none) = some (b, r) at h
  cases hm : m l with
  | none => rw [hm] at h; cases h
  | some x => obtain ⟨a, l'⟩ := x; rw [hm] at h; exact ⟨a, l', rfl, h⟩

theorem decU32_some {d : Fin 4 → Nat × Nat} {l r : List Bool} {v : Nat} (h : decU32 d l = some (v, r)) :
    ∃ k : Fin 4, k.val = leVal (l.take 2) % 4 ∧ 2 + (d k).2 ≤ l.length ∧ v = ((d k).1 + leVal ((l.drop 2).take (d k).2)) % 2 ^ 32 ∧ r.length + 2 + (d k).2 = l.length := by
  obtain ⟨sel, l1, h1, h2⟩ := Dec.bind_some h
  obtain ⟨u, l2, h3, h4⟩ := Dec.bind_some h2
  obtain ⟨a1, a2, a3⟩ := decBits_some h1
  obtain ⟨b1, b2, b3⟩ := decBits_some h3
  have h4' : some (((d ⟨sel % 4, Nat.mod_lt _ (by decide)⟩).1 + u) % 2 ^ 32, l2) = some (v, r) := h4
  simp only [Option.some.injEq, Prod.mk.injEq] at h4'
  refine ⟨⟨sel % 4, Nat.mod_lt _ (by decide)⟩, by rw [← a2], ?_, ?_, ?_⟩
  · rw [a3, List.length_drop] at b1; omega
  · rw [← h4'.1, b2, a3]
  · rw [← h4'.2, b3, a3, List.length_drop, List.length_drop]
    rw [a3, List.length_drop] at b1
    omega

theorem leVal_take_le : ∀ (l : List Bool) (m n : Nat), m ≤ n → leVal (l.take m) ≤ leVal (l.take n)
  | [], m, n, _ => by simp
  | b :: l, 0, n, _ => by simp [leVal]
  | b :: l, m + 1, 0, h => by omega
  | b :: l, m + 1, n + 1, h => by
    rw [List.take_succ_cons, List.take_succ_cons]
    unfold leVal
    have := leVal_take_le l m n (by omega)
    omega

/-- **C48** is violated for every explicit squeeze step: whenever the documented decoder reads a step, the code does not read
that step and end up at the same place. -/
theorem C48_violated (s : BR) (p : Nat) (hs : AtBit s p) (a : SqueezeParam) (r : List Bool) (h : decSqueezeParam (bitsFrom s.data p) = some (a, r)) :
    ¬ ∃ s' p', readSqueezeParam s = (.ok a, s') ∧ AtBit s' p' ∧ bitsFrom s.data p' = r := by
  have himp := implements_codeParam s p hs
  have key : decCodeParam (bitsFrom s.data p) ≠ some (a, r) := by
    intro hc
    obtain ⟨h1, l1, d1, d2⟩ := Dec.bind_some h
    obtain ⟨h2, l2, d3, d4⟩ := Dec.bind_some d2
    obtain ⟨b, l3, d5, d6⟩ := Dec.bind_some d4
    obtain ⟨n, l4, d7, d8⟩ := Dec.bind_some d6
    obtain ⟨h1', l1', c1, c2⟩ := Dec.bind_some hc
    obtain ⟨h2', l2', c3, c4⟩ := Dec.bind_some c2
    obtain ⟨b', l3', c5, c6⟩ := Dec.bind_some c4
    obtain ⟨n', l4', c7, c8⟩ := Dec.bind_some c6
    rw [d1] at c1
    simp only [Option.some.injEq, Prod.mk.injEq] at c1
    obtain ⟨rfl, rfl⟩ := c1
    rw [d3] at c3
    simp only [Option.some.injEq, Prod.mk.injEq] at c3
    obtain ⟨rfl, rfl⟩ := c3
    have e1 : some ((⟨h1, h2, b, n⟩ : SqueezeParam), l4) = some (a, r) := d8
    have e2 : some ((⟨h1, h2, b', n'⟩ : SqueezeParam), l4') = some (a, r) := c8
    rw [← e1] at e2
    simp only [Option.some.injEq, Prod.mk.injEq, SqueezeParam.mk.injEq, true_and] at e2
    obtain ⟨⟨hbb, hnn⟩, hll⟩ := e2
    obtain ⟨k, k1, k2, k3, k4⟩ := decU32_some d5
    obtain ⟨m, m1, m2, m3, m4⟩ := decU32_some d7
    obtain ⟨m', q1, q2, q3, q4⟩ := decU32_some c7
    obtain ⟨sel, l5, g1, g2⟩ := Dec.bind_some c5
    obtain ⟨g3, g4, g5⟩ := decBits_some g1
    have hs4 : sel < 4 := decBits_lt g1
    by_cases h3 : sel = 3
    · rw [if_pos h3] at g2; cases g2
    · rw [if_neg h3] at g2
      obtain ⟨u, l6, g6, g7⟩ := Dec.bind_some g2
      obtain ⟨g8, g9, g10⟩ := decBits_some g6
      have g7' : some (((codeBeginC ⟨sel % 4, Nat.mod_lt _ (by decide)⟩).1 + u) % 2 ^ 32, l6) = some (b', l3') := g7
      simp only [Option.some.injEq, Prod.mk.injEq] at g7'
      have hk : k = ⟨sel % 4, Nat.mod_lt _ (by decide)⟩ := by
        apply Fin.ext; rw [k1, ← g4]
      have hlen : l3'.length + 2 + (codeBeginC k).2 = l2.length := by
        rw [← g7'.2, g10, g5, List.length_drop, List.length_drop, hk]
        rw [g5, List.length_drop] at g8
        omega
      have hr : l4'.length = l4.length := by rw [hll]
      have w1 : (distSqueezeNumC m).2 = 0 ∨ (distSqueezeNumC m).2 = 4 := (by decide : ∀ m, (distSqueezeNumC m).2 = 0 ∨ (distSqueezeNumC m).2 = 4) m
      have w2 : (codeNumC m').2 = 0 ∨ (codeNumC m').2 = 2 ∨ (codeNumC m').2 = 4 := (by decide : ∀ m, (codeNumC m).2 = 0 ∨ (codeNumC m).2 = 2 ∨ (codeNumC m).2 = 4) m'
      have hsel : sel = 0 ∨ sel = 1 ∨ sel = 2 := by omega
      rcases hsel with rfl | rfl | rfl
      · subst hk
        have x1 : (distBeginC ⟨0 % 4, Nat.mod_lt _ (by decide)⟩).2 = 3 := rfl
        have x2 : (codeBeginC ⟨0 % 4, Nat.mod_lt _ (by decide)⟩).2 = 6 := rfl
        rw [x1] at k4; rw [x2] at hlen
        omega
      · subst hk
        have x1 : (distBeginC ⟨1 % 4, Nat.mod_lt _ (by decide)⟩).2 = 6 := rfl
        have x2 : (codeBeginC ⟨1 % 4, Nat.mod_lt _ (by decide)⟩).2 = 13 := rfl
        rw [x1] at k4; rw [x2] at hlen
        omega
      · subst hk
        have x1 : (distBeginC ⟨2 % 4, Nat.mod_lt _ (by decide)⟩) = (72, 10) := rfl
        have x2 : (codeBeginC ⟨2 % 4, Nat.mod_lt _ (by decide)⟩) = (0, 8) := rfl
        rw [x1] at k3
        rw [x2] at g7' g9
        have hle := leVal_take_le (l2.drop 2) 8 10 (by omega)
        have hlt : leVal ((l2.drop 2).take 10) < 2 ^ 10 := by
          have := leVal_lt ((l2.drop 2).take 10)
          have h10 : ((l2.drop 2).take 10).length ≤ 10 := by rw [List.length_take]; omega
          exact Nat.lt_of_lt_of_le this (Nat.pow_le_pow_right (by omega) h10)
        rw [g5] at g9
        have := g7'.1
        dsimp only at k3 g9 this
        omega
  rintro ⟨s', p', e1, e2, e3⟩
  cases hd : decCodeParam (bitsFrom s.data p) with
  | none => rw [hd] at himp; simp only at himp; rw [e1] at himp; cases himp
  | some x =>
    obtain ⟨a', r'⟩ := x
    rw [hd] at himp
    simp only at himp
    obtain ⟨s2, p2, f1, f2, f3, f4, f5⟩ := himp
    rw [e1] at f1
    simp only [Prod.mk.injEq, Res.ok.injEq] at f1
    obtain ⟨rfl, rfl⟩ := f1
    have hpp : p' = p2 := by
      rcases e2 with ⟨x1, x2, x3⟩ | ⟨x1, x2, x3, x4, x5⟩ <;> rcases f2 with ⟨y1, y2, y3⟩ | ⟨y1, y2, y3, y4, y5⟩ <;> omega
    subst hpp
    rw [← f4] at e3
    exact key (by rw [hd, ← e3])

/-- A horizontal in-place step of three channels from channel 5: the code reads something else. -/
example : ∃ r, decSqueezeParam (bitsFrom [0b01010011, 0b00000001, 0, 0, 0] 0) = some (⟨true, true, 5, 3⟩, r) := ⟨List.replicate 31 false, by decide⟩

/-- **C48**, the two flags of a step are right. -/
theorem C48_flags_partial (s : BR) (p : Nat) (hs : AtBit s p) (h q : Bool) (rest : List Bool) (hr : bitsFrom s.data p = h :: q :: rest) (a : SqueezeParam) (s' : BR)
    (hok : readSqueezeParam s = (.ok a, s')) : a.horizontal = h ∧ a.inPlace = q := by
  have himp := implements_codeParam s p hs
  rw [hr] at himp
  cases hd : decCodeParam (h :: q :: rest) with
  | none => rw [hd] at himp; simp only at himp; rw [hok] at himp; cases himp
  | some x =>
    obtain ⟨a', r'⟩ := x
    rw [hd] at himp
    simp only at himp
    obtain ⟨s2, p2, f1, -⟩ := himp
    rw [hok] at f1
    simp only [Prod.mk.injEq, Res.ok.injEq] at f1
    obtain ⟨rfl, -⟩ := f1
    obtain ⟨h1, l1, d1, d2⟩ := Dec.bind_some hd
    obtain ⟨h2, l2, d3, d4⟩ := Dec.bind_some d2
    obtain ⟨b, l3, d5, d6⟩ := Dec.bind_some d4
    obtain ⟨n, l4, d7, d8⟩ := Dec.bind_some d6
    have e1 : some (h, q :: rest) = some (h1, l1) := d1
    simp only [Option.some.injEq, Prod.mk.injEq] at e1
    obtain ⟨rfl, rfl⟩ := e1
    have e2 : some (q, rest) = some (h2, l2) := d3
    simp only [Option.some.injEq, Prod.mk.injEq] at e2
    obtain ⟨rfl, rfl⟩ := e2
    have e3 : some ((⟨h, q, b, n⟩ : SqueezeParam), l4) = some (a, r') := d8
    simp only [Option.some.injEq, Prod.mk.injEq] at e3
    rw [← e3.1]
    exact ⟨rfl, rfl⟩

end Jxl
