import Verif.Proofs.ModularStream

/-!
# C54, C55: modular streams with transforms
-/
namespace Jxl

/-- **C54**, planning: whatever transforms an encoder applies to an image, the decoder, which only knows the dimensions of the
image and the transforms, plans exactly the channels that the encoder produced: their number, order, dimensions and subsampling. -/
theorem C54_plan (bitDepth : Nat) (ts : List TransformInfo) (chs enc : List MChan) (m : Nat) (h : AppliesAll bitDepth ts 0 chs m enc) :
    ∃ l, planAll ts ⟨chs.map MChan.blank, 0⟩ = .ok (⟨enc.map MChan.blank, m⟩, l) := by
  obtain ⟨l, h1, -⟩ := appliesAll_ok h
  exact ⟨l, h1⟩

/-- **C54**, the whole stream: an image is transformed (any list of colour transforms, squeezes and palettes), its channels are
coded with any tree; if the entropy decoder delivers the numbers that the encoder emits in the contexts it emits them for, then
the decoder returns the image: all channels with their dimensions and samples. -/
theorem C54_lossless (bitDepth : Nat) (ts : List TransformInfo) (chs enc : List MChan) (m : Nat) (h : AppliesAll bitDepth ts 0 chs m enc)
    (hS : ∀ c ∈ enc, c.Shaped ∧ Small c.buffer) (wp : WPParams) (tree : MATree) (hu : tree.Usable) (streamIndex : Int)
    (out : List (Int × Nat)) (henc : encodeAll wp tree streamIndex (maxWidth enc) enc [] = some out)
    (es es' : ES) (s s' : BR) (vals : List Int) (hseq : ES.readSeq (maxWidth enc) (out.map Prod.fst) es s = (.ok (vals, es'), s'))
    (hvals : vals.map toU32 = out.map Prod.snd) (hfin : es'.validateFinalState = true) :
    ∃ res, decodeModular bitDepth ts (chs.map MChan.blank) wp tree streamIndex es s = (.ok (res, es'), s') ∧ res.map MChan.toChan = chs.map MChan.toChan := by
  obtain ⟨l, h1, h2, h3⟩ := appliesAll_ok h
  simp only [Nat.cast_zero] at h1
  have hmw : ∀ cs : List MChan, maxWidth (cs.map MChan.blank) = maxWidth cs := by
    intro cs
    induction cs with
    | nil => rfl
    | cons c cs ih => rw [List.map_cons, maxWidth, maxWidth, ih]; rfl
  obtain ⟨R, r1, r2⟩ := decodeAll_ok hu enc [] [] out es es' s s' vals rfl (by simpa using hS) henc hseq hvals
  rw [List.nil_append] at r2
  have hu2 := h3 R
  rw [r2, h3 enc, h2] at hu2
  cases hR : applyTransforms bitDepth l R with
  | err => rw [hR] at hu2; cases hu2
  | panic => rw [hR] at hu2; cases hu2
  | ok res =>
    rw [hR] at hu2
    simp only [Res.mapTo, Res.ok.injEq] at hu2
    refine ⟨res, ?_, ?_⟩
    · unfold decodeModular
      rw [Rd.bind_ok (lift_ok h1 s)]
      dsimp only
      rw [hmw, Rd.bind_ok r1]
      dsimp only
      rw [if_pos hfin, Rd.bind_ok (lift_ok hR s')]
      rfl
    · have := congrArg (List.map MChan.toChan) hu2
      rw [List.map_map, List.map_map] at this
      exact this.symm

/-- **C54** down to the bits: the numbers are written by an entropy encoder (ANS or prefix codes, with or without LZ77)
anywhere in any stream; the decoder returns the image and stops after the last coded bit. -/
theorem C54_stream (bitDepth : Nat) (ts : List TransformInfo) (chs enc : List MChan) (m : Nat) (h : AppliesAll bitDepth ts 0 chs m enc)
    (hS : ∀ c ∈ enc, c.Shaped ∧ Small c.buffer) (wp : WPParams) (tree : MATree) (hu : tree.Usable) (streamIndex : Int)
    (out : List (Int × Nat)) (henc : encodeAll wp tree streamIndex (maxWidth enc) enc [] = some out) (hb : ∀ o ∈ out, o.2 < 2 ^ 32)
    (co : Coder) (cd : Codes) (cmds : List LZCmd) (hcmds : expandLZ cmds [] = out.map (fun o => i32 o.2)) (es : ES)
    (h0 : es.state = none) (h1 : es.numToCopy = 0) (h2 : es.numDecoded = 0) (hes : es.Uses cd (out.map Prod.fst))
    (hv : LZValid cd (maxWidth enc) cmds (out.map Prod.fst) 0) (hlen : out.length < 2 ^ 31) (hok : ∀ i ∈ lzItems cd cmds (out.map Prod.fst), i.OK co)
    (s : BR) (p : Nat) (hs : AtBit s p) (hpre : streamBitsOf co (lzItems cd cmds (out.map Prod.fst)) <+: bitsFrom s.data p)
    (hpad : p + (streamBitsOf co (lzItems cd cmds (out.map Prod.fst))).length + co.pad ≤ 8 * s.data.length) :
    ∃ res es' s', decodeModular bitDepth ts (chs.map MChan.blank) wp tree streamIndex es s = (.ok (res, es'), s') ∧
      res.map MChan.toChan = chs.map MChan.toChan ∧ AtBit s' (p + (streamBitsOf co (lzItems cd cmds (out.map Prod.fst))).length) := by
  obtain ⟨es', s', e1, e2, e3, e4⟩ := C15_lz77_partial co cd (maxWidth enc) cmds (out.map Prod.fst) es h0 h1 h2 hes hv (by rw [List.length_map]; exact hlen) hok s p hs hpre hpad
  rw [hcmds] at e1
  obtain ⟨res, r1, r2⟩ := C54_lossless bitDepth ts chs enc m h hS wp tree hu streamIndex out henc es es' s s' _ e1 (map_toU32 out hb) e4
  exact ⟨res, es', s', r1, r2, e2⟩

/-! An image of three 2 by 2 channels, through a colour transform and the default squeeze. -/
def exampleR : MChan := ⟨⟨2, 2, 0, 0, false, [[10, 20], [30, 40]]⟩, []⟩
def exampleG : MChan := ⟨⟨2, 2, 0, 0, false, [[11, 19], [33, 44]]⟩, []⟩
def exampleB : MChan := ⟨⟨2, 2, 0, 0, false, [[0, 255], [3, 4]]⟩, []⟩
def exampleTs : List TransformInfo := [⟨0, 0, 6, 0, 0, 0, 0, []⟩, ⟨2, 0, 0, 0, 0, 0, 0, []⟩]
def exampleYCC : List MChan := [(encodeRCT 6 exampleR exampleG exampleB).1, (encodeRCT 6 exampleR exampleG exampleB).2.1, (encodeRCT 6 exampleR exampleG exampleB).2.2]
def exampleEnc : List MChan := squeezeAll (defaultSqueeze 0 exampleYCC) exampleYCC

theorem exampleYCC_sizes : SizesOK exampleYCC := by unfold SizesOK; decide

theorem exampleEnc_steps : defaultSqueeze 0 exampleYCC = [⟨true, false, 1, 2⟩, ⟨false, false, 1, 2⟩] := by
  have h1 := codeDefault_ok (chs := exampleYCC) (by decide) exampleYCC_sizes
  have h2 : codeDefault ⟨exampleYCC.map MChan.blank, 0⟩ = .ok [⟨true, false, 1, 2⟩, ⟨false, false, 1, 2⟩] := by decide +kernel
  rw [h2] at h1
  simpa using h1.symm

theorem exampleEnc_eq : exampleEnc =
    [⟨⟨2, 2, 0, 0, false, [[8, 78], [24, 33]]⟩, []⟩, ⟨⟨1, 1, 1, 1, false, [[-41]]⟩, []⟩, ⟨⟨1, 1, 1, 1, false, [[-19]]⟩, []⟩,
     ⟨⟨1, 2, 1, 0, false, [[245], [-9]]⟩, []⟩, ⟨⟨1, 2, 1, 0, false, [[124], [-5]]⟩, []⟩,
     ⟨⟨1, 1, 1, 1, false, [[-143]]⟩, []⟩, ⟨⟨1, 1, 1, 1, false, [[-75]]⟩, []⟩] := by
  unfold exampleEnc; rw [exampleEnc_steps]; decide +kernel

/-- The hypotheses of `C54_lossless` are met by this image. -/
example : AppliesAll 8 exampleTs 0 [exampleR, exampleG, exampleB] 0 exampleEnc := by
  refine .cons (m1 := 0) (chs1 := exampleYCC) ?_ (.cons (m1 := 0) (chs1 := exampleEnc) ?_ (.nil _ _))
  · refine Applies.rct _ 0 2 2 [] [] exampleR exampleG exampleB rfl (by decide) rfl ?_ ?_ ?_ ?_ ?_
    · unfold Rect Is32; decide
    · unfold Rect Is32; decide
    · unfold Rect Is32; decide
    · unfold MChan.sameShape; decide
    · unfold MChan.sameShape; decide
  · refine Applies.default _ exampleYCC (by decide) rfl rfl ?_ exampleYCC_sizes
    rw [exampleEnc_steps]
    unfold StepsOK StepsOK StepsOK MChan.Squeezable MChan.Shaped Rect Small27 SqueezeParam.fits
    decide +kernel

example : (∀ c ∈ exampleEnc, c.Shaped ∧ Small c.buffer) ∧ (encodeAll defaultWP exampleTree2 0 2 exampleEnc []).isSome = true := by
  rw [exampleEnc_eq]
  unfold MChan.Shaped Rect Small
  decide +kernel

/-- ... and by an image of one channel, through a palette. -/
example : AppliesAll 8 [⟨1, 0, 0, 1, 2, 0, 0, []⟩] 0 [⟨⟨3, 1, 0, 0, false, [[70, -5, 70]]⟩, []⟩] 1
    [⟨⟨2, 1, -1, -1, false, [[70, -5]]⟩, []⟩, ⟨⟨3, 1, 0, 0, false, [[0, 1, 0]]⟩, []⟩] := by
  refine .cons (m1 := 1) (Applies.palette ⟨1, 0, 0, 1, 2, 0, 0, []⟩ 0 1 [] [] ⟨⟨2, 1, -1, -1, false, [[70, -5]]⟩, []⟩ ⟨⟨3, 1, 0, 0, false, [[0, 1, 0]]⟩, []⟩
    (fun _ => [[70, -5, 70]]) rfl (by decide) (by decide) rfl ?_ rfl ?_ ?_ ?_ rfl (by decide) (Or.inr rfl) rfl) (.nil _ _)
  · unfold Rect; decide
  · unfold Rect; decide
  · unfold Is32; decide
  · intro c hc
    have : c = 0 := by change c < 1 at hc; omega
    subst this
    refine ⟨by unfold Rect; decide, by unfold Small; decide, ?_⟩
    intro y x hy hx
    have hy' : y = 0 := by change y < 1 at hy; omega
    subst hy'
    have hx' : x = 0 ∨ x = 1 ∨ x = 2 := by change x < 3 at hx; omega
    rcases hx' with rfl | rfl | rfl <;> decide

/-! ## C55: the default squeeze -/

/-- Every channel of a list is at most `w` by `h`. -/
def AtMost (w h : Nat) (chs : List MChan) : Prop := ∀ c ∈ chs, c.width ≤ w ∧ c.height ≤ h

theorem squeezeStep_front (hz : Bool) (n : Nat) (chs : List MChan) (hn : n ≤ chs.length) (w h : Nat) (ha : AtMost w h (chs.take n)) :
    n ≤ (squeezeStep ⟨hz, true, 0, n⟩ chs).length ∧
    AtMost (if hz then (w + 1) / 2 else w) (if hz then h else (h + 1) / 2) ((squeezeStep ⟨hz, true, 0, n⟩ chs).take n) := by
  unfold squeezeStep
  simp only [if_true, List.take_zero, List.drop_zero, List.nil_append, List.append_assoc]
  have hl : ((chs.take n).map (fun c => (squeeze1 hz c).1)).length = n := by rw [List.length_map, List.length_take]; omega
  refine ⟨by rw [List.length_append, hl]; omega, ?_⟩
  rw [List.take_append_of_le_length (by omega), List.take_of_length_le (by omega)]
  intro c hc
  obtain ⟨d, d1, rfl⟩ := List.mem_map.1 hc
  have := ha d d1
  cases hz
  · simp only [squeeze1, squeezeV, Bool.false_eq_true, if_false]; omega
  · simp only [squeeze1, squeezeH, if_true]; omega

theorem defaultLoop_front (n w h : Nat) : ∀ chs : List MChan, n ≤ chs.length → AtMost w h (chs.take n) →
    AtMost 8 8 ((squeezeAll (defaultLoop 0 n w h) chs).take n) := by
  induction w, h using defaultLoop.induct with
  | case1 w h h1 ih1 ih2 =>
    intro chs hn ha
    obtain ⟨a1, a2⟩ := squeezeStep_front true n chs hn w h ha
    by_cases h2 : h > 8
    · rw [defaultLoop, if_pos h1, if_pos h2, squeezeAll, squeezeAll]
      obtain ⟨b1, b2⟩ := squeezeStep_front false n _ a1 _ _ a2
      exact ih1 h2 _ b1 (by simpa using b2)
    · rw [defaultLoop, if_pos h1, if_neg h2, squeezeAll]
      exact ih2 _ a1 (by simpa using a2)
  | case2 w h h1 h2 ih =>
    intro chs hn ha
    rw [defaultLoop, if_neg h1, if_pos h2, squeezeAll]
    obtain ⟨a1, a2⟩ := squeezeStep_front false n chs hn w h ha
    exact ih _ a1 (by simpa using a2)
  | case3 w h h1 h2 =>
    intro chs hn ha
    rw [defaultLoop, if_neg h1, if_neg h2, squeezeAll]
    intro c hc
    have := ha c hc
    omega

theorem chroma_front (hz : Bool) (n : Nat) (chs : List MChan) (hn : 3 ≤ n ∧ n ≤ chs.length) (w h : Nat) (ha : AtMost w h (chs.take n)) :
    n ≤ (squeezeStep ⟨hz, false, 1, 2⟩ chs).length ∧ AtMost w h ((squeezeStep ⟨hz, false, 1, 2⟩ chs).take n) := by
  match chs, hn, ha with
  | [], hn, _ => simp only [List.length_nil] at hn; omega
  | [_], hn, _ => simp only [List.length_cons, List.length_nil] at hn; omega
  | [_, _], hn, _ => simp only [List.length_cons, List.length_nil] at hn; omega
  | c0 :: c1 :: c2 :: rest, hn, ha =>
    obtain ⟨k, rfl⟩ : ∃ k, n = k + 3 := ⟨n - 3, by omega⟩
    simp only [List.length_cons] at hn
    have e : squeezeStep ⟨hz, false, 1, 2⟩ (c0 :: c1 :: c2 :: rest) =
        c0 :: (squeeze1 hz c1).1 :: (squeeze1 hz c2).1 :: (rest ++ [(squeeze1 hz c1).2, (squeeze1 hz c2).2]) := by
      unfold squeezeStep
      simp
    rw [e]
    refine ⟨by simp only [List.length_cons, List.length_append]; omega, ?_⟩
    have hsq : ∀ c : MChan, c.width ≤ w ∧ c.height ≤ h → (squeeze1 hz c).1.width ≤ w ∧ (squeeze1 hz c).1.height ≤ h := by
      intro c hc
      cases hz
      · simp only [squeeze1, squeezeV, Bool.false_eq_true, if_false]; omega
      · simp only [squeeze1, squeezeH, if_true]; omega
    intro c hc
    simp only [List.take_succ_cons, List.mem_cons] at hc
    rw [List.take_append_of_le_length (by omega)] at hc
    rcases hc with rfl | rfl | rfl | hc
    · exact ha _ (by simp)
    · exact hsq _ (ha _ (by simp))
    · exact hsq _ (ha _ (by simp))
    · exact ha _ (by simp [hc])

/-- **C55**, images without meta channels: the steps that the decoder derives when a squeeze lists none leave all channels at
most 8 by 8 (those that were no larger than the first one), for every number and size of channels. The decoder derives exactly
the steps of the format (`defaultSqueeze`). Missing: images with meta channels (`C55_violated`). -/
theorem C55_default_partial (chs : List MChan) (hne : chs ≠ []) (hsz : SizesOK chs) (hfirst : ∀ c ∈ chs, c.width ≤ (chs.head hne).width ∧ c.height ≤ (chs.head hne).height) :
    ∃ sps, codeDefault ⟨chs.map MChan.blank, 0⟩ = .ok sps ∧ sps = defaultSqueeze 0 chs ∧ AtMost 8 8 ((squeezeAll sps chs).take chs.length) := by
  refine ⟨_, codeDefault_ok hne hsz, rfl, ?_⟩
  cases chs with
  | nil => exact absurd rfl hne
  | cons c rest =>
    have h0 : AtMost c.width c.height ((c :: rest).take (c :: rest).length) := by
      rw [List.take_length]; exact hfirst
    have core : ∀ chs' : List MChan, (c :: rest).length ≤ chs'.length → AtMost c.width c.height (chs'.take (c :: rest).length) →
        AtMost 8 8 ((squeezeAll (if c.height ≥ c.width ∧ c.height > 8 then ⟨false, true, 0, rest.length + 1⟩ :: defaultLoop 0 (rest.length + 1) c.width ((c.height + 1) / 2)
          else defaultLoop 0 (rest.length + 1) c.width c.height) chs').take (c :: rest).length) := by
      intro chs' hl ha
      split
      · rw [squeezeAll]
        obtain ⟨a1, a2⟩ := squeezeStep_front false (rest.length + 1) chs' hl _ _ ha
        exact defaultLoop_front _ _ _ _ a1 (by simpa using a2)
      · exact defaultLoop_front _ _ _ _ hl ha
    unfold defaultSqueeze
    simp only [List.drop_zero]
    cases hch : chromaLike c rest with
    | false =>
      simp only [Bool.false_eq_true, if_false, List.nil_append]
      exact core _ (Nat.le_refl _) h0
    | true =>
      have h3 : 3 ≤ (c :: rest).length := by
        match rest, hch with
        | c1 :: c2 :: r, _ => simp
      simp only [if_true, List.cons_append, List.nil_append, squeezeAll]
      obtain ⟨a1, a2⟩ := chroma_front true _ (c :: rest) ⟨h3, Nat.le_refl _⟩ _ _ h0
      obtain ⟨b1, b2⟩ := chroma_front false _ _ ⟨h3, a1⟩ _ _ a2
      exact core _ b1 b2

example : SizesOK exampleYCC ∧ (∀ c ∈ exampleYCC, c.width ≤ (exampleYCC.head (by decide)).width ∧ c.height ≤ (exampleYCC.head (by decide)).height) :=
  ⟨exampleYCC_sizes, by decide⟩

/-- **C55** is violated after a palette of at most 8 colours and components: the decoder takes the size of the palette for that of
the image, and does not squeeze an image of any size at all. -/
theorem C55_violated (t : TransformInfo) (ht : t.tr = 1) (hb : t.beginC = 0) (h1 : t.numC = 1) (hd : t.nbDeltas = 0) (hc : t.nbColours ≤ 8) (w h : Nat) :
    planTransform t ⟨[⟨⟨w, h, 0, 0, false, []⟩, []⟩], 0⟩ = .ok (⟨[⟨⟨t.nbColours, 1, -1, -1, false, []⟩, []⟩, ⟨⟨w, h, 0, 0, false, []⟩, []⟩], 1⟩, []) ∧
      codeDefault ⟨[⟨⟨t.nbColours, 1, -1, -1, false, []⟩, []⟩, ⟨⟨w, h, 0, 0, false, []⟩, []⟩], 1⟩ = .ok [] ∧
      (8 < w → defaultSqueeze 1 [⟨⟨t.nbColours, 1, -1, -1, false, []⟩, []⟩, ⟨⟨w, h, 0, 0, false, []⟩, []⟩] ≠ []) := by
  refine ⟨?_, ?_, ?_⟩
  · unfold planTransform planPalette planForceWP
    rw [if_pos ht, hb, h1, hd]
    rfl
  · unfold codeDefault chromaTest
    rw [if_neg (show ¬ (1 : Int) < 0 by decide)]
    dsimp only
    rw [show ∀ a b : MChan, idx [a, b] 0 = .ok a from fun _ _ => rfl, Res.bind_ok]
    simp only [List.length_cons, List.length_nil]
    rw [if_neg (by decide), Res.bind_ok]
    have ht : ¬ (1 ≥ t.nbColours ∧ 1 > 8) := by omega
    rw [if_neg ht, if_neg ht]
    cases hx : t.nbColours + 1 with
    | zero => rfl
    | succ n =>
      have h8 : ¬ (t.nbColours > 8 ∨ 1 > 8) := by omega
      rw [codeLoop, if_neg h8]; rfl
  · intro hw
    unfold defaultSqueeze
    simp only [List.drop_succ_cons, List.drop_zero, chromaLike]
    by_cases ht : h ≥ w ∧ h > 8
    · rw [if_pos ht]; simp
    · rw [if_neg ht, defaultLoop, if_pos hw]; simp

end Jxl
