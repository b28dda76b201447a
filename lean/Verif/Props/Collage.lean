import Verif.Proofs.Collage
import Verif.Proofs.ValueBytes
import Verif.Props.Decode

/-!
# C99: files with frames that are blended with saved frames
-/
namespace Jxl
open Spec

theorem roundBlend_ok (D : DecodeParts) {h : ImageHeader} (hV : Viewable h) (hal : h.alphaIndices = alphaChannels h.extra) {f : FrameHeader} {v : Pic} {d : Collage} (hL : Blended h f v)
    (huse : ∀ c, c < channelCount h → 2 ≤ (blendingOf h f c).mode → d.slots (blendingOf h f c).source ≠ none)
    {data : List UInt8} {k k' : Nat} (hF : FrameCodes h data k k' f v) {st : DecodeState} (hlf : st.lf.length = 5) (hB : Album h d st.store) {s : BR} {p0 : Nat}
    (hs : AtBit s p0) (hp0 : nextByte p0 = k) (hdata : s.data = data) :
    ∃ st' s' q, decodeRound D h none st s = (.ok (st', f.isLast), s') ∧ st'.lf.length = 5 ∧
      (f.isLast = false → Numbers h (upCanvas D.impl h f v d) → Album h (keep f (upCanvas D.impl h f v d) d) st'.store) ∧
      (∃ l, st'.store.slices[st'.store.canvas]? = some l ∧ ShowsValues h (upCanvas D.impl h f v d) l) ∧ AtBit s' q ∧ nextByte q = k' ∧ s'.data = data := by
  obtain ⟨hr, l, b, lengths, s1, j, e1, el, hlen, hS, a1, d1⟩ := frameFront_ok hV.width hV.height hL.toSheet.toCodedSheet hF hlf hs hp0 hdata
  obtain ⟨bufs, s2, q, e2, hb, a2, hq, d2⟩ := frameData_ok (D.frames b) D.impl.toFloatImpl hL.toSheet.toCodedSheet hr el hlen hS a1 d1
  have e3 : keepLF f bufs st.lf = .ok st.lf := by
    unfold keepLF
    rw [if_neg (by rw [hr.lfLevel]; omega)]
  have e4 : upsampleFrame h f (imageWeights h) (D.orders f) bufs = .ok bufs := by
    refine upsample_unscaled hL.unscaled ?_ _ _
    rw [hb.1, hr.ecUpsampling]
    unfold frameColourCount
    rw [hL.plain.xyb, hL.plain.modular]
    exact Nat.le_refl _
  obtain ⟨s3, l', e5, c3, p3, hB'⟩ := composeBlend_ok D.impl hL hr hV hal hB hb huse
  refine ⟨⟨s3, st.lf⟩, s2, q, ?_, hlf, hB', ⟨l', c3, p3⟩, a2, hq, d2⟩
  unfold decodeRound
  rw [Rd.bind_ok e1]
  dsimp only
  rw [Rd.bind_ok e2, e3, Rd.bind_ok (lift_ok rfl _), if_neg (by have := hL.regular; omega), e4, Rd.bind_ok (lift_ok rfl _), e5, Rd.bind_ok (lift_ok rfl _)]
  rfl

theorem roundsBlend_ok (D : DecodeParts) {h : ImageHeader} (hV : Viewable h) (hal : h.alphaIndices = alphaChannels h.extra) {data : List UInt8} :
    ∀ (frames : List (FrameHeader × Pic)) (fuel k : Nat) (d : Collage) (st : DecodeState) (s : BR) (p0 : Nat), frames ≠ [] → frames.length ≤ fuel →
      (∀ x ∈ frames, Blended h x.1 x.2) → Usable D.impl h frames d → FramesAt h data k frames → st.lf.length = 5 → Album h d st.store → AtBit s p0 → nextByte p0 = k → s.data = data →
      ∃ st' s' q, decodeRounds D h none fuel st s = (.ok st', s') ∧
        (∃ l, st'.slices[st'.canvas]? = some l ∧ ShowsValues h (collage (upCanvas D.impl) h frames d).canvas l) ∧ AtBit s' q ∧ s'.data = data := by
  intro frames
  induction frames with
  | nil => intro _ _ _ _ _ _ hne; exact absurd rfl hne
  | cons x xs ih =>
    intro fuel k d st s p0 _ hfu hL huse hF hlf hB hs hp hd
    obtain ⟨n, rfl⟩ : ∃ n, fuel = n + 1 := ⟨fuel - 1, by rw [List.length_cons] at hfu; omega⟩
    obtain ⟨k', hF1, hlast, hF2⟩ := hF
    obtain ⟨st1, s1, q, e1, l1, c1, c1', a1, q1, d1⟩ := roundBlend_ok D hV hal (hL x List.mem_cons_self) huse.1 hF1 hlf hB hs hp hd
    unfold decodeRounds
    rw [Rd.bind_ok e1]
    cases hx : xs with
    | nil =>
      rw [hlast, hx]
      exact ⟨st1.store, s1, q, rfl, c1', a1, d1⟩
    | cons y ys =>
      rw [hlast, hx]
      dsimp only [List.isEmpty_cons]
      rw [if_neg (by simp)]
      obtain ⟨st2, s2, q2, e2, c2, a2, d2⟩ := ih n k' _ st1 s1 q (by rw [hx]; simp) (by rw [List.length_cons] at hfu; omega)
        (fun z hz => hL z (List.mem_cons_of_mem _ hz)) huse.2.2 hF2 l1 (c1 (by rw [hlast, hx]; rfl) (huse.2.1 (by rw [hx]; simp))) a1 q1 d1
      rw [hx] at c2
      exact ⟨st2, s2, q2, e2, c2, a2, d2⟩

theorem blendedFile_ok (D : DecodeParts) {file : List UInt8} {h : ImageHeader} {icc : Option (List Nat)} {frames : List (FrameHeader × Pic)} (hf : BlendedFile D.impl file h icc frames)
    {fuel : Nat} (hfu : frames.length ≤ fuel) :
    StatedHeader h ∧ ∃ img s' enc, decodeFile D false fuel (BR.new file) = (.ok (some img), s') ∧ Made img img.buffers h ∧ newJXLImage img.buffers h enc = .ok img ∧ img.icc = icc ∧
      ValuesTurned h (heaped D.impl h frames) img.buffers := by
  obtain ⟨⟨k, k', level, profile, h1, h2, h3, h4⟩, hV, hx, hne, hL, huse⟩ := hf
  have hp : ∀ e, profile = some e → ∃ p, getDecodedICC (e.map UInt8.ofNat) = .ok p := by
    rintro e rfl
    cases icc with
    | none => cases h4
    | some p => exact ⟨p, profile_decodes h4⟩
  obtain ⟨img, s', e, m, n, t⟩ := file_of_finish D (fuel := fuel) (R := fun img => Made img img.buffers h ∧
      newJXLImage img.buffers h (profile.map fun e => e.map UInt8.ofNat) = .ok img ∧ ValuesTurned h (heaped D.impl h frames) img.buffers) h1 h2 hV hx (framesAt_inside hne h3)
    (fun hS s1 a1 d1 => by
      obtain ⟨st, s2, q, e2, ⟨l, hl, hlw⟩, a2, d2⟩ := roundsBlend_ok D hV hS.alphas frames fuel k' bare (newState h) s1 (8 * k') hne hfu hL huse h3 rfl
        ⟨rfl, Or.inl ⟨rfl, rfl⟩, fun _ _ _ _ _ _ hx => (by cases hx), fun i a hi => (by
          have hi : ([none, none, none, none] : List (Option Nat))[i]? = some (some a) := hi
          have := List.mem_of_getElem? hi
          simp at this), fun _ _ => rfl⟩ a1 (by unfold nextByte; omega) d1
      exact ⟨st, s2, e2, finishValues_ok hV hS (profile_ok hx hp) hl hlw a2⟩)
  refine ⟨?_, img, s', _, e, m, n, profile_icc hx h4 n, t⟩
  obtain ⟨p, q, hd, -⟩ := h2
  exact yields_imageHeader level _ _ _ hd.2

/-- C99 (partial: frames as in `Blended`). The image shows the frames, each of them put on the canvas: where it covers the canvas it shows the value that the blending mode of the channel
defines, from the frame and from what the slot that the channel names got when a frame was last saved there. -/
theorem C99_heaped_partial (D : DecodeParts) {file : List UInt8} {h : ImageHeader} {icc : Option (List Nat)} {frames : List (FrameHeader × Pic)} (hf : BlendedFile D.impl file h icc frames)
    {fuel : Nat} (hfu : frames.length ≤ fuel) (procs : Int) :
    ∃ img s', coreDecode D fuel procs none (BR.new file) = (.ok (some img), s') ∧ Made img img.buffers h ∧ img.icc = icc ∧ ValuesTurned h (heaped D.impl h frames) img.buffers := by
  obtain ⟨-, img, s', enc, e, m, -, i, t⟩ := blendedFile_ok D hf hfu
  exact ⟨img, s', e, m, i, t⟩

theorem Spec.ValuesTurned.alike {h : ImageHeader} {v w : FloatPic} {bufs : List ImageBuffer} (hv : ValuesTurned h v bufs)
    (e : ∀ c y x, c < channelCount h → y < h.size.height → x < h.size.width → v c y x = w c y x) : ValuesTurned h w bufs := by
  obtain ⟨rs, cs, h1, h2, h3⟩ := hv
  refine ⟨rs, cs, h1, h2, fun c hc => ?_⟩
  obtain ⟨b, e1, e2, e3⟩ := h3 c hc
  exact ⟨b, e1, e2, fun y x hy hx => by rw [e3 y x hy hx, e c y x hc hy hx]⟩

/-- Two pictures are the same on the canvas. -/
def SameValues (h : ImageHeader) (v w : FloatPic) : Prop := ∀ c y x, c < channelCount h → y < h.size.height → x < h.size.width → v c y x = w c y x

/-- Both are missing, or the same on the canvas. -/
def SameSlot (h : ImageHeader) : Option FloatPic → Option FloatPic → Prop
  | none, none => True
  | some v, some w => SameValues h v w
  | _, _ => False

theorem composed_same (I : BlendImpl) {h : ImageHeader} {f : FrameHeader} {v : Pic} (hL : Blended h f v) {p q : Nat → Option FloatPic} (hs : ∀ i, SameSlot h (p i) (q i)) {c y x : Nat}
    (hc : c < channelCount h) (hy : y < h.size.height) (hx : x < h.size.width) : composed I h f v p c y x = composed I h f v q c y x := by
  have hcc : channelCount h = h.colourCount + h.extra.length := rfl
  unfold composed
  have := hs (blendingOf h f c).source
  cases hp : p (blendingOf h f c).source with
  | none =>
    cases hq : q (blendingOf h f c).source with
    | none => rfl
    | some w => rw [hp, hq] at this; exact this.elim
  | some u =>
    cases hq : q (blendingOf h f c).source with
    | none => rw [hp, hq] at this; exact this.elim
    | some w =>
      rw [hp, hq] at this
      have hs : SameValues h u w := this
      dsimp only
      rw [hs c y x hc hy hx]
      by_cases hm : (blendingOf h f c).mode = 2 ∨ (blendingOf h f c).mode = 3
      · congr 1
        unfold alphasOf
        by_cases hA : h.hasAlpha = true
        · rw [if_pos hA, if_pos hA, hs _ y x (by have := hL.alphas hA c hc hm; omega) hy hx]
        · rw [if_neg hA, if_neg hA]
      · unfold composite
        split <;> first | rfl | (exfalso; omega)

theorem chained_same (I : BlendImpl) (h : ImageHeader) : ∀ (frames : List (FrameHeader × Pic)) (before : Option Nat) (d e : Collage), (∀ x ∈ frames, Blended h x.1 x.2) →
    Chained h before frames → SameValues h d.canvas e.canvas → (∀ i, SameSlot h (d.slots i) (e.slots i)) →
    (∀ i, before = some i → ∃ w, d.slots i = some w ∧ SameValues h w d.canvas) → (before = none → ∀ i, d.slots i = none ∧ SameValues h d.canvas (fun _ _ _ => .fin 0)) →
    SameValues h (collage (upCanvas I) h frames d).canvas (collage (upSlot I) h frames e).canvas := by
  intro frames
  induction frames with
  | nil => intro _ d e _ _ h1 _ _ _; exact h1
  | cons x xs ih =>
    intro before d e hL hc h1 h2 h3 h4
    have hw : SameValues h (upCanvas I h x.1 x.2 d) (upSlot I h x.1 x.2 e) := by
      intro c r q hc' hr hq
      unfold upCanvas upSlot
      split
      · exact composed_same I (hL x List.mem_cons_self) h2 hc' hr hq
      · rename_i hcov
        have hsame := h2 (blendingOf h x.1 c).source
        cases before with
        | none =>
          obtain ⟨hn, hz⟩ := h4 rfl (blendingOf h x.1 c).source
          rw [hn] at hsame
          cases he : e.slots (blendingOf h x.1 c).source with
          | none => exact hz c r q hc' hr hq
          | some w => rw [he] at hsame; exact hsame.elim
        | some i =>
          rcases hc.1 i rfl with hall | hs
          · exact absurd (hall r q hr hq) hcov
          · rw [hs c hc'] at hsame ⊢
            obtain ⟨w, ew, hww⟩ := h3 i rfl
            rw [ew] at hsame
            cases he : e.slots i with
            | none => rw [he] at hsame; exact hsame.elim
            | some w' =>
              rw [he] at hsame
              have hsame : SameValues h w w' := hsame
              rw [Option.map_some, Option.getD_some, ← hsame c r q hc' hr hq, hww c r q hc' hr hq]
    refine ih (some x.1.saveAsReference) _ _ (fun z hz => hL z (List.mem_cons_of_mem _ hz)) hc.2 hw (fun i => ?_) (fun i hi => ?_) (fun hi => by cases hi)
    · show SameSlot h (if i = _ then _ else _) (if i = _ then _ else _)
      split
      · exact hw
      · exact h2 i
    · cases hi
      exact ⟨upCanvas I h x.1 x.2 d, if_pos rfl, fun _ _ _ _ _ _ => rfl⟩

/-- C99 (partial: frames as in `Blended`). If every frame covers the image or names the slot of the frame before it, the image shows the picture that the format defines. -/
theorem C99_blended_partial (D : DecodeParts) {file : List UInt8} {h : ImageHeader} {icc : Option (List Nat)} {frames : List (FrameHeader × Pic)} (hf : BlendedFile D.impl file h icc frames)
    (hc : Chained h none frames) {fuel : Nat} (hfu : frames.length ≤ fuel) (procs : Int) :
    ∃ img s', coreDecode D fuel procs none (BR.new file) = (.ok (some img), s') ∧ Made img img.buffers h ∧ img.icc = icc ∧ ValuesTurned h (blended D.impl h frames) img.buffers := by
  obtain ⟨img, s', e, m, i, t⟩ := C99_heaped_partial D hf hfu procs
  refine ⟨img, s', e, m, i, t.alike (chained_same D.impl h frames none bare bare hf.blends hc (fun _ _ _ _ _ _ => rfl) (fun _ => trivial) (fun _ hi => by cases hi)
    (fun _ _ => ⟨rfl, fun _ _ _ _ _ _ => rfl⟩))⟩

/-- C99, as seen through the package: the Go image of a file with 8-bit samples has the displayed size, and the bytes of its planes (gray; or red, green, blue and, if there is an
alpha channel, alpha) show the values of the blended picture, if these are numbers from 0 to 1. -/
theorem C99_pixels_partial (D : DecodeParts) (curve : Nat → F32 → F32) {file : List UInt8} {h : ImageHeader} {icc : Option (List Nat)} {frames : List (FrameHeader × Pic)}
    (hf : BlendedFile D.impl file h icc frames) (h8 : Ordinary8 h)
    (hr : ∀ c y x, c < channelCount h → y < h.size.height → x < h.size.width → ∃ q : ℚ, heaped D.impl h frames c y x = .fin q ∧ 0 ≤ q ∧ q ≤ 1) {fuel : Nat}
    (hfu : frames.length ≤ fuel) (procs : Int) (peeks : Bool) :
    ∃ px planes, readerDecode D curve fuel procs ⟨file, true, peeks⟩ = .ok px ∧ px.gray = decide (h.colour.space = 1) ∧ px.width = (orientedSize h.orientation h.size).width ∧
      px.height = (orientedSize h.orientation h.size).height ∧ px.pix = pixBytes planes px.height px.width ∧ planes.length = shownPlanes h ∧
      ∀ (c : Nat) (m : List (List Nat)), planes[c]? = some m → BytesShow h (heaped D.impl h frames c) m := by
  obtain ⟨hS, img, s', enc, e, -, hn, hicc, rs, cs, hex, hlen, hb⟩ := blendedFile_ok D hf hfu
  have hsz := shownSize_oriented hex h.size
  have hpath : ColourPath curve img h id := by
    cases icc with
    | none => exact .srgb hicc hf.notXyb h8.colours.1 h8.colours.2.1 h8.colours.2.2
    | some p => exact .profile p hicc
  have hcc : channelCount h = h.colourCount + h.extra.length := rfl
  have hval : ∀ (c : Nat) (b : ImageBuffer), img.buffers[c]? = some b → c < channelCount h ∧
      (b.IntPicture (orientedSize h.orientation h.size).height (orientedSize h.orientation h.size).width ∨
        b.FloatPicture (orientedSize h.orientation h.size).height (orientedSize h.orientation h.size).width) ∧
      ∀ y x, y < h.size.height → x < h.size.width → value (depth h c) b (shown rs cs h.size.height h.size.width y x).1 (shown rs cs h.size.height h.size.width y x).2 =
        some (heaped D.impl h frames c y x) := by
    intro c b hcb
    have hlt : c < channelCount h := by rw [← hlen]; exact (List.getElem?_eq_some_iff.mp hcb).1
    obtain ⟨b', e1, e2, e3⟩ := hb c hlt
    rw [hcb] at e1
    cases e1
    rw [hsz] at e2
    exact ⟨hlt, e2, e3⟩
  have hord : Ordinary h.colour := by
    refine ⟨?_, ?_, ?_, .inl h8.colours.2.1⟩ <;> rw [h8.colours.1] <;> decide
  obtain ⟨px, img', planes, e1, e2, e3, e4, e5, e6, e7⟩ := C61_to_image_partial D.impl.toFloatImpl curve h _ img.buffers img (orientedSize h.orientation h.size).height
    (orientedSize h.orientation h.size).width id hn (by rw [hlen, hcc]) (by rw [hS.oriented])
    (fun b hb => by
      obtain ⟨c, hc, eb⟩ := List.mem_iff_getElem.mp hb
      exact (hval c b (by rw [List.getElem?_eq_getElem hc, eb])).2.1)
    (fun c b hcb _ => hf.viewable.depths c (hval c b hcb).1) hord hpath (by rw [hS.alphas]; exact h8.alpha)
  refine ⟨px, planes, ?_, e2, e3, e4, by rw [e3, e4]; exact e5, e6, fun c m hcm => ⟨rs, cs, hex, fun y x hy hx' => ?_⟩⟩
  · unfold readerDecode pkgDecode coreDecode
    rw [if_pos rfl]
    rw [Rd.bind_ok (show decodeFile D (newOptions procs (some (newOptions procs none))).parseOnly fuel (BR.new file) = _ from e)]
    dsimp only
    rw [e1]
    rfl
  · obtain ⟨ht, b, hcb, hsh⟩ := e7 c m hcm
    obtain ⟨hlt, hpic, hsam⟩ := hval c b hcb
    have hsv := hsam y x hy hx'
    obtain ⟨q, hq, h0, h1⟩ := hr c y x hlt hy hx'
    have hout : outDepth h = 8 := by unfold outDepth; rw [h8.bits.1]; rfl
    have hd : depth h c = 8 := h8.bits.2 c hlt
    rw [hq, hd] at hsv
    have hid : (if c < h.colourCount then id else id : F32 → F32) = id := by split <;> rfl
    rw [hout, h8.bits.2 c hlt, hid] at hsh
    unfold value at hsv
    rcases hpic with hpic | hpic
    · rw [if_pos hpic.1] at hsv
      obtain ⟨v, hv, hu⟩ := Option.map_eq_some_iff.mp hsv
      have hin := hpic.2.2.2.sample_lt hv
      obtain ⟨o, ho⟩ := ht.sample hin.1 hin.2
      obtain ⟨b0, b1, b2⟩ := byte_of_int hu h0 h1
      obtain ⟨s1, s2, -⟩ := hsh _ _ o ho
      have heq := (s2 hpic.1 v hv b0 (by exact_mod_cast b1)).1 rfl
      refine ⟨o, q, ho, by simpa using s1, hq, ?_⟩
      rw [← heq] at b2
      push_cast at b2
      linarith
    · rw [if_neg (by rw [hpic.1]; decide)] at hsv
      have hin := hpic.2.2.2.sample_lt hsv
      obtain ⟨o, ho⟩ := ht.sample hin.1 hin.2
      obtain ⟨s1, -, s3⟩ := hsh _ _ o ho
      have heq := s3 hpic.1 _ hsv
      refine ⟨o, q, ho, by simpa using s1, hq, ?_⟩
      have hB := byte_of_float D.impl.toFloatImpl h0 h1
      have heq' : (o : Int) = sampleToInt D.impl.toFloatImpl 255 (.fin q) := heq
      rw [← heq'] at hB
      push_cast at hB
      exact hB

end Jxl
