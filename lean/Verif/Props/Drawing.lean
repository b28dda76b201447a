import Verif.Proofs.Drawing
import Verif.Props.Decode

/-!
# C98: files with frames that are added to saved frames
-/
namespace Jxl
open Spec

theorem roundAdd_ok (D : DecodeParts) {h : ImageHeader} (hV : Viewable h) (hal : h.alphaIndices = alphaChannels h.extra) {f : FrameHeader} {v : Pic} {d : Drawing} (hL : Addition h f v)
    (hfit : ∀ c y x, c < channelCount h → y < h.size.height → x < h.size.width → CoversPixel f y x → -2 ^ 31 ≤ combined h f v d.slots c y x ∧ combined h f v d.slots c y x < 2 ^ 31)
    {data : List UInt8} {k k' : Nat} (hF : FrameCodes h data k k' f v) {st : DecodeState} (hlf : st.lf.length = 5) (hB : Board h d st.store) {s : BR} {p0 : Nat}
    (hs : AtBit s p0) (hp0 : nextByte p0 = k) (hdata : s.data = data) :
    ∃ st' s' q, decodeRound D h none st s = (.ok (st', f.isLast), s') ∧ st'.lf.length = 5 ∧ (f.isLast = false → Board h (save f (overCanvas h f v d) d) st'.store) ∧
      (∃ l, st'.store.slices[st'.store.canvas]? = some l ∧ ShowsPicture (channelCount h) h.size (overCanvas h f v d) l) ∧ AtBit s' q ∧ nextByte q = k' ∧ s'.data = data := by
  obtain ⟨hr, l, b, lengths, s1, j, e1, el, hlen, hS, a1, d1⟩ := frameFront_ok hV.width hV.height hL.toSheet.toCodedSheet hF hlf hs hp0 hdata
  obtain ⟨bufs, s2, q, e2, hb, a2, hq, d2⟩ := frameData_ok (D.frames b) D.impl.toFloatImpl hL.toSheet.toCodedSheet hr el hlen hS a1 d1
  have e3 : keepLF f bufs st.lf = .ok st.lf := by
    unfold keepLF
    rw [if_neg (by rw [hr.lfLevel]; omega)]
  have e4 : upsampleFrame h f (imageWeights h) (D.orders f) bufs = .ok bufs := by
    refine upsample_unscaled hL.unscaled ?_ _ _
    rw [hb.1, hr.ecUpsampling]
    unfold frameColourCount
    rw [hL.plain.xyb, hL.plain.modular]
    exact Nat.le_refl _
  obtain ⟨s3, l', e5, c3, p3, hB'⟩ := composeAdd_ok D.impl hL hr hV hal hB hb hfit
  refine ⟨⟨s3, st.lf⟩, s2, q, ?_, hlf, hB', ⟨l', c3, p3⟩, a2, hq, d2⟩
  unfold decodeRound
  rw [Rd.bind_ok e1]
  dsimp only
  rw [Rd.bind_ok e2, e3, Rd.bind_ok (lift_ok rfl _), if_neg (by have := hL.regular; omega), e4, Rd.bind_ok (lift_ok rfl _), e5, Rd.bind_ok (lift_ok rfl _)]
  rfl

theorem roundsAdd_ok (D : DecodeParts) {h : ImageHeader} (hV : Viewable h) (hal : h.alphaIndices = alphaChannels h.extra) {data : List UInt8} :
    ∀ (frames : List (FrameHeader × Pic)) (fuel k : Nat) (d : Drawing) (st : DecodeState) (s : BR) (p0 : Nat), frames ≠ [] → frames.length ≤ fuel →
      (∀ x ∈ frames, Addition h x.1 x.2) → SumsFit h frames d → FramesAt h data k frames → st.lf.length = 5 → Board h d st.store → AtBit s p0 → nextByte p0 = k → s.data = data →
      ∃ st' s' q, decodeRounds D h none fuel st s = (.ok st', s') ∧
        (∃ l, st'.slices[st'.canvas]? = some l ∧ ShowsPicture (channelCount h) h.size (drawing overCanvas h frames d).canvas l) ∧ AtBit s' q ∧ s'.data = data := by
  intro frames
  induction frames with
  | nil => intro _ _ _ _ _ _ hne; exact absurd rfl hne
  | cons x xs ih =>
    intro fuel k d st s p0 _ hfu hL hfit hF hlf hB hs hp hd
    obtain ⟨n, rfl⟩ : ∃ n, fuel = n + 1 := ⟨fuel - 1, by rw [List.length_cons] at hfu; omega⟩
    obtain ⟨k', hF1, hlast, hF2⟩ := hF
    obtain ⟨st1, s1, q, e1, l1, c1, c1', a1, q1, d1⟩ := roundAdd_ok D hV hal (hL x List.mem_cons_self) hfit.1 hF1 hlf hB hs hp hd
    unfold decodeRounds
    rw [Rd.bind_ok e1]
    cases hx : xs with
    | nil =>
      rw [hlast, hx]
      exact ⟨st1.store, s1, q, rfl, c1', a1, d1⟩
    | cons y ys =>
      rw [hlast, hx]
      dsimp only [List.isEmpty_cons]
      rw [if_neg (by simp)]
      obtain ⟨st2, s2, q2, e2, c2, a2, d2⟩ := ih n k' _ st1 s1 q (by rw [hx]; simp) (by rw [List.length_cons] at hfu; omega)
        (fun z hz => hL z (List.mem_cons_of_mem _ hz)) hfit.2 hF2 l1 (c1 (by rw [hlast, hx]; rfl)) a1 q1 d1
      rw [hx] at c2
      exact ⟨st2, s2, q2, e2, c2, a2, d2⟩

theorem drawnFile_ok (D : DecodeParts) {file : List UInt8} {h : ImageHeader} {icc : Option (List Nat)} {frames : List (FrameHeader × Pic)} (hf : DrawnFile file h icc frames) {fuel : Nat}
    (hfu : frames.length ≤ fuel) :
    StatedHeader h ∧ ∃ img s' enc, decodeFile D false fuel (BR.new file) = (.ok (some img), s') ∧ Made img img.buffers h ∧ newJXLImage img.buffers h enc = .ok img ∧ img.icc = icc ∧
      ShowsTurned (channelCount h) h.orientation h.size (stacked h frames) img.buffers := by
  obtain ⟨⟨k, k', level, profile, h1, h2, h3, h4⟩, hV, hx, hne, hL, hfit⟩ := hf
  obtain ⟨img, s', e, m, n, t⟩ := file_of_rounds D (w := stacked h frames) (fuel := fuel) h1 h2 hV hx (by
    rintro e rfl
    cases icc with
    | none => cases h4
    | some p => exact ⟨p, profile_decodes h4⟩) (framesAt_inside hne h3) (fun hS s1 a1 d1 => by
    refine roundsAdd_ok D hV hS.alphas frames fuel k' blank (newState h) s1 (8 * k') hne hfu hL hfit h3 rfl ⟨⟨rfl, Or.inl ⟨rfl, rfl⟩⟩, fun i a hi => ?_, fun _ _ _ _ _ => rfl⟩ a1
      (by unfold nextByte; omega) d1
    have hi : ([none, none, none, none] : List (Option Nat))[i]? = some (some a) := hi
    have := List.mem_of_getElem? hi
    simp at this)
  refine ⟨?_, img, s', _, e, m, n, profile_icc hx h4 n, t⟩
  obtain ⟨p, q, hd, -⟩ := h2
  exact yields_imageHeader level _ _ _ hd.2

/-- C98 (partial: frames as in `Addition`). The image shows the frames, each of them put on the canvas: where it covers the canvas it replaces it, or shows the sum of its samples and
those that the slot that it names got when a frame was last saved there. -/
theorem C98_stacked_partial (D : DecodeParts) {file : List UInt8} {h : ImageHeader} {icc : Option (List Nat)} {frames : List (FrameHeader × Pic)} (hf : DrawnFile file h icc frames)
    {fuel : Nat} (hfu : frames.length ≤ fuel) (procs : Int) :
    ∃ img s', coreDecode D fuel procs none (BR.new file) = (.ok (some img), s') ∧ Made img img.buffers h ∧ img.icc = icc ∧
      ShowsTurned (channelCount h) h.orientation h.size (stacked h frames) img.buffers := by
  obtain ⟨-, img, s', enc, e, m, -, i, t⟩ := drawnFile_ok D hf hfu
  exact ⟨img, s', e, m, i, t⟩

theorem ShowsTurned.alike {n o : Nat} {size : Dim} {v w : Pic} {bufs : List ImageBuffer} (h : ShowsTurned n o size v bufs)
    (e : ∀ c y x, c < n → y < size.height → x < size.width → v c y x = w c y x) : ShowsTurned n o size w bufs := by
  obtain ⟨rs, cs, h1, h2, h3⟩ := h
  refine ⟨rs, cs, h1, h2, fun c hc => ?_⟩
  obtain ⟨b, e1, e2, e3⟩ := h3 c hc
  exact ⟨b, e1, e2, fun y x hy hx => by rw [e3 y x hy hx, e c y x hc hy hx]⟩

/-- Two pictures are the same on the canvas. -/
def Alike (h : ImageHeader) (v w : Pic) : Prop := ∀ c y x, c < channelCount h → y < h.size.height → x < h.size.width → v c y x = w c y x

theorem chained_alike (h : ImageHeader) : ∀ (frames : List (FrameHeader × Pic)) (before : Option Nat) (d e : Drawing), Chained h before frames → Alike h d.canvas e.canvas →
    (∀ i, Alike h (d.slots i) (e.slots i)) → (∀ i, before = some i → Alike h (d.slots i) d.canvas) → (before = none → ∀ i, Alike h (d.slots i) d.canvas) →
    Alike h (drawing overCanvas h frames d).canvas (drawing overSlot h frames e).canvas := by
  intro frames
  induction frames with
  | nil => intro _ d e _ h1 _ _ _; exact h1
  | cons x xs ih =>
    intro before d e hc h1 h2 h3 h4
    have hw : Alike h (overCanvas h x.1 x.2 d) (overSlot h x.1 x.2 e) := by
      intro c r q hc' hr hq
      unfold overCanvas overSlot
      split
      · unfold combined
        dsimp only
        split
        · rw [h2 _ c r q hc' hr hq]
        · rfl
      · rename_i hcov
        rw [← h2 _ c r q hc' hr hq]
        cases before with
        | none => exact (h4 rfl _ c r q hc' hr hq).symm
        | some i =>
          rcases hc.1 i rfl with hall | hs
          · exact absurd (hall r q hr hq) hcov
          · rw [hs c hc']
            exact (h3 i rfl c r q hc' hr hq).symm
    refine ih (some x.1.saveAsReference) _ _ hc.2 hw (fun i => ?_) (fun i hi => ?_) (fun hi => by cases hi)
    · show Alike h (if i = _ then _ else _) (if i = _ then _ else _)
      split
      · exact hw
      · exact h2 i
    · cases hi
      show Alike h (if _ = _ then _ else _) _
      rw [if_pos rfl]
      exact fun _ _ _ _ _ _ => rfl

theorem stacked_drawn {h : ImageHeader} {frames : List (FrameHeader × Pic)} (hc : Chained h none frames) : Alike h (stacked h frames) (drawn h frames) :=
  chained_alike h frames none blank blank hc (fun _ _ _ _ _ _ => rfl) (fun _ _ _ _ _ _ _ => rfl) (fun _ hi => by cases hi) (fun _ _ _ _ _ _ _ _ => rfl)

/-- C98 (partial: frames as in `Addition`). If every frame covers the image or names the slot of the frame before it, the image shows the picture that the format defines. -/
theorem C98_layers_partial (D : DecodeParts) {file : List UInt8} {h : ImageHeader} {icc : Option (List Nat)} {frames : List (FrameHeader × Pic)} (hf : DrawnFile file h icc frames)
    (hc : Chained h none frames) {fuel : Nat} (hfu : frames.length ≤ fuel) (procs : Int) :
    ∃ img s', coreDecode D fuel procs none (BR.new file) = (.ok (some img), s') ∧ Made img img.buffers h ∧ img.icc = icc ∧
      ShowsTurned (channelCount h) h.orientation h.size (drawn h frames) img.buffers := by
  obtain ⟨img, s', e, m, i, t⟩ := C98_stacked_partial D hf hfu procs
  exact ⟨img, s', e, m, i, t.alike (stacked_drawn hc)⟩

/-- C98, as seen through the package: the bytes of the Go image of a file with 8-bit samples are those of the picture that the format defines. -/
theorem C98_pixels_partial (D : DecodeParts) (curve : Nat → F32 → F32) {file : List UInt8} {h : ImageHeader} {icc : Option (List Nat)} {frames : List (FrameHeader × Pic)}
    (hf : DrawnFile file h icc frames) (hc : Chained h none frames) (h8 : Ordinary8 h)
    (hr : ∀ c y x, c < channelCount h → y < h.size.height → x < h.size.width → 0 ≤ drawn h frames c y x ∧ drawn h frames c y x < 256) {fuel : Nat} (hfu : frames.length ≤ fuel)
    (procs : Int) (peeks : Bool) :
    ∃ px planes, readerDecode D curve fuel procs ⟨file, true, peeks⟩ = .ok px ∧ px.gray = decide (h.colour.space = 1) ∧ px.width = (orientedSize h.orientation h.size).width ∧
      px.height = (orientedSize h.orientation h.size).height ∧ px.pix = pixBytes planes px.height px.width ∧ planes.length = shownPlanes h ∧
      ∀ (c : Nat) (m : List (List Nat)), planes[c]? = some m → PlaneShows h (drawn h frames c) m := by
  obtain ⟨hS, img, s', enc, e, hm, hn, hicc, ht⟩ := drawnFile_ok D hf hfu
  exact pixels_of D curve hf.viewable hf.notXyb hS e hn hicc (ht.alike (stacked_drawn hc)) h8 hr procs peeks

end Jxl
