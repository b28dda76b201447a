import Verif.Proofs.VarDCTInvert
import Verif.Props.ModularCoding

/-!
# Properties: VarDCT frames
-/
namespace Jxl
open Spec

/-- A plane for an extra channel. -/
def extraBuffer (f : FrameHeader) (m : List (List Int)) : ImageBuffer := ⟨8 * ((f.size.width + 7) / 8), 8 * ((f.size.height + 7) / 8), 0, [], m⟩

/-- The planes of a frame before anything is decoded. -/
def varPlanes (h : ImageHeader) (f : FrameHeader) : List ImageBuffer :=
  List.replicate 3 (varBuffer f (List.replicate (8 * ((f.size.height + 7) / 8)) (List.replicate (8 * ((f.size.width + 7) / 8)) (F32.fin 0)))) ++
    List.replicate h.extra.length (extraBuffer f (List.replicate (8 * ((f.size.height + 7) / 8)) (List.replicate (8 * ((f.size.width + 7) / 8)) 0)))

theorem var_colours {h : ImageHeader} {f : FrameHeader} (hp : PlainVarDCT h f) : frameColourCount h f.encoding = 3 := by
  unfold frameColourCount
  rw [hp.encoding]
  cases h.xyb <;> rfl

theorem var_planes {h : ImageHeader} {f : FrameHeader} (hp : PlainVarDCT h f) : framePlanes h f = .ok (varPlanes h f) := by
  have hn := var_colours hp
  have hs := hp.small
  have hplane : ∀ c, c < 3 → newPlane h f ⟨8 * ((f.size.width + 7) / 8), 8 * ((f.size.height + 7) / 8)⟩ c =
      .ok (varBuffer f (List.replicate (8 * ((f.size.height + 7) / 8)) (List.replicate (8 * ((f.size.width + 7) / 8)) (F32.fin 0)))) := by
    intro c hc
    unfold newPlane planeDim planeIsFloat
    rw [hn, if_pos ⟨hc, hc⟩, if_pos hc, hp.jpegX, hp.jpegY, hp.encoding]
    have e : ([0, 0, 0] : List Nat)[c]? = some 0 := by
      rcases (by omega : c = 0 ∨ c = 1 ∨ c = 2) with rfl | rfl | rfl <;> rfl
    rw [idx_of_getElem? _ _ _ e, Res.bind_ok, Res.bind_ok, Res.bind_ok, Res.bind_ok]
    rw [show (h.xyb || ((0 : Nat) == 0) || h.bitDepth.expBits != 0) = true by simp, if_pos rfl]
    dsimp only
    rw [Nat.shiftRight_zero, Nat.shiftRight_zero, i32_ofNat (by omega), i32_ofNat (by omega)]
    unfold newImageBuffer
    rw [if_neg (by omega), if_neg (by omega), if_neg (by decide), makeMatrix_table, Res.bind_ok]
    rfl
  have hextra : ∀ c, c < h.extra.length → newPlane h f ⟨8 * ((f.size.width + 7) / 8), 8 * ((f.size.height + 7) / 8)⟩ (3 + c) =
      .ok (extraBuffer f (List.replicate (8 * ((f.size.height + 7) / 8)) (List.replicate (8 * ((f.size.width + 7) / 8)) 0))) := by
    intro c hc
    unfold newPlane planeDim planeIsFloat
    rw [hn, if_neg (by omega), if_neg (by omega), Res.bind_ok, show ((3 + c : Nat) : Int) - (3 : Nat) = c by omega, idx_nat _ _ _ (List.getElem?_eq_getElem hc), Res.bind_ok, Res.bind_ok,
      (hp.extra _ (List.getElem_mem hc)).1, if_neg (by decide)]
    dsimp only
    rw [i32_ofNat (by omega), i32_ofNat (by omega)]
    unfold newImageBuffer
    rw [if_neg (by omega), if_neg (by omega), if_pos rfl, makeMatrix_table, Res.bind_ok]
    rfl
  have hrest : ∀ n c, c + n = h.extra.length → newPlanes h f ⟨8 * ((f.size.width + 7) / 8), 8 * ((f.size.height + 7) / 8)⟩ n (3 + c) =
      .ok (List.replicate n (extraBuffer f (List.replicate (8 * ((f.size.height + 7) / 8)) (List.replicate (8 * ((f.size.width + 7) / 8)) 0)))) := by
    intro n
    induction n with
    | zero => intro c _; rfl
    | succ n ih =>
      intro c hc
      rw [newPlanes, hextra c (by omega), Res.bind_ok, Nat.add_assoc, ih (c + 1) (by omega), Res.bind_ok, List.replicate_succ]
  unfold framePlanes
  rw [varPadded hp, Res.bind_ok, hn, Nat.add_comm 3, newPlanes, hplane 0 (by decide), Res.bind_ok, newPlanes, hplane 1 (by decide), Res.bind_ok, newPlanes, hplane 2 (by decide), Res.bind_ok,
    show 0 + 1 + 1 + 1 = 3 + 0 from rfl, hrest h.extra.length 0 (Nat.zero_add _)]
  rfl

/-- The planes of the frame hold what has been coded: the first three, which are floats, the colours after the filters, the others, which are integers, the extra channels. -/
def ShowsVarDCT [Arith F32] (F : CodedFrame) (h : ImageHeader) (f : FrameHeader) (cos : Nat → Nat → Nat → F32) (B : Nat → Nat → F32) (V : VarParts F32)
    (weights : List (List (List (List F32)))) (out : List ImageBuffer) : Prop :=
  out.length = 3 + h.extra.length ∧
    (∃ planes, F.ShownIn h f cos B V.scale V.pow weights planes ∧ F.Filtered f V.filters.stepMultiplier planes ((out.take 3).map ImageBuffer.floats)) ∧
    (∀ b ∈ out, b.width = ((8 * ((f.size.width + 7) / 8) : Nat) : Int) ∧ b.height = ((8 * ((f.size.height + 7) / 8) : Nat) : Int)) ∧ (∀ b ∈ out.take 3, b.bufferType = 1) ∧
    ∀ c, c < h.extra.length → ∃ b, out[3 + c]? = some b ∧ b.IntPicture (8 * ((f.size.height + 7) / 8)) (8 * ((f.size.width + 7) / 8)) ∧ ∀ y x, y < f.size.height → x < f.size.width → sample b.ints y x = some (F.channels.v c y x)

/-- The extra channels go to their planes. -/
theorem storeExtra_ok (I : FloatImpl) {h : ImageHeader} {f : FrameHeader} (hp : PlainVarDCT h f) {F : CodedFrame} (hd3 : F.dequant.length = 3)
    (hrange : ∀ c y x, c < h.extra.length → y < f.size.height → x < f.size.width → |F.channels.v c y x| < 2 ^ 24) {res : List MChan}
    (hres : res.map MChan.toChan = (imageChannels h.extra.length f.size F.channels.v).map MChan.toChan) {a b c : List (List F32)}
    (hT : Table (8 * ((f.size.height + 7) / 8)) (8 * ((f.size.width + 7) / 8)) a ∧ Table (8 * ((f.size.height + 7) / 8)) (8 * ((f.size.width + 7) / 8)) b ∧
      Table (8 * ((f.size.height + 7) / 8)) (8 * ((f.size.width + 7) / 8)) c) :
    ∃ ex, storeModular I h f (F.dequant.map F32.fin) (res.map fun (c : MChan) => c.buffer) (putFloats [a, b, c] (varPlanes h f)) =
        .ok (varBuffer f a :: varBuffer f b :: varBuffer f c :: ex) ∧ ex.length = h.extra.length ∧
      (∀ b ∈ ex, b.width = ((8 * ((f.size.width + 7) / 8) : Nat) : Int) ∧ b.height = ((8 * ((f.size.height + 7) / 8) : Nat) : Int)) ∧
      ∀ c, c < h.extra.length → ∃ b, ex[c]? = some b ∧ b.IntPicture (8 * ((f.size.height + 7) / 8)) (8 * ((f.size.width + 7) / 8)) ∧ ∀ y x, y < f.size.height → x < f.size.width → sample b.ints y x = some (F.channels.v c y x) := by
  obtain ⟨m1, m2⟩ := imageChannels_holds h.extra.length f.size F.channels.v ⟨hp.framed.height.1, hp.framed.width.1⟩ hres
  have hn := var_colours hp
  have hm0 : modularColours h f = 0 := by
    unfold modularColours
    rw [hp.encoding]
    rfl
  have hg : (globalChannels h f).length = h.extra.length := by simp [globalChannels, hm0]
  have hput : putFloats [a, b, c] (varPlanes h f) = varBuffer f a :: varBuffer f b :: varBuffer f c ::
      List.replicate h.extra.length (extraBuffer f (List.replicate (8 * ((f.size.height + 7) / 8)) (List.replicate (8 * ((f.size.width + 7) / 8)) 0))) := rfl
  have hex : ∀ (i : Nat) b', (putFloats [a, b, c] (varPlanes h f))[3 + i]? = some b' →
      b' = extraBuffer f (List.replicate (8 * ((f.size.height + 7) / 8)) (List.replicate (8 * ((f.size.width + 7) / 8)) 0)) := by
    intro i b' hb
    rw [hput, Nat.add_comm 3] at hb
    exact List.eq_of_mem_replicate (List.mem_of_getElem? hb)
  have hdq : F.dequant.map F32.fin = [F32.fin (F.dequant.getD 0 0), F32.fin (F.dequant.getD 1 0), F32.fin (F.dequant.getD 2 0)] := by
    match F.dequant, hd3 with
    | [a, b, c], _ => rfl
  have hwf : (8 * ((f.size.width + 7) / 8)) ≥ f.size.width := by omega
  have hhf : (8 * ((f.size.height + 7) / 8)) ≥ f.size.height := by omega
  obtain ⟨out, e1, e2, e3, e4⟩ := C80_planes_partial I (h := h) (f := f) (Or.inl hp.encoding) (mods := res.map fun c => c.buffer) (bufs := putFloats [a, b, c] (varPlanes h f)) (v := F.channels.v)
    (fun k => F32.fin (F.dequant.getD k 0)) (by rw [hput, hn]; simp; omega) (by rw [m1, hg]) (by rw [hp.encoding]; intro h; cases h) m2
    (by
      intro b' hb'
      rw [hput] at hb'
      simp only [List.mem_cons] at hb'
      rcases hb' with rfl | rfl | rfl | hb'
      · exact Or.inr ⟨rfl, _, _, hT.1, hhf, hwf⟩
      · exact Or.inr ⟨rfl, _, _, hT.2.1, hhf, hwf⟩
      · exact Or.inr ⟨rfl, _, _, hT.2.2, hhf, hwf⟩
      · rw [List.eq_of_mem_replicate hb']
        exact Or.inl ⟨rfl, _, _, table_replicate _ _ _, hhf, hwf⟩)
    (by rw [hp.encoding]; intro h; cases h)
  have epl : ∀ k, planeFor (frameColourCount h f.encoding) h.xyb (f.encoding == 1) k = 3 + k := by
    intro k
    unfold planeFor
    rw [hn, hp.encoding, if_neg (by decide), Nat.add_comm]
  have hfirst : ∀ i, i < 3 → out[i]? = (putFloats [a, b, c] (varPlanes h f))[i]? := fun i hi => e3 i fun k _ => by rw [epl]; omega
  have hlen : out.length = 3 + h.extra.length := by rw [e2, hput]; simp; omega
  have hex4 : ∀ k, k < h.extra.length → ∃ b', out[3 + k]? = some b' ∧ (b'.width = ((8 * ((f.size.width + 7) / 8) : Nat) : Int) ∧ b'.height = ((8 * ((f.size.height + 7) / 8) : Nat) : Int)) ∧
      b'.IntPicture (8 * ((f.size.height + 7) / 8)) (8 * ((f.size.width + 7) / 8)) ∧ ∀ y x, y < f.size.height → x < f.size.width → sample b'.ints y x = some (F.channels.v k y x) := by
    intro k hk
    obtain ⟨b, b', g1, g2, g3, g4, -⟩ := e4 k (by rw [m1]; exact hk)
    rw [epl] at g1 g2
    have hb := hex k b g1
    have g5 := (g4 (by rw [hp.encoding]; rintro ⟨-, h, -⟩; cases h) (fun y x hy hx => hrange k y x hk hy hx)).1 (by rw [hb]; rfl)
    have hw' : b'.width = ((8 * ((f.size.width + 7) / 8) : Nat) : Int) := by
      rw [g3.2.2.1, hb]
      unfold extraBuffer
      push_cast
      rfl
    have hh' : b'.height = ((8 * ((f.size.height + 7) / 8) : Nat) : Int) := by
      rw [g3.2.1, hb]
      unfold extraBuffer
      push_cast
      rfl
    refine ⟨b', g2, ⟨hw', hh'⟩, ⟨?_, hh', hw', g3.2.2.2.1 _ _ ?_⟩, ?_⟩
    · rw [g3.1, hb]
      rfl
    · rw [hb]
      exact table_replicate _ _ _
    · intro y x hy hx
      rw [g5 y x, if_pos ⟨hy, hx⟩]
  have hout : out = varBuffer f a :: varBuffer f b :: varBuffer f c :: out.drop 3 := by
    match out, hfirst, hlen with
    | x :: y :: z :: l, hf, _ =>
      have h0 := hf 0 (by omega)
      have h1 := hf 1 (by omega)
      have h2 := hf 2 (by omega)
      rw [hput] at h0 h1 h2
      cases h0
      cases h1
      cases h2
      rfl
    | [], _, hl => simp at hl; omega
    | [_], _, hl => simp at hl; omega
    | [_, _], _, hl => simp at hl; omega
  refine ⟨out.drop 3, ?_, by rw [List.length_drop, hlen]; omega, ?_, ?_⟩
  · rw [hdq, ← hout]
    exact e1
  · intro b' hb'
    obtain ⟨k, hk⟩ := List.mem_iff_getElem?.1 hb'
    rw [List.getElem?_drop] at hk
    have hk' := (List.getElem?_eq_some_iff.1 hk).1
    obtain ⟨b'', h1, h2, -⟩ := hex4 k (by omega)
    rw [hk] at h1
    cases h1
    exact h2
  · intro k hk
    obtain ⟨b', h1, -, h3, h4⟩ := hex4 k hk
    exact ⟨b', by rw [List.getElem?_drop]; exact h1, h3, h4⟩

/-- Without filters the planes stay as they are. -/
theorem Filtered.same {α : Type} [Arith α] {F : CodedFrame} {f : FrameHeader} {step : α} {before after : List (List (List α))} (h : F.Filtered f step before after) (hg : f.restoration.gab = false)
    (hi : f.restoration.iterations = 0) : after = before := by
  obtain ⟨p, s, -, h1, h2⟩ := h
  have hp : gaborished f (8 * ((f.size.height + 7) / 8)) (8 * ((f.size.width + 7) / 8)) p = p := by
    unfold gaborished
    rw [hg]
    rfl
  rw [hi, hp] at h2
  obtain ⟨a, b, c, rfl, ha, hb, hc⟩ := holds3_iff.1 h1
  obtain ⟨a', b', c', rfl, ha', hb', hc'⟩ := holds3_iff.1 h2
  rw [C27_same ha' ha, C27_same hb' hb, C27_same hc' hc]

theorem varLF_lt {f : FrameHeader} (hn : varGroups f < 2 ^ 31) : varLFGroups f < 2 ^ 31 := by
  have h1 := lfAcross f.size.width
  have h2 := lfAcross f.size.height
  have hA : 0 < groupsAcross 256 f.size.width := Nat.succ_pos _
  have hB : 0 < groupsAcross 256 f.size.height := Nat.succ_pos _
  exact Nat.lt_of_le_of_lt (Nat.mul_le_mul (by omega) (by omega)) hn

theorem varFrame_ok (A : Arith F32) (V : VarParts F32) (P : FrameParts) (I : FloatImpl) (lfBuffer : List (List (List F32))) {h : ImageHeader} {f : FrameHeader} (hp : PlainVarDCT h f)
    (hn : varGroups f < 2 ^ 31) {cos : Nat → Nat → Nat → F32} {B : Nat → Nat → F32} (hV : V.Ok cos B) {F : CodedFrame} (hF : F.Ok f) {weights : List (List (List (List F32)))}
    (hw : allWeights V.quant F.params 0 = .ok weights) {l : Layout} {toc : TOC} {readers : List SectionReader} {data : Nat → List UInt8} {start stop : Nat → Nat} {St : Nat → BR → Prop}
    (hsec : ReadsSections toc readers (2 + varLFGroups f + varGroups f) data start stop St) (hS : VarDCTAt h F f data start stop) {s s1 : BR}
    (hr : setupBitReaders toc s = (.ok readers, s1)) (hst : St 0 s1) :
    ∃ out s', decodeFrame (P.withVarDCT A V I lfBuffer) I h f l toc s = (.ok out, s') ∧ St (2 + varLFGroups f + varGroups f) s' ∧ ShowsVarDCT F h f cos B V weights out := by
  have hgrid := varGrid hp hn
  obtain ⟨p, hA, hE⟩ := hS.global
  obtain ⟨hg, hc, hd3⟩ := varGlobal_ok hp hA hE
  obtain ⟨g, s2, e2, ⟨st, rfl, hgt, hext⟩, st2⟩ := hsec 0 (by omega) hg s1 hst
  obtain ⟨fb', res, lfs, s3, e3, st3, hres, hsh, hlen, hL⟩ := varSections_ok hp hgrid hF hc hd3 hgt hsec hS hext hn (varLF_lt hn) hV hw ⟨8 * ((f.size.width + 7) / 8), 8 * ((f.size.height + 7) / 8)⟩ lfBuffer
    (List.replicate 3 (List.replicate (8 * ((f.size.height + 7) / 8)) (List.replicate (8 * ((f.size.width + 7) / 8)) (F32.fin 0)))) rfl (by
      intro c m hm
      rw [List.eq_of_mem_replicate (List.mem_of_getElem? hm)]
      exact table_replicate _ _ _) s2 st2
  obtain ⟨a, b, c, rfl⟩ : ∃ a b c, fb' = [a, b, c] := by
    match fb', hsh.1 with
    | [a, b, c], _ => exact ⟨a, b, c, rfl⟩
  have hT := And.intro (hsh.2 0 a rfl).1 (And.intro (hsh.2 1 b rfl).1 (hsh.2 2 c rfl).1)
  obtain ⟨ex, es, lex, hsize, hch⟩ := storeExtra_ok I hp hd3 hS.range hres hT
  obtain ⟨a', b', c', e4, hfil⟩ := runFilters_ok A (ex := ex) (st := st) hV.filters hp hF hgrid hlen hL P hT
  refine ⟨varBuffer f a' :: varBuffer f b' :: varBuffer f c' :: ex, s3, ?_, st3, by simp only [List.length_cons, lex]; omega, ⟨[a, b, c], hsh, hfil⟩, ?_, ?_, ?_⟩
  · unfold decodeFrame FrameParts.withVarDCT
    rw [hp.encoding, if_pos rfl]
    dsimp only
    rw [Rd.bind_ok (lift_ok (varLayout_ok hp hn) s)]
    unfold decodeVarDCTFrame
    rw [Rd.bind_ok hr, Rd.bind_ok e2, Rd.bind_ok (lift_ok (varPadded hp) s2), Rd.bind_ok (lift_ok (var_planes hp) s2)]
    rw [show List.map ImageBuffer.floats (List.take 3 (varPlanes h f)) =
      List.replicate 3 (List.replicate (8 * ((f.size.height + 7) / 8)) (List.replicate (8 * ((f.size.width + 7) / 8)) (F32.fin 0))) from rfl]
    rw [Rd.bind_ok e3]
    dsimp only
    rw [Rd.bind_ok (lift_ok (show storeModular I h f ((F.varGlobal st).dequant.map F32.fin) (res.map fun (c : MChan) => c.buffer) (putFloats [a, b, c] (varPlanes h f)) = _ from es) s3)]
    refine lift_ok ?_ s3
    unfold finishPlanes
    rw [hp.jpegX, hp.jpegY, notSubsampled]
    dsimp only
    exact e4
  · intro b hb
    simp only [List.mem_cons] at hb
    rcases hb with rfl | rfl | rfl | hb
    · exact ⟨rfl, rfl⟩
    · exact ⟨rfl, rfl⟩
    · exact ⟨rfl, rfl⟩
    · exact hsize b hb
  · intro b hb
    simp only [List.take, List.mem_cons, List.not_mem_nil, or_false] at hb
    rcases hb with rfl | rfl | rfl <;> rfl
  · intro k hk
    rw [Nat.add_comm]
    exact hch k hk

/-- **C90** for frames with one section, in part. If the bits from `p` to `q` code a VarDCT frame, then the frame decodes to the samples of its blocks, and the reader stands at the end of what was coded. `A`
is the arithmetic of `float32`, whatever it is; `V` holds the tables and functions that the code computes in floating point, `hV` says what they are tables of. -/
theorem C90_single_partial (A : Arith F32) (V : VarParts F32) (P : FrameParts) (I : FloatImpl) (lfBuffer : List (List (List F32))) {h : ImageHeader} {f : FrameHeader} (hp : PlainVarDCT h f)
    (hn : varGroups f < 2 ^ 31) {cos : Nat → Nat → Nat → F32} {B : Nat → Nat → F32} (hV : V.Ok cos B) {F : CodedFrame} (hF : F.Ok f) {weights : List (List (List (List F32)))}
    (hw : allWeights V.quant F.params 0 = .ok weights) {l : Layout} {toc : TOC} (htoc : toc.lengths.length = 1) {data : List UInt8} {start : Nat → Nat}
    (hS : VarDCTAt h F f (fun _ => data) start (fun i => start (i + 1))) {s : BR} (hs : AtBit s (start 0)) (hdata : s.data = data) :
    ∃ out s', decodeFrame (P.withVarDCT A V I lfBuffer) I h f l toc s = (.ok out, s') ∧ ShowsVarDCT F h f cos B V weights out ∧
      AtBit s' (start (2 + varLFGroups f + varGroups f)) ∧ s'.data = data := by
  obtain ⟨readers, r1, r2⟩ := C18_single toc s htoc
  have hsec : ReadsSections toc readers (2 + varLFGroups f + varGroups f) (fun _ => data) start (fun i => start (i + 1)) (fun i s => AtBit s (start i) ∧ s.data = data) := by
    intro i hi β m G hm s hs
    obtain ⟨v, s', e1, e2, e3, e4⟩ := hm s hs.1 hs.2
    refine ⟨v, s', ?_, e4, e2, e3⟩
    unfold onSection
    rw [Rd.bind_ok (lift_ok (r2 i) s)]
    exact e1
  obtain ⟨out, s', e, ⟨h1, h2⟩, h3⟩ := varFrame_ok A V P I lfBuffer hp hn hV hF hw (l := l) hsec hS r1 ⟨hs, hdata⟩
  exact ⟨out, s', e, h3, h1, h2⟩

/-- **C90** for frames with a section for every group, in part. -/
theorem C90_frame_partial (A : Arith F32) (V : VarParts F32) (P : FrameParts) (I : FloatImpl) (lfBuffer : List (List (List F32))) {h : ImageHeader} {f : FrameHeader} (hp : PlainVarDCT h f)
    (hn : varGroups f < 2 ^ 31) {cos : Nat → Nat → Nat → F32} {B : Nat → Nat → F32} (hV : V.Ok cos B) {F : CodedFrame} (hF : F.Ok f) {weights : List (List (List (List F32)))}
    (hw : allWeights V.quant F.params 0 = .ok weights) {l : Layout} {toc : TOC} (hperm : toc.permutation = none) (htoc : toc.lengths.length = 2 + varLFGroups f + varGroups f)
    {data : List UInt8} {k : Nat} (hk : k + toc.lengths.sum ≤ data.length) (hb : ∀ i, i < toc.lengths.length → k + (toc.lengths.take i).sum < data.length) {stop : Nat → Nat}
    (hS : VarDCTAt h F f (fun i => storedSection (data.drop k) toc.lengths i ++ [0, 0, 0, 0]) (fun _ => 0) stop) {s : BR} (hs : AtBit s (8 * k)) (hdata : s.data = data) :
    ∃ out s', decodeFrame (P.withVarDCT A V I lfBuffer) I h f l toc s = (.ok out, s') ∧ ShowsVarDCT F h f cos B V weights out ∧ AtBit s' (8 * (k + toc.lengths.sum)) ∧ s'.data = data := by
  have hi0 : s.index = 0 ∧ s.pos = k := by
    rcases hs with ⟨h1, h2, h3⟩ | ⟨h1, h2, h3, h4, h5⟩
    · omega
    · omega
  obtain ⟨readers, s1, r1, r2, r3, r4⟩ := C18_unpermuted_partial toc s hi0.1 (by rw [hi0.2, hdata]; exact hk) (by rw [hi0.2, hdata]; exact hb) (by rw [htoc]; omega) hperm
  have hd1 : s1.data = data := by
    obtain ⟨s', h1, h2, h3, h4⟩ := readSections_ok toc.lengths s hi0.1 (by rw [hi0.2, hdata]; exact hk) (by rw [hi0.2, hdata]; exact hb)
    unfold setupBitReaders at r1
    rw [if_pos (by rw [htoc]; omega), Rd.bind_ok h1, Rd.pure_eq] at r1
    have := congrArg Prod.snd r1
    dsimp only at this
    rw [← this, h4, hdata]
  have hsec : ReadsSections toc readers (2 + varLFGroups f + varGroups f) (fun i => storedSection (data.drop k) toc.lengths i ++ [0, 0, 0, 0]) (fun _ => 0) stop (fun _ s => s = s1) := by
    intro i hi β m G hm s' hs'
    obtain ⟨v, s2, e1, -, -, e4⟩ := hm _ (AtBit.new _) rfl
    refine ⟨v, s', onSection_own ?_ e1 s', e4, hs'⟩
    rw [r4 i (by omega), hdata, hi0.2, hperm]
    rfl
  obtain ⟨out, s', e, rfl, h3⟩ := varFrame_ok A V P I lfBuffer hp hn hV hF hw (l := l) hsec hS r1 rfl
  exact ⟨out, s', e, h3, Or.inl ⟨r3, by rw [r2, hi0.2, hd1]; omega, by rw [r2, hi0.2]⟩, hd1⟩

end Jxl
