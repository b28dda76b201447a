import Verif.Proofs.ModularGroups
import Verif.Props.FrameDecode
import Verif.Props.FrameHeader
import Verif.Props.TOC
import Verif.Props.TreeCoding

/-!
# C84: modular frames decode to what was coded
-/
namespace Jxl
open Spec

theorem layout_ok {f : FrameHeader} (hf : Framed f) (hn : groupsAcross f.groupDim f.size.width * groupsAcross f.groupDim f.size.height < 2 ^ 31) :
    frameLayout f = .ok ⟨groupsAcross f.groupDim f.size.width, groupsAcross (f.groupDim * 8) f.size.width,
      groupsAcross f.groupDim f.size.width * groupsAcross f.groupDim f.size.height, groupsAcross (f.groupDim * 8) f.size.width * groupsAcross (f.groupDim * 8) f.size.height⟩ := by
  obtain ⟨hm, hg1, hg2, hlg, hu⟩ := hf.dims
  obtain ⟨hw, hw2⟩ := hf.width
  obtain ⟨hh, hh2⟩ := hf.height
  have d8 : ∀ d, groupsAcross (f.groupDim * 8) d ≤ groupsAcross f.groupDim d := by
    intro d
    unfold groupsAcross
    rw [← Nat.div_div_eq_div_mul]
    have := Nat.div_le_self ((d - 1) / f.groupDim) 8
    omega
  have hn8 := Nat.lt_of_le_of_lt (Nat.mul_le_mul (d8 f.size.width) (d8 f.size.height)) hn
  unfold frameLayout
  rw [hu, ceilDiv_ok hw (by omega) (by omega), Res.bind_ok, ceilDiv_ok hw (by omega) (by omega), Res.bind_ok, ceilDiv_ok hh (by omega) (by omega), Res.bind_ok,
    ceilDiv_ok hh (by omega) (by omega), Res.bind_ok]
  unfold u32
  unfold groupsAcross at hn hn8 ⊢
  rw [Nat.mod_eq_of_lt (Nat.lt_trans hn (by decide)), Nat.mod_eq_of_lt (Nat.lt_trans hn8 (by decide))]

theorem plain_side {d : Nat} (h0 : 0 < d) (h1 : d ≤ 2 ^ 30) : paddedFrameSide false d 0 = .ok d := by
  unfold paddedFrameSide
  rw [if_neg (by decide), show 1 <<< 0 = 1 from rfl, ceilDiv_ok h0 (by omega) (by decide), Res.bind_ok]
  unfold u32
  congr 1
  omega

theorem plain_padded {h : ImageHeader} {f : FrameHeader} (hp : Plain h f) : paddedFrameSize f = .ok f.size := by
  unfold paddedFrameSize
  rw [hp.modular, hp.jpegX, hp.jpegY]
  rw [show maxList [0, 0, 0] = 0 from rfl, show ((1 : Nat) == 0) = false from rfl, plain_side hp.framed.height.1 hp.small.1, Res.bind_ok,
    plain_side hp.framed.width.1 hp.small.2, Res.bind_ok]

theorem plain_colours {h : ImageHeader} {f : FrameHeader} (hp : Plain h f) : frameColourCount h f.encoding = (if h.colour.space = 1 then 1 else 3) := by
  unfold frameColourCount
  rw [hp.xyb, hp.modular]
  rfl

theorem plain_plane {h : ImageHeader} {f : FrameHeader} (hp : Plain h f) {c : Nat} (hc : c < channelCount h) :
    newPlane h f f.size c = .ok ⟨f.size.width, f.size.height, 0, [], List.replicate f.size.height (List.replicate f.size.width 0)⟩ := by
  have hn : frameColourCount h f.encoding + h.extra.length = channelCount h := by rw [plain_colours hp]; rfl
  have ht : planeIsFloat h f c = .ok false := by
    unfold planeIsFloat
    by_cases hcc : c < frameColourCount h f.encoding
    · rw [if_pos hcc, hp.xyb, hp.modular, hp.integers.1]
      rfl
    · have hl : c - frameColourCount h f.encoding < h.extra.length := by omega
      rw [if_neg hcc, show (c : Int) - (frameColourCount h f.encoding : Int) = ((c - frameColourCount h f.encoding : Nat) : Int) by omega,
        idx_nat (List.getElem?_eq_getElem hl), Res.bind_ok, (hp.integers.2 _ (List.getElem_mem hl)).1]
      rfl
  have hd : planeDim h f f.size c = .ok f.size := by
    unfold planeDim
    by_cases hcc : c < 3 ∧ c < frameColourCount h f.encoding
    · rw [if_pos hcc, hp.jpegX, hp.jpegY]
      have e : ([0, 0, 0] : List Nat)[c]? = some 0 := by
        obtain ⟨h3, -⟩ := hcc
        rcases (by omega : c = 0 ∨ c = 1 ∨ c = 2) with rfl | rfl | rfl <;> rfl
      rw [idx_nat e, Res.bind_ok, Res.bind_ok]
      rfl
    · rw [if_neg hcc]
  have h1 := hp.small
  unfold newPlane
  rw [hd, Res.bind_ok, ht, Res.bind_ok, if_neg (by decide), i32_ofNat (by omega), i32_ofNat (by omega)]
  unfold newImageBuffer
  rw [if_neg (by omega), if_neg (by omega), if_pos rfl, makeMatrix_table, Res.bind_ok]

theorem plain_planes {h : ImageHeader} {f : FrameHeader} (hp : Plain h f) :
    framePlanes h f = .ok (List.replicate (channelCount h) ⟨f.size.width, f.size.height, 0, [], List.replicate f.size.height (List.replicate f.size.width 0)⟩) := by
  have hn : frameColourCount h f.encoding + h.extra.length = channelCount h := by rw [plain_colours hp]; rfl
  unfold framePlanes
  rw [plain_padded hp, Res.bind_ok, hn]
  have key : ∀ n c, c + n ≤ channelCount h → newPlanes h f f.size n c =
      .ok (List.replicate n ⟨f.size.width, f.size.height, 0, [], List.replicate f.size.height (List.replicate f.size.width 0)⟩) := by
    intro n
    induction n with
    | zero => intro c _; rfl
    | succ n ih =>
      intro c hc
      rw [newPlanes, plain_plane hp (by omega), Res.bind_ok, ih (c + 1) (by omega), Res.bind_ok]
      rfl
  exact key _ 0 (by omega)

theorem dequant_length {data : List UInt8} {p q : Nat} {deq : List ℚ} (h : DecAt decLFDequant data p q deq) : ∃ a b c, deq = [a, b, c] := by
  obtain ⟨-, h⟩ := h
  unfold decLFDequant at h
  obtain ⟨d, r, -, h⟩ := Dec.of_bind h
  cases d with
  | true =>
    cases h
    exact ⟨_, _, _, rfl⟩
  | false =>
    rw [if_neg (by decide)] at h
    obtain ⟨a, r, -, h⟩ := Dec.of_bind h
    obtain ⟨b, r, -, h⟩ := Dec.of_bind h
    obtain ⟨c, r, -, h⟩ := Dec.of_bind h
    cases h
    exact ⟨_, _, _, rfl⟩

theorem blank_core {h : ImageHeader} {f : FrameHeader} (hm : modularColours h f = (if h.colour.space = 1 then 1 else 3)) (hsh : ∀ e ∈ h.extra, e.dimShift = 0)
    (v : Nat → Nat → Nat → Int) : (imageChannels (channelCount h) f.size v).map MChan.blank = globalBlanks h f := by
  have e1 : (imageChannels (channelCount h) f.size v).map MChan.blank = List.replicate (channelCount h) (MChan.new f.size.height f.size.width 0 0 false) := by
    unfold imageChannels
    rw [List.map_map, List.eq_replicate_iff]
    refine ⟨by simp, fun b hb => ?_⟩
    obtain ⟨c, -, rfl⟩ := List.mem_map.mp hb
    rfl
  have e2 : globalBlanks h f = List.replicate (channelCount h) (MChan.new f.size.height f.size.width 0 0 false) := by
    unfold globalBlanks globalChannels
    rw [List.eq_replicate_iff]
    refine ⟨by simp [hm, channelCount], fun b hb => ?_⟩
    obtain ⟨c, hc, rfl⟩ := List.mem_map.mp hb
    rcases List.mem_append.mp hc with h1 | h1
    · obtain ⟨-, rfl⟩ := List.mem_replicate.mp h1
      rfl
    · obtain ⟨e, he, rfl⟩ := List.mem_map.mp h1
      dsimp only
      rw [hsh e he]
      rfl
  rw [e1, e2]

theorem imageChannels_blank {h : ImageHeader} {f : FrameHeader} (hp : Plain h f) (v : Nat → Nat → Nat → Int) :
    (imageChannels (channelCount h) f.size v).map MChan.blank = globalBlanks h f := by
  refine blank_core ?_ (fun e he => (hp.integers.2 e he).2) v
  unfold modularColours
  rw [hp.modular, hp.xyb]
  by_cases hs : h.colour.space = 1
  · rw [hp.gray hs, hs]
    rfl
  · rw [if_neg hs, if_pos (show ((1 : Nat) == 1) = true from rfl), if_neg]
    rw [Bool.and_eq_true, beq_iff_eq]
    exact fun h => hs h.2

theorem tab_holds {H W : Nat} (hH : 0 < H) (hW : 0 < W) (i : Nat → Nat → Int) : HoldsPlane H W i (tab H W i) := by
  unfold tab
  rw [if_neg (by omega)]
  refine ⟨⟨by simp, ?_⟩, ?_⟩
  · intro r hr
    obtain ⟨y, -, rfl⟩ := List.mem_map.mp hr
    simp
  · intro y x hy hx
    unfold sample
    rw [List.getElem?_map, List.getElem?_range hy]
    show ((List.range W).map fun x => i y x)[x]? = _
    rw [List.getElem?_map, List.getElem?_range hx]
    rfl

theorem imageChannels_holds (n : Nat) (size : Dim) (v : Nat → Nat → Nat → Int) (hs : 0 < size.height ∧ 0 < size.width) {res : List MChan}
    (hr : res.map MChan.toChan = (imageChannels n size v).map MChan.toChan) :
    (res.map fun c => c.buffer).length = n ∧ ∀ c m, (res.map fun c => c.buffer)[c]? = some m → HoldsPlane size.height size.width (v c) m := by
  have e : (res.map fun c => c.buffer) = (List.range n).map fun c => tab size.height size.width (v c) := by
    have := congrArg (List.map Chan.buffer) hr
    rw [List.map_map] at this
    refine this.trans ?_
    unfold imageChannels
    rw [List.map_map, List.map_map]
    rfl
  rw [e]
  refine ⟨by simp, fun c m hm => ?_⟩
  rw [List.getElem?_map, Option.map_eq_some_iff] at hm
  obtain ⟨c', h1, rfl⟩ := hm
  obtain ⟨h2, h3⟩ := List.getElem?_eq_some_iff.mp h1
  rw [List.getElem_range] at h3
  subst h3
  exact tab_holds hs.1 hs.2 _

theorem notSubsampled (depth : Nat) (l : List ImageBuffer) : invertSubsampling depth [0, 0, 0] [0, 0, 0] l = .ok l := rfl

/-- What is decoded ends up in the planes. -/
theorem plain_finish (P : FrameParts) (I : FloatImpl) {h : ImageHeader} {f : FrameHeader} (hp : Plain h f) {v : Nat → Nat → Nat → Int}
    (hv : ∀ c y x, c < channelCount h → y < f.size.height → x < f.size.width → |v c y x| < 2 ^ 24) {deq : List ℚ} (hq : ∃ a b c, deq = [a, b, c]) {res : List MChan}
    (hr : res.map MChan.toChan = (imageChannels (channelCount h) f.size v).map MChan.toChan) {bufs : List ImageBuffer} (hb : framePlanes h f = .ok bufs) :
    ∃ mid out, storeModular I h f (deq.map F32.fin) (res.map fun c => c.buffer) bufs = .ok mid ∧ finishPlanes P h f mid = .ok out ∧
      ShowsPicture (channelCount h) f.size v out := by
  obtain ⟨a, b, c, rfl⟩ := hq
  obtain ⟨m1, m2⟩ := imageChannels_holds (channelCount h) f.size v ⟨hp.framed.height.1, hp.framed.width.1⟩ hr
  rw [plain_planes hp] at hb
  have hb' := (Res.ok.inj hb).symm
  have hget : ∀ (i : Nat) b, bufs[i]? = some b → b = (⟨f.size.width, f.size.height, 0, [], List.replicate f.size.height (List.replicate f.size.width 0)⟩ : ImageBuffer) := by
    intro i b hi
    rw [hb'] at hi
    exact (List.mem_replicate.mp (List.mem_of_getElem? hi)).2
  have hn : frameColourCount h f.encoding + h.extra.length = channelCount h := by rw [plain_colours hp]; rfl
  have hg : (globalChannels h f).length = channelCount h := by
    have := congrArg List.length (imageChannels_blank hp v)
    unfold globalBlanks imageChannels at this
    simpa using this.symm
  obtain ⟨out, e1, e2, -, e4⟩ := C80_planes_partial I (h := h) (f := f) (Or.inr hp.modular) (mods := res.map fun c => c.buffer) (bufs := bufs) (v := v)
    (fun k => if k = 0 then .fin a else if k = 1 then .fin b else .fin c) (by rw [hb', List.length_replicate, hn]) (by rw [m1, hg])
    (by
      intro _
      have : modularColours h f + h.extra.length = (globalChannels h f).length := by simp [globalChannels]
      omega)
    m2
    (by
      intro b hb
      obtain ⟨i, hi⟩ := List.mem_iff_getElem?.mp hb
      rw [hget i b hi]
      exact Or.inl ⟨rfl, f.size.height, f.size.width, table_replicate _ _ _, le_refl _, le_refl _⟩)
    (by
      intro _ hx
      rw [hp.xyb] at hx
      cases hx)
  refine ⟨out, out, e1, ?_, ?_, ?_⟩
  · unfold finishPlanes
    rw [hp.jpegX, hp.jpegY, notSubsampled]
    dsimp only
    unfold applyFilters
    rw [hp.filters.1, hp.filters.2]
    rfl
  · rw [e2, hb', List.length_replicate]
  · intro k hk
    obtain ⟨b, b', g1, g2, g3, g4, -⟩ := e4 k (by rw [m1]; exact hk)
    have ek : planeFor (frameColourCount h f.encoding) h.xyb (f.encoding == 1) k = k := by
      unfold planeFor
      rw [hp.xyb, hp.modular]
      rfl
    rw [ek] at g1 g2
    have eb := hget k b g1
    obtain ⟨t1, t2, t3, t4, t5⟩ := g3
    have hT : Table f.size.height f.size.width b'.ints := t4 _ _ (by rw [eb]; exact table_replicate _ _ _)
    refine ⟨b', g2, ⟨by rw [t1, eb], by rw [t2, eb], by rw [t3, eb], hT⟩, hT, ?_⟩
    intro y x hy hx
    have := (g4 (by rw [hp.xyb]; simp) (fun y x hy hx => hv k y x hk hy hx)).1 (by rw [eb]) y x
    rw [this, if_pos ⟨hy, hx⟩]

theorem plain_flags {h : ImageHeader} {f : FrameHeader} (hp : Plain h f) : refusedFlags f.flags = false := by
  unfold refusedFlags
  rw [hp.flags.1, hp.flags.2.1, hp.flags.2.2]
  rfl

theorem imageChannels_ne {h : ImageHeader} (size : Dim) (v : Nat → Nat → Nat → Int) : imageChannels (channelCount h) size v ≠ [] := by
  intro e
  have := congrArg List.length e
  unfold imageChannels channelCount at this
  simp at this
  split at this <;> omega

/-- The grids of a frame. -/
theorem frame_grids {f : FrameHeader} (hf : Framed f) (hn : groupsAcross f.groupDim f.size.width * groupsAcross f.groupDim f.size.height < 2 ^ 31) {l : Layout} (hl : frameLayout f = .ok l) :
    (∀ i, i < l.numGroups → ∃ j, lfGroupFor l i = .ok j) ∧
      ∀ i, i < l.numLFGroups → ∃ p a, gridLocation l.lfGroupRowStride i = .ok p ∧ lfGroupArea f l i = .ok a := by
  obtain ⟨l', s, e1, e2, -, -, -, e6, e7⟩ := C26_groups_partial f hf hn
  rw [hl] at e1
  obtain rfl := Res.ok.inj e1
  refine ⟨?_, ?_⟩
  · intro i hi
    obtain ⟨j, -, -, -, h1, -⟩ := e7 i hi
    exact ⟨_, h1⟩
  · intro i hi
    obtain ⟨a, ha, -⟩ := e6.1 i hi
    have ha' := ha
    unfold lfGroupArea at ha'
    obtain ⟨p, hp, -⟩ := Res.of_bind ha'
    exact ⟨p, a, hp, ha⟩

/-- Frames with one section, for any way in which planes are finished. -/
theorem single_core (P : FrameParts) (I : FloatImpl) {h : ImageHeader} {f : FrameHeader} (hfr : Framed f) (hmod : f.encoding = 1)
    (hfl : refusedFlags f.flags = false) (hpad : paddedFrameSize f = .ok f.size) {v : Nat → Nat → Nat → Int}
    (hbl : (imageChannels (channelCount h) f.size v).map MChan.blank = globalBlanks h f) {planes : List ImageBuffer} (hpl : framePlanes h f = .ok planes) {deq : List ℚ}
    {R : List ImageBuffer → Prop} (hfin : ∀ res : List MChan, res.map MChan.toChan = (imageChannels (channelCount h) f.size v).map MChan.toChan →
      ∃ mid out, storeModular I h f (deq.map F32.fin) (res.map fun c => c.buffer) planes = .ok mid ∧ finishPlanes P h f mid = .ok out ∧ R out)
    (hn : groupsAcross f.groupDim f.size.width * groupsAcross f.groupDim f.size.height < 2 ^ 31) {l : Layout} (hl : frameLayout f = .ok l)
    (hps : f.passes = ⟨1, 0, [], [], []⟩ ∨ PassesStated f.passes) {toc : TOC} (htoc : toc.lengths.length = 1) {data : List UInt8} {p q : Nat} {tree : GlobalTree}
    {hd : ModHeader} {m : Nat} {enc : List MChan} (hG : GlobalAt h.bitDepth.bits f.groupDim data p q deq tree hd (imageChannels (channelCount h) f.size v) m enc)
    (hall : enc.length ≤ globalCount f.groupDim m enc) {s : BR} (hs : AtBit s p) (hdata : s.data = data) :
    ∃ out s', decodeFrame P I h f l toc s = (.ok out, s') ∧ R out ∧ AtBit s' q ∧ s'.data = data := by
  obtain ⟨readers, r1, r2⟩ := C18_single toc s htoc
  obtain ⟨s1, steps, R, e1, a1, d1, f1, -, t1, -⟩ := modGlobal_ok (hfl) (imageChannels_ne f.size v) (hbl) hG hs hdata
  have hdr : enc.drop (globalCount f.groupDim m enc) = [] := List.drop_eq_nil_of_le hall
  rw [hdr, List.map_nil] at e1
  rw [List.take_of_length_le hall] at f1
  obtain ⟨res, ea, er⟩ := t1 R f1
  obtain ⟨g1, g2⟩ := frame_grids hfr hn hl
  obtain ⟨shs, hsh⟩ : ∃ shs, passShifts f.passes f.passes.numPasses 0 3 = .ok shs := by
    rcases hps with e | ⟨⟨bits, r, e⟩, hval⟩
    · rw [e]
      exact ⟨_, rfl⟩
    · obtain ⟨shs, e1, -⟩ := passes_partition e hval
      exact ⟨shs, e1⟩
  have hgr := groups_none (h := h) (f := f) (l := l) (toc := toc) (readers := readers) (g := ⟨deq.map F32.fin, tree, ⟨steps, R, []⟩⟩) rfl (fun i => ⟨_, r2 i⟩) hsh g1 f.size g2 s1
  obtain ⟨mid, out, f1, f2, f3⟩ := hfin res er
  refine ⟨out, s1, ?_, f3, a1, d1⟩
  unfold decodeFrame
  rw [hmod, if_neg (by decide)]
  unfold decodeModularFrame
  have eg : onSection toc readers 0 (readModGlobal h f) s = (.ok ⟨deq.map F32.fin, tree, ⟨steps, R, []⟩⟩, s1) := by
    unfold onSection
    rw [Rd.bind_ok (lift_ok (r2 0) s)]
    exact e1
  have ec : decodeModularGroups h f l toc readers f.size ⟨deq.map F32.fin, tree, ⟨steps, R, []⟩⟩ s1 = (.ok res, s1) := by
    rw [hgr]
    exact lift_ok ea s1
  rw [Rd.bind_ok r1, Rd.bind_ok eg, Rd.bind_ok (lift_ok (hpad) s1), Rd.bind_ok (lift_ok (hpl) s1), Rd.bind_ok ec, Rd.bind_ok (lift_ok f1 s1)]
  exact lift_ok f2 s1

/-- **C84** for frames with one section, in part. If the section codes the picture with samples `v`, whatever the transforms, the tree, the entropy codes and the predictors,
then the frame decodes to that picture, and the reader stands at the end of what was coded. All channels must be in the global stream (in a frame of one group they are). Explicit
squeeze steps are left out (`C48_violated`), as are samples of more than 24 bits (`C80_large_fails`). -/
theorem C84_single_partial (P : FrameParts) (I : FloatImpl) {h : ImageHeader} {f : FrameHeader} (hp : Plain h f) {v : Nat → Nat → Nat → Int}
    (hv : ∀ c y x, c < channelCount h → y < f.size.height → x < f.size.width → |v c y x| < 2 ^ 24)
    (hn : groupsAcross f.groupDim f.size.width * groupsAcross f.groupDim f.size.height < 2 ^ 31) {l : Layout} (hl : frameLayout f = .ok l)
    (hps : f.passes = ⟨1, 0, [], [], []⟩ ∨ PassesStated f.passes) {toc : TOC} (htoc : toc.lengths.length = 1) {data : List UInt8} {p q : Nat} {deq : List ℚ} {tree : GlobalTree}
    {hd : ModHeader} {m : Nat} {enc : List MChan} (hG : GlobalAt h.bitDepth.bits f.groupDim data p q deq tree hd (imageChannels (channelCount h) f.size v) m enc)
    (hall : enc.length ≤ globalCount f.groupDim m enc) {s : BR} (hs : AtBit s p) (hdata : s.data = data) :
    ∃ out s', decodeFrame P I h f l toc s = (.ok out, s') ∧ ShowsPicture (channelCount h) f.size v out ∧ AtBit s' q ∧ s'.data = data := by
  exact single_core P I hp.framed hp.modular (plain_flags hp) (plain_padded hp) (imageChannels_blank hp v) (plain_planes hp)
    (fun res er => plain_finish P I hp hv (by obtain ⟨_, _, g, -⟩ := hG; exact dequant_length g) er (plain_planes hp)) hn hl hps htoc hG hall hs hdata

/-- Frames with more than one section, for any way in which planes are finished. -/
theorem frame_core (P : FrameParts) (I : FloatImpl) {h : ImageHeader} {f : FrameHeader} (hfr : Framed f) (hmod : f.encoding = 1)
    (hfl : refusedFlags f.flags = false) (hpad : paddedFrameSize f = .ok f.size) {v : Nat → Nat → Nat → Int}
    (hbl : (imageChannels (channelCount h) f.size v).map MChan.blank = globalBlanks h f) {planes : List ImageBuffer} (hpl : framePlanes h f = .ok planes) {deq : List ℚ}
    {R : List ImageBuffer → Prop} (hfin : ∀ res : List MChan, res.map MChan.toChan = (imageChannels (channelCount h) f.size v).map MChan.toChan →
      ∃ mid out, storeModular I h f (deq.map F32.fin) (res.map fun c => c.buffer) planes = .ok mid ∧ finishPlanes P h f mid = .ok out ∧ R out)
    (hn : groupsAcross f.groupDim f.size.width * groupsAcross f.groupDim f.size.height < 2 ^ 31) {l : Layout} (hl : frameLayout f = .ok l)
    (hstreams : 18 + 3 * (groupsAcross (f.groupDim * 8) f.size.width * groupsAcross (f.groupDim * 8) f.size.height) +
      groupsAcross f.groupDim f.size.width * groupsAcross f.groupDim f.size.height * f.passes.numPasses < 2 ^ 32)
    (hps : PassesStated f.passes) {toc : TOC} (hperm : toc.permutation = none)
    (htoc : toc.lengths.length = 2 + groupsAcross (f.groupDim * 8) f.size.width * groupsAcross (f.groupDim * 8) f.size.height +
      f.passes.numPasses * (groupsAcross f.groupDim f.size.width * groupsAcross f.groupDim f.size.height))
    {data : List UInt8} {k : Nat} (hk : k + toc.lengths.sum ≤ data.length)
    (hb : ∀ i, i < toc.lengths.length → k + (toc.lengths.take i).sum < data.length) {tree : GlobalTree} {hd : ModHeader} {m : Nat} {enc : List MChan}
    (hS : SectionsAt h f (storedSection (data.drop k) toc.lengths) deq tree hd (imageChannels (channelCount h) f.size v) m enc) {s : BR} (hs : AtBit s (8 * k))
    (hdata : s.data = data) :
    ∃ out s', decodeFrame P I h f l toc s = (.ok out, s') ∧ R out ∧ AtBit s' (8 * (k + toc.lengths.sum)) ∧ s'.data = data := by
  have hi0 : s.index = 0 ∧ s.pos = k := by
    rcases hs with ⟨h1, h2, h3⟩ | ⟨h1, h2, h3, h4, h5⟩
    · omega
    · omega
  obtain ⟨readers, s1, r1, r2, r3, r4⟩ := C18_unpermuted_partial toc s hi0.1 (by rw [hi0.2, hdata]; exact hk) (by rw [hi0.2, hdata]; exact hb) (by rw [htoc]; omega) hperm
  have hd1 : s1.data = data := by
    obtain ⟨s', h1, h2, h3, h4⟩ := readSections_ok toc.lengths s hi0.1 (by rw [hi0.2, hdata]; exact hk) (by rw [hi0.2, hdata]; exact hb)
    unfold setupBitReaders at r1
    rw [if_pos (by rw [htoc]; omega), Rd.bind_ok h1, Rd.pure_eq] at r1
    have := congrArg Prod.snd r1
    dsimp only at this
    rw [← this, h4, hdata]
  have hsec : ∀ i, i < toc.lengths.length → getBitreader toc readers i = .ok (.own (storedSection (data.drop k) toc.lengths i ++ [0, 0, 0, 0])) := by
    intro i hi
    rw [r4 i hi, hdata, hi0.2, hperm]
    rfl
  obtain ⟨q, hG⟩ := hS.global
  obtain ⟨s2, steps, R, e1, a1, d1, f1, hgood, t1, -⟩ := modGlobal_ok (hfl) (imageChannels_ne f.size v) (hbl) hG (AtBit.new _) rfl
  have hlay := layout_ok hfr hn
  rw [hl] at hlay
  obtain ⟨g1, g2⟩ := frame_grids hfr hn hl
  obtain ⟨⟨bits, r, eps⟩, hval⟩ := hps
  obtain ⟨shs, hsh, hshl, hpart⟩ := passes_partition eps hval
  have hm3 : ∀ c ∈ enc.drop (globalCount f.groupDim m enc), (min c.hshift c.vshift).toNat < 3 ∧ toU32 (min c.hshift c.vshift) = (min c.hshift c.vshift).toNat := by
    intro c hc
    obtain ⟨h1, h2⟩ := hS.channels c hc
    have h3 := h1.shifts
    refine ⟨by omega, ?_⟩
    obtain ⟨n, hn⟩ := Int.eq_ofNat_of_zero_le (a := min c.hshift c.vshift) (by omega)
    rw [hn] at h2 ⊢
    rw [toU32_nat (by omega)]
    rfl
  have hin : ∀ pass sh, shs[pass]? = some sh → ∀ c ∈ enc.drop (globalCount f.groupDim m enc),
      inPass sh c = decide (pass ∈ passesOf f.passes (min c.hshift c.vshift).toNat) := by
    intro pass sh hps c hc
    obtain ⟨h1, h2⟩ := hm3 c hc
    have h3 := (hpart _ h1).1 pass (by rw [← hshl]; exact (List.getElem?_eq_some_iff.mp hps).1)
    rw [List.getD_eq_getElem?_getD, hps] at h3
    unfold inPass
    rw [h2]
    exact h3
  have hrest : (enc.take (globalCount f.groupDim m enc)) ++ enc.drop (globalCount f.groupDim m enc) = enc := List.take_append_drop _ _
  have ll := Res.ok.inj hlay
  have H : GroupsAt h f l (groupsAcross f.groupDim f.size.width) (groupsAcross f.groupDim f.size.height) toc readers tree
      (fun i => storedSection (data.drop k) toc.lengths i ++ [0, 0, 0, 0]) (enc.drop (globalCount f.groupDim m enc)) shs := by
    refine ⟨?_, hgood, ?_, hn, ?_, fun c hc => (hS.channels c hc).1, ?_, g1, ?_⟩
    · have := hfr.dims
      omega
    · rw [ll]
    · rw [ll, hshl]
      exact hstreams
    · intro i hi
      refine hsec i ?_
      rw [ll, hshl] at hi
      rw [htoc]
      exact hi
    · intro pass sh hps i hi
      have hpl : pass < f.passes.numPasses := by rw [← hshl]; exact (List.getElem?_eq_some_iff.mp hps).1
      rw [ll] at hi ⊢
      have hc := hS.groups pass i hpl hi
      have hf : (enc.drop (globalCount f.groupDim m enc)).filter (inPass sh) = channelsOf f.passes pass (enc.drop (globalCount f.groupDim m enc)) :=
        List.filter_congr (fun c hc => hin pass sh hps c hc)
      rw [hf]
      exact hc
  have hgr := groups_ok (g := ⟨deq.map F32.fin, tree, ⟨steps, R, (enc.drop (globalCount f.groupDim m enc)).map MChan.blank⟩⟩) H rfl hsh (by
      intro c hc
      obtain ⟨h1, h2⟩ := hm3 c hc
      have hlen := (hpart _ h1).2.2
      obtain ⟨pass, hpass⟩ := List.length_eq_one_iff.mp hlen
      have hmem : pass ∈ passesOf f.passes (min c.hshift c.vshift).toNat := by rw [hpass]; exact List.mem_singleton.mpr rfl
      have hlt : pass < shs.length := by
        rw [hshl]
        unfold passesOf at hmem
        exact List.mem_range.mp (List.mem_of_mem_filter hmem)
      refine ⟨shs[pass], List.getElem_mem hlt, ?_⟩
      rw [hin pass _ (List.getElem?_eq_getElem hlt) c hc]
      exact decide_eq_true hmem) (by
      intro c hc
      have := (hS.channels c hc).2
      unfold inLFGroups
      rw [Bool.and_eq_false_iff, decide_eq_false_iff_not, decide_eq_false_iff_not]
      omega) f.size g2 s1
  obtain ⟨res, ea, er⟩ := t1 (R ++ (enc.drop (globalCount f.groupDim m enc)).map MChan.erase) (by
    rw [List.map_append, f1, List.map_map, show (MChan.erase ∘ MChan.erase) = MChan.erase from rfl, ← List.map_append, hrest])
  obtain ⟨mid, out, f1, f2, f3⟩ := hfin res er
  refine ⟨out, s1, ?_, f3, Or.inl ⟨r3, by rw [r2, hi0.2, hd1]; omega, by rw [r2, hi0.2]⟩, hd1⟩
  unfold decodeFrame
  rw [hmod, if_neg (by decide)]
  unfold decodeModularFrame
  have eg := onSection_own (hsec 0 (by rw [htoc]; omega)) e1 s1
  rw [Rd.bind_ok r1, Rd.bind_ok eg, Rd.bind_ok (lift_ok (hpad) s1), Rd.bind_ok (lift_ok (hpl) s1), Rd.bind_ok (hgr.trans (lift_ok ea s1)),
    Rd.bind_ok (lift_ok f1 s1)]
  exact lift_ok f2 s1

/-- **C84** for frames with more than one section, in part. If the sections code the picture with samples `v`, whatever the transforms, the tree, the entropy codes and the
predictors, then the frame decodes to that picture, and the reader stands after the last section. Left out: channels that have been halved three times or more
(`C26_lf_groups_wrong`), transforms of groups that move channels (`C84_group_origins_lost`, `C84_group_palette_misplaced`), channels that do not have as many parts as there are groups
(`C84_odd_width_misplaced`), permuted sections (`C18_violated`), factors for the last pass (`C58_violated`), and what `C84_single_partial` leaves out. -/
theorem C84_frame_partial (P : FrameParts) (I : FloatImpl) {h : ImageHeader} {f : FrameHeader} (hp : Plain h f) {v : Nat → Nat → Nat → Int}
    (hv : ∀ c y x, c < channelCount h → y < f.size.height → x < f.size.width → |v c y x| < 2 ^ 24)
    (hn : groupsAcross f.groupDim f.size.width * groupsAcross f.groupDim f.size.height < 2 ^ 31) {l : Layout} (hl : frameLayout f = .ok l)
    (hstreams : 18 + 3 * (groupsAcross (f.groupDim * 8) f.size.width * groupsAcross (f.groupDim * 8) f.size.height) +
      groupsAcross f.groupDim f.size.width * groupsAcross f.groupDim f.size.height * f.passes.numPasses < 2 ^ 32)
    (hps : PassesStated f.passes) {toc : TOC} (hperm : toc.permutation = none)
    (htoc : toc.lengths.length = 2 + groupsAcross (f.groupDim * 8) f.size.width * groupsAcross (f.groupDim * 8) f.size.height +
      f.passes.numPasses * (groupsAcross f.groupDim f.size.width * groupsAcross f.groupDim f.size.height))
    {data : List UInt8} {k : Nat} (hk : k + toc.lengths.sum ≤ data.length)
    (hb : ∀ i, i < toc.lengths.length → k + (toc.lengths.take i).sum < data.length) {deq : List ℚ} {tree : GlobalTree} {hd : ModHeader} {m : Nat} {enc : List MChan}
    (hS : SectionsAt h f (storedSection (data.drop k) toc.lengths) deq tree hd (imageChannels (channelCount h) f.size v) m enc) {s : BR} (hs : AtBit s (8 * k))
    (hdata : s.data = data) :
    ∃ out s', decodeFrame P I h f l toc s = (.ok out, s') ∧ ShowsPicture (channelCount h) f.size v out ∧ AtBit s' (8 * (k + toc.lengths.sum)) ∧ s'.data = data := by
  exact frame_core P I hp.framed hp.modular (plain_flags hp) (plain_padded hp) (imageChannels_blank hp v) (plain_planes hp)
    (fun res er => plain_finish P I hp hv (by obtain ⟨q, _, _, g, -⟩ := hS.global; exact dequant_length g) er (plain_planes hp)) hn hl hstreams hps hperm htoc hk hb hS hs hdata

end Jxl
