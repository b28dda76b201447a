import Verif.Props.LFSmoothing
import Verif.Proofs.VarDCTRead
import Verif.Proofs.VarDCTGrid
import Verif.Props.CoefficientCoding

/-!
# Proofs: the LF groups of VarDCT frames
-/
namespace Jxl
open Spec

/-! ## The global section -/

/-- The block contexts that can be written. -/
structure ContextShape (c : HFBlockContext) : Prop where
  well : c.WellFormed
  thresholds : ∃ tx ty tb, c.lfThresholds = [tx, ty, tb] ∧ c.numLFContexts = ((tx.length : Int) + 1) * ((tb.length : Int) + 1) * ((ty.length : Int) + 1)
  few : c.numLFContexts < 2147483648

theorem foldl_max_ge : ∀ (l : List Nat) (n : Nat), n ≤ l.foldl max n ∧ ∀ c ∈ l, c ≤ l.foldl max n
  | [], n => ⟨Nat.le_refl n, fun c hc => by cases hc⟩
  | a :: l, n => by
    obtain ⟨h1, h2⟩ := foldl_max_ge l (max n a)
    rw [List.foldl_cons]
    refine ⟨by omega, fun c hc => ?_⟩
    rcases List.mem_cons.mp hc with rfl | hc
    · omega
    · exact h2 c hc

theorem hfContext_shape {l r : List Bool} {c : HFBlockContext} (h : decHFContext l = some (c, r)) : ContextShape c := by
  unfold decHFContext at h
  obtain ⟨d, l1, _, h⟩ := Dec.of_bind h
  cases d with
  | true =>
    have e : some ((⟨[[], [], []], defaultContexts, 15, [], 1⟩ : HFBlockContext), l1) = some (c, r) := h
    simp only [Option.some.injEq, Prod.mk.injEq] at e
    rw [← e.1]
    exact ⟨⟨by decide, by decide, by decide, by decide, by decide⟩, ⟨[], [], [], rfl, by decide⟩, by decide⟩
  | false =>
    rw [if_neg (by decide)] at h
    obtain ⟨tx, l2, _, h⟩ := Dec.of_bind h
    obtain ⟨ty, l3, _, h⟩ := Dec.of_bind h
    obtain ⟨tb, l4, _, h⟩ := Dec.of_bind h
    obtain ⟨n, l5, _, h⟩ := Dec.of_bind h
    obtain ⟨qf, l6, hq, h⟩ := Dec.of_bind h
    have hql := (decList_props (P := fun _ => True) (fun _ _ _ _ => trivial) n _ _ _ hq).1
    dsimp only at h
    obtain ⟨_, l7, hc, h⟩ := Dec.of_bind h
    obtain ⟨hc, -, -⟩ := Dec.of_check hc
    rw [decide_eq_true_eq] at hc
    obtain ⟨m, l8, hm, h⟩ := Dec.of_bind h
    unfold decFixedMap at hm
    obtain ⟨_, l9, _, hm⟩ := Dec.of_bind hm
    obtain ⟨_, l10, _, hm⟩ := Dec.of_bind hm
    obtain ⟨w, l11, hw, hm⟩ := Dec.of_bind hm
    have hw4 : w < 2 ^ 2 := decBits_lt hw
    obtain ⟨ml, mb⟩ := decList_props (P := fun v => v < 2 ^ w) (fun _ _ _ h => decBits_lt h) _ _ _ _ hm
    have e : some ((⟨[tx, ty, tb], m.map Int.ofNat, ((m.foldl max 0 + 1 : Nat) : Int), qf, (((tx.length + 1) * (ty.length + 1) * (tb.length + 1) : Nat) : Int)⟩ : HFBlockContext), l8) = some (c, r) := h
    simp only [Option.some.injEq, Prod.mk.injEq] at e
    rw [← e.1]
    have hpos : 0 < (tx.length + 1) * (ty.length + 1) * (tb.length + 1) := by positivity
    have h8 : m.foldl max 0 < 8 := foldl_max_lt m 0 (by decide) (fun c hc => Nat.lt_of_lt_of_le (mb c hc) (by
      have : (2:Nat) ^ w ≤ 2 ^ 3 := Nat.pow_le_pow_right (by decide) (by omega)
      omega))
    have hle : (tx.length + 1) * (ty.length + 1) * (tb.length + 1) ≤ 39 * (n + 1) * ((tx.length + 1) * (ty.length + 1) * (tb.length + 1)) :=
      Nat.le_mul_of_pos_left _ (by omega)
    refine ⟨⟨?_, ?_, ?_, ?_, ?_⟩, ⟨tx, ty, tb, rfl, ?_⟩, ?_⟩
    · dsimp only
      exact_mod_cast hpos
    · dsimp only
      rw [List.length_map, ml, hql]
      push_cast
      ring
    · dsimp only
      rw [List.length_map, ml]
      omega
    · intro c hc
      obtain ⟨a, ha, rfl⟩ := List.mem_map.1 hc
      have := (foldl_max_ge m 0).2 a ha
      dsimp only
      constructor
      · show (0 : Int) ≤ (a : Int)
        omega
      · show (a : Int) < _
        omega
    · dsimp only
      omega
    · dsimp only
      push_cast
      ring
    · dsimp only
      omega

/-- What the decoder knows after the global section. -/
def CodedFrame.varGlobal (F : CodedFrame) (st : GlobalStream) : VarGlobal := ⟨F.dequant, F.globalScale, F.quantLF, F.ctx, F.corr, F.tree, st⟩

theorem dequant_three {l r : List Bool} {d : List ℚ} (h : decLFDequant l = some (d, r)) : d.length = 3 := by
  unfold decLFDequant at h
  obtain ⟨b, l1, _, h⟩ := Dec.of_bind h
  cases b with
  | true =>
    have e : some (([1 / 4096, 1 / 512, 1 / 256] : List ℚ), l1) = some (d, r) := h
    simp only [Option.some.injEq, Prod.mk.injEq] at e
    rw [← e.1]
    rfl
  | false =>
    rw [if_neg (by decide)] at h
    obtain ⟨a, l2, _, h⟩ := Dec.of_bind h
    obtain ⟨b, l3, _, h⟩ := Dec.of_bind h
    obtain ⟨c, l4, _, h⟩ := Dec.of_bind h
    have e : some (([a / 128, b / 128, c / 128] : List ℚ), l4) = some (d, r) := h
    simp only [Option.some.injEq, Prod.mk.injEq] at e
    rw [← e.1]
    rfl

/-- What the decoder knows about the extra channels after the global section. -/
structure ExtraRead (h : ImageHeader) (f : FrameHeader) (F : CodedFrame) (st : GlobalStream) : Prop where
  rest : st.rest = F.rest.map MChan.blank
  undo : ∃ res, applyTransforms h.bitDepth.bits st.steps (st.done ++ F.rest.map MChan.erase) = .ok res ∧
    res.map MChan.toChan = (imageChannels h.extra.length f.size F.channels.v).map MChan.toChan

theorem extraBlanks {h : ImageHeader} {f : FrameHeader} (hp : PlainVarDCT h f) (v : Nat → Nat → Nat → Int) : (imageChannels h.extra.length f.size v).map MChan.blank = globalBlanks h f := by
  have e1 : (imageChannels h.extra.length f.size v).map MChan.blank = List.replicate h.extra.length (MChan.new f.size.height f.size.width 0 0 false) := by
    unfold imageChannels
    rw [List.map_map, List.eq_replicate_iff]
    refine ⟨by simp, fun b hb => ?_⟩
    obtain ⟨c, -, rfl⟩ := List.mem_map.mp hb
    rfl
  have e2 : globalBlanks h f = List.replicate h.extra.length (MChan.new f.size.height f.size.width 0 0 false) := by
    have hm : modularColours h f = 0 := by
      unfold modularColours
      rw [hp.encoding]
      rfl
    unfold globalBlanks globalChannels
    rw [hm, List.eq_replicate_iff]
    refine ⟨by simp, fun b hb => ?_⟩
    obtain ⟨c, hc, rfl⟩ := List.mem_map.mp hb
    rw [List.replicate_zero, List.nil_append] at hc
    obtain ⟨e, he, rfl⟩ := List.mem_map.mp hc
    dsimp only
    rw [(hp.extra e he).2]
    rfl
  rw [e1, e2]

theorem extraStream_ok {h : ImageHeader} {f : FrameHeader} (hp : PlainVarDCT h f) {F : CodedFrame} (hgt : GoodTree F.tree) {data : List UInt8} {p q : Nat} (hE : ExtraAt h f F data p q) :
    Runs (readGlobalStream f.groupDim F.tree (globalBlanks h f)) data p q (ExtraRead h f F) := by
  unfold ExtraAt at hE
  intro s hs hd
  by_cases hn : h.extra.length = 0
  · rw [if_pos hn] at hE
    obtain ⟨he, rfl⟩ := hE
    have hr : F.rest = [] := by
      unfold CodedFrame.rest
      rw [he, List.drop_nil]
    rw [← extraBlanks hp F.channels.v, hn]
    refine ⟨⟨[], [], []⟩, s, rfl, hs, hd, ?_, ?_⟩
    · rw [hr]
      rfl
    · rw [hr, hn]
      exact ⟨[], rfl, rfl⟩
  · rw [if_neg hn] at hE
    have hne : imageChannels h.extra.length f.size F.channels.v ≠ [] := by
      intro e
      have := congrArg List.length e
      unfold imageChannels at this
      simp at this
      exact hn (by rw [this]; rfl)
    rw [← hp.groups] at hE
    obtain ⟨s', l, R, e1, a1, d1, r1, t1, -⟩ := globalStream_ok hgt hne hE hs hd
    rw [extraBlanks hp] at e1
    have hrest : (F.channels.enc.take (globalCount f.groupDim F.channels.palettes F.channels.enc)) ++ F.channels.enc.drop (globalCount f.groupDim F.channels.palettes F.channels.enc) = F.channels.enc :=
      List.take_append_drop _ _
    have hF : F.rest = F.channels.enc.drop (globalCount f.groupDim F.channels.palettes F.channels.enc) := by
      unfold CodedFrame.rest
      rw [hp.groups]
    refine ⟨_, s', e1, a1, d1, by rw [hF], ?_⟩
    rw [hF]
    exact t1 _ (by rw [List.map_append, r1, List.map_map, show (MChan.erase ∘ MChan.erase) = MChan.erase from rfl, ← List.map_append, hrest])

theorem varGlobal_ok {h : ImageHeader} {f : FrameHeader} (hp : PlainVarDCT h f) {F : CodedFrame} {data : List UInt8} {p q r : Nat} (hG : VarGlobalAt F data p q) (hE : ExtraAt h f F data q r) :
    Runs (readVarGlobal h f) data p r (fun v => ∃ st, v = F.varGlobal st ∧ GoodTree F.tree ∧ ExtraRead h f F st) ∧ ContextShape F.ctx ∧ F.dequant.length = 3 := by
  obtain ⟨p1, p2, p3, p4, h1, h2, h3, h4, h5⟩ := hG
  refine ⟨?_, hfContext_shape h3.2, dequant_three h1.2⟩
  unfold readVarGlobal
  rw [if_neg (by
    unfold refusedFlags
    rw [hp.flags.1, hp.flags.2.1, hp.flags.2.2.1]
    decide)]
  refine Runs.bind_eq (Runs.dec C71_dequant.follows h1) ?_
  refine Runs.bind_eq (Runs.dec C71_quantizer.follows h2) ?_
  refine Runs.bind_eq (Runs.dec follows_hfContext h3) ?_
  refine Runs.bind_eq (Runs.dec C71_correlation.follows h4) ?_
  intro s hs hd
  obtain ⟨s', e1, e2, e3, e4⟩ := globalTree_ok h5 hs hd
  obtain ⟨b, s1, e5, e6⟩ := Rd.of_bind e1
  obtain ⟨st, s2, e7, e8, e9, e10⟩ := extraStream_ok hp e4 hE s' e2 e3
  refine ⟨F.varGlobal st, s2, ?_, e8, e9, st, rfl, e4, e10⟩
  rw [Rd.bind_ok e5, Rd.bind_ok e6, Rd.bind_ok e7]
  rfl

/-! ## LF groups -/

section
variable {α : Type} [Arith α]

/-- What the decoder knows about an LF group. -/
structure LFDecoded (F : CodedFrame) (f : FrameHeader) (i : Nat) (v : VarLFGroup α) : Prop where
  lf : Planes (fun _ => lfRows f i) (fun _ => lfCols f i) (F.lfSamples f i : Nat → Nat → Nat → α) v.lf
  index : HoldsMat (lfRows f i) (lfCols f i) (F.lfContext i) v.lfIndex
  contexts : ∀ y x, y < lfRows f i → x < lfCols f i → 0 ≤ F.lfContext i y x ∧ F.lfContext i y x < F.ctx.numLFContexts
  points : v.points = (F.blocks i).reverse.map (fun b => (⟨b.y, b.x⟩ : Point))
  cells : newHFMetadata (lfRows f i) (lfCols f i) ((F.blocks i).reverse.map (fun b => ((b.type : Int), b.mul - 1))) = .ok (v.points, v.cells)
  hfX : HoldsMat ((lfRows f i + 7) / 8) ((lfCols f i + 7) / 8) (F.hfX i) v.hfX
  hfB : HoldsMat ((lfRows f i + 7) / 8) ((lfCols f i + 7) / 8) (F.hfB i) v.hfB
  stream : v.stream = []
  sharp : HoldsMat (lfRows f i) (lfCols f i) (F.sharpness i) v.sharpness

theorem planeChannel_blank (rows cols : Nat) (v : Nat → Nat → Int) : (planeChannel rows cols v).blank = MChan.new rows cols 0 0 false := rfl

theorem lfContext_ok {F : CodedFrame} (hc : ContextShape F.ctx) {i rows cols : Nat} {qy qx qb : List (List Int)} (hy : HoldsMat rows cols (F.lf i 1) qy)
    (hx : HoldsMat rows cols (F.lf i 0) qx) (hb : HoldsMat rows cols (F.lf i 2) qb) {y x : Nat} (h1 : y < rows) (h2 : x < cols) :
    getLFIndex F.ctx [0, 0, 0] [0, 0, 0] [qy, qx, qb] y x = .ok (F.lfContext i y x) ∧ 0 ≤ F.lfContext i y x ∧ F.lfContext i y x < F.ctx.numLFContexts := by
  obtain ⟨tx, ty, tb, e1, e2⟩ := hc.thresholds
  obtain ⟨v, e3, e4, e5, e6⟩ := C30_lf_index e1 e2 hc.few (a0 := 0) (a1 := 0) (a2 := 0) (b0 := 0) (b1 := 0) (b2 := 0) (y := y) (x := x)
    (at2_sample (hx.2 y x h1 h2)) (at2_sample (hy.2 y x h1 h2)) (at2_sample (hb.2 y x h1 h2))
  have e : F.lfContext i y x = v := by
    unfold CodedFrame.lfContext
    dsimp only
    rw [e1, e6]
    rfl
  rw [e]
  exact ⟨e3, e4, e5⟩

theorem blockPairs_ok {l : List Block} {info : List (List Int)} (hne : l ≠ []) (h : HoldsMat 2 l.length (blockRows l) info) :
    blockPairs info l.length = .ok (l.map (fun b => ((b.type : Int), b.mul - 1))) := by
  unfold blockPairs
  have key : ∀ i, i < l.length → (do
      let t ← at2 info 0 (i : Int)
      let m ← at2 info 1 (i : Int)
      .ok (t, m) : Res (Int × Int)) = .ok ((fun i => ((blockRows l 0 i), (blockRows l 1 i))) i) := by
    intro i hi
    have h0 := at2_sample (h.2 0 i (by decide) hi)
    have h1 := at2_sample (h.2 1 i (by decide) hi)
    rw [show ((0 : Nat) : Int) = 0 from rfl] at h0
    rw [show ((1 : Nat) : Int) = 1 from rfl] at h1
    rw [h0, Res.bind_ok, h1, Res.bind_ok]
  have hm := mapM_ok (l := List.range l.length) (g := fun i => ((blockRows l 0 i), (blockRows l 1 i))) (fun i hi => key i (List.mem_range.1 hi))
  rw [hm]
  congr 1
  refine List.ext_getElem (by simp) ?_
  intro i h1 h2
  simp only [List.length_map, List.length_range] at h1
  simp only [List.getElem_map, List.getElem_range]
  unfold blockRows
  rw [List.getElem?_eq_getElem h1]
  rfl

theorem clog_bits {n : Nat} (h0 : 0 < n) (h1 : n ≤ 65536) : ceilLog2 32 (u32 n) = Nat.clog 2 n := by
  have e : u32 n = n := by unfold u32; omega
  rw [e]
  refine Nat.le_antisymm ?_ ?_
  · rw [C41_ceilLog2 32 n _ h0 (by omega)]
    exact Nat.le_pow_clog (by decide) n
  · rw [Nat.clog_le_iff_le_pow (by decide)]
    exact (C41_ceilLog2 32 n (ceilLog2 32 n) h0 (by omega)).1 (Nat.le_refl _)

theorem tiled_ne {h w : Nat} {l : List Block} (T : Tiled h w l) (hh : 0 < h) (hw : 0 < w) : l ≠ [] := by
  intro e
  obtain ⟨b, hb, -⟩ := T.all 0 0 hh hw
  rw [e] at hb
  cases hb

/-- The section of an LF group. -/
theorem lfGroupBody_ok {h : ImageHeader} {f : FrameHeader} (hp : PlainVarDCT h f) (hgrid : VarGrid f) {F : CodedFrame} (hok : F.Ok f) (hc : ContextShape F.ctx) (hd3 : F.dequant.length = 3)
    (hgt : GoodTree F.tree) {i : Nat} (hi : i < varLFGroups f) (hlf31 : varLFGroups f < 2 ^ 31) {data : List UInt8} {p q : Nat} (hA : LFGroupAt h.bitDepth.bits F f i data p q) (st : GlobalStream) (lfBuffer : List (List (List α))) (pos : Int × Int) :
    Runs (lfGroupBody h f (varLayout f) (F.varGlobal st) lfBuffer i pos [] (lfRows f i) (lfCols f i)) data p q (LFDecoded F f i) := by
  obtain ⟨p1, p2, p3, hd1, hd2, m1, m2, enc1, enc2, h1, h2, h3, h4⟩ := hA
  obtain ⟨r0, c0, r1, c1⟩ := hgrid.lfSize i hi
  obtain ⟨hT, -⟩ := hok.blocks i hi
  have hne := tiled_ne hT r0 c0
  have hlen : 0 < (F.blocks i).length := List.length_pos_of_ne_nil hne
  unfold lfGroupBody
  have hb : lfBlanks f (lfRows f i) (lfCols f i) = .ok [MChan.new (lfRows f i) (lfCols f i) 0 0 false, MChan.new (lfRows f i) (lfCols f i) 0 0 false, MChan.new (lfRows f i) (lfCols f i) 0 0 false] := by
    unfold lfBlanks lfBlank
    rw [hp.jpegX, hp.jpegY]
    rfl
  refine Runs.bind_eq (Runs.lift hb) ?_
  -- the LF samples
  have hy := tab_holds r0 c0 (F.lf i 1)
  have hx := tab_holds r0 c0 (F.lf i 0)
  have hbl := tab_holds r0 c0 (F.lf i 2)
  have hlf : Runs (newLFCoefficients (lfParams f (F.varGlobal st) pos (lfRows f i) (lfCols f i)) lfBuffer (readChannels h.bitDepth.bits (F.varGlobal st).tree (1 + i)
      [MChan.new (lfRows f i) (lfCols f i) 0 0 false, MChan.new (lfRows f i) (lfCols f i) 0 0 false, MChan.new (lfRows f i) (lfCols f i) 0 0 false])) data p p2
      (fun v : List (List (List α)) × List (List (List Int)) => Planes (fun _ => lfRows f i) (fun _ => lfCols f i) (F.lfSamples f i : Nat → Nat → Nat → α) v.1 ∧
        v.2 = [tab (lfRows f i) (lfCols f i) (F.lf i 1), tab (lfRows f i) (lfCols f i) (F.lf i 0), tab (lfRows f i) (lfCols f i) (F.lf i 2)]) := by
    intro s hs hdata
    obtain ⟨s1, e1, a1, d1⟩ := (follows_bits 2 (by decide)).at h1 hs hdata
    obtain ⟨lq, s2, e2, a2, d2, g2⟩ := channels_read hgt (by simp) h2 s1 a1 d1
    subst g2
    have hup : f.jpegY.zip f.jpegX = [(0, 0), (0, 0), (0, 0)] := by
      rw [hp.jpegX, hp.jpegY]
      rfl
    have hst : ∀ c, c < 3 → (scaledDequant F.globalScale F.quantLF F.dequant : List α)[c]? = some ((lfSteps F.globalScale F.quantLF F.dequant).getD c (Arith.lit 0)) := by
      intro c hc3
      rw [C71_steps_partial _ _ _ hok.quantizer.1 hok.quantizer.2]
      have hl : c < (lfSteps F.globalScale F.quantLF F.dequant : List α).length := by
        unfold lfSteps
        rw [List.length_map]
        omega
      rw [List.getElem?_eq_getElem hl, List.getD_eq_getElem?_getD, List.getElem?_eq_getElem hl]
      rfl
    unfold CodedFrame.lfSamples
    cases hsm : f.flags.testBit 7 with
    | true =>
      obtain ⟨planes, e3, e4⟩ := C71_samples_partial (F.lfGroup i : LFGroup α) (lfParams f (F.varGlobal st) pos (lfRows f i) (lfCols f i)) (fun _ => (0, 0)) hup hst hok.corr.1 hok.corr.2 rfl rfl hsm
          hp.flags.2.2.2 lfBuffer _ s s1 s2 _ e1 e2 (by
          rw [holds3_iff]
          refine ⟨_, _, _, rfl, ?_, ?_, ?_⟩
          · show HoldsMat (lfRows f i / 2 ^ 0) (lfCols f i / 2 ^ 0) _ _
            rw [Nat.pow_zero, Nat.div_one, Nat.div_one]
            exact hy
          · show HoldsMat (lfRows f i / 2 ^ 0) (lfCols f i / 2 ^ 0) _ _
            rw [Nat.pow_zero, Nat.div_one, Nat.div_one]
            exact hx
          · show HoldsMat (lfRows f i / 2 ^ 0) (lfCols f i / 2 ^ 0) _ _
            rw [Nat.pow_zero, Nat.div_one, Nat.div_one]
            exact hbl)
      refine ⟨_, s2, e3, a2, d2, ?_, rfl⟩
      rw [if_pos ⟨rfl, rfl, rfl⟩] at e4
      have e5 : Planes (fun _ => lfRows f i / 2 ^ 0) (fun _ => lfCols f i / 2 ^ 0) (F.lfGroup i : LFGroup α).sample planes := e4
      simpa using e5
    | false =>
      obtain ⟨before, planes, b1, b2, e3⟩ := C72_stream_partial (F.lfGroup i : LFGroup α) (lfParams f (F.varGlobal st) pos (lfRows f i) (lfCols f i)) hup r0 hst hok.corr.1 hok.corr.2 rfl rfl hsm
          hp.flags.2.2.2 lfBuffer _ s s1 s2 _ e1 e2 (by
          rw [holds3_iff]
          exact ⟨_, _, _, rfl, hy, hx, hbl⟩)
      obtain ⟨ps, k1, k2⟩ := adaptiveSmooth_ok r0 (holds3_iff.1 b1) hst
      obtain rfl : ps = planes := Res.ok.inj (k1.symm.trans b2)
      exact ⟨_, s2, e3, a2, d2, holds3_iff.2 k2, rfl⟩
  refine hlf.bind ?_
  rintro ⟨planes, lq⟩ ⟨hpl, rfl⟩
  -- the contexts
  obtain ⟨ix, ex, hix⟩ := tabulate_ok (f := fun y x => getLFIndex F.ctx [0, 0, 0] [0, 0, 0] [tab (lfRows f i) (lfCols f i) (F.lf i 1), tab (lfRows f i) (lfCols f i) (F.lf i 0),
    tab (lfRows f i) (lfCols f i) (F.lf i 2)] y x) (h := lfRows f i) (w := lfCols f i) (g := F.lfContext i) (fun y x h1 h2 => (lfContext_ok hc hy hx hbl h1 h2).1)
  refine Runs.bind_eq (Runs.lift (v := ix) (by
    unfold lfIndices
    rw [hp.jpegX, hp.jpegY]
    exact ex)) ?_
  refine Runs.bind_eq (Runs.pure (v := ([] : List (MChan × Origin))) rfl) ?_
  -- the blocks
  have hinfo : Runs (readBlockInfo h.bitDepth.bits (F.varGlobal st).tree (1 + 2 * (varLayout f).numLFGroups + i) (lfRows f i) (lfCols f i)) data p2 q
      (· = ((F.blocks i).length, [tab ((lfRows f i + 7) / 8) ((lfCols f i + 7) / 8) (F.hfX i), tab ((lfRows f i + 7) / 8) ((lfCols f i + 7) / 8) (F.hfB i),
        tab 2 (F.blocks i).length (blockRows (F.blocks i).reverse), tab (lfRows f i) (lfCols f i) (F.sharpness i)])) := by
    unfold readBlockInfo
    rw [clog_bits (Nat.mul_pos r0 c0) (Nat.le_trans (Nat.mul_le_mul r1 c1) (by decide))]
    refine Runs.bind_eq (Runs.dec (follows_bits _ ((Nat.clog_le_iff_le_pow (by decide)).2 (Nat.le_trans (Nat.mul_le_mul r1 c1) (by decide)))) h3) ?_
    dsimp only
    rw [Nat.sub_add_cancel hlen]
    exact Runs.bind_eq (channels_read hgt (by simp) h4) (Runs.pure rfl)
  refine hinfo.bind_eq ?_
  refine Runs.bind_eq (Runs.lift (v := tab 2 (F.blocks i).length (blockRows (F.blocks i).reverse)) rfl) ?_
  have hbp := blockPairs_ok (l := (F.blocks i).reverse) (by simpa using hne) (info := tab 2 (F.blocks i).length (blockRows (F.blocks i).reverse)) (by
    rw [List.length_reverse]
    exact tab_holds (by decide) hlen _)
  rw [List.length_reverse] at hbp
  refine Runs.bind_eq (Runs.lift hbp) ?_
  obtain ⟨m, em, -⟩ := format_holds (lfRows f i) (lfCols f i) (F.blocks i) hT.laid (fun b hb => by have := hT.mul b hb; omega)
  refine Runs.bind_eq (Runs.lift em) ?_
  refine Runs.bind_eq (Runs.lift (v := tab ((lfRows f i + 7) / 8) ((lfCols f i + 7) / 8) (F.hfX i)) rfl) ?_
  refine Runs.bind_eq (Runs.lift (v := tab ((lfRows f i + 7) / 8) ((lfCols f i + 7) / 8) (F.hfB i)) rfl) ?_
  refine Runs.bind_eq (Runs.lift (v := tab (lfRows f i) (lfCols f i) (F.sharpness i)) rfl) ?_
  refine Runs.pure ⟨hpl, hix, fun y x h1 h2 => (lfContext_ok hc hy hx hbl h1 h2).2, rfl, em, tab_holds (by omega) (by omega) _, tab_holds (by omega) (by omega) _, rfl, tab_holds r0 c0 _⟩

end

end Jxl
