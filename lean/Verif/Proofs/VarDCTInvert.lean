import Verif.Proofs.FilterFrame
import Verif.Proofs.VarDCTGroup
import Verif.Props.DequantScale

/-!
# Proofs: the sections of VarDCT frames, one after the other, and the samples of their groups
-/
namespace Jxl
open Spec

section
variable {α : Type} [Arith α]

/-- The sections can be read: whatever reads the bits of section `i` reads them in the frame. `St i` is the state before section `i`. -/
def ReadsSections (toc : TOC) (readers : List SectionReader) (n : Nat) (data : Nat → List UInt8) (start stop : Nat → Nat) (St : Nat → BR → Prop) : Prop :=
  ∀ i, i < n → ∀ {β : Type} {m : Rd β} {G : β → Prop}, Runs m (data i) (start i) (stop i) G → ∀ s, St i s → ∃ v s', onSection toc readers i m s = (.ok v, s') ∧ G v ∧ St (i + 1) s'

theorem allRead_some {β : Type} : ∀ l : List β, allRead (l.map some) = .ok l
  | [] => rfl
  | a :: l => by
    rw [List.map_cons, allRead, allRead_some l]
    rfl

variable {h : ImageHeader} {f : FrameHeader} (hp : PlainVarDCT h f) (hgrid : VarGrid f) {F : CodedFrame} (hok : F.Ok f) (hc : ContextShape F.ctx) (hd3 : F.dequant.length = 3)
  (hgt : GoodTree F.tree) {toc : TOC} {readers : List SectionReader} {data : Nat → List UInt8} {start stop : Nat → Nat} {St : Nat → BR → Prop}
  (hsec : ReadsSections toc readers (2 + varLFGroups f + varGroups f) data start stop St) (hV : VarDCTAt h F f data start stop)

theorem rest_lf {st : GlobalStream} (hst : ExtraRead h f F st) {a b : Nat} (hc : ∀ c ∈ F.rest, OnGroups 256 a b c ∧ min c.hshift c.vshift < 3) : st.rest.filter inLFGroups = [] := by
  rw [hst.rest, List.filter_eq_nil_iff]
  intro c hc'
  obtain ⟨d, hd, rfl⟩ := List.mem_map.mp hc'
  have := (hc d hd).2
  rw [Bool.not_eq_true]
  show inLFGroups d.blank = false
  unfold inLFGroups
  rw [Bool.and_eq_false_iff, decide_eq_false_iff_not, decide_eq_false_iff_not]
  show ¬ 3 ≤ d.hshift ∨ ¬ 3 ≤ d.vshift
  omega

theorem rest_pass {a b : Nat} (hc : ∀ c ∈ F.rest, OnGroups 256 a b c ∧ min c.hshift c.vshift < 3) : ∀ c ∈ F.rest, inPass (0, 3) c = true := by
  intro c hc'
  obtain ⟨h1, h2⟩ := hc c hc'
  have h3 := h1.shifts
  obtain ⟨n, hn⟩ := Int.eq_ofNat_of_zero_le (a := min c.hshift c.vshift) (by omega)
  unfold inPass passTakes
  rw [hn] at h2 ⊢
  rw [toU32_nat (by omega)]
  simp
  omega

include hp hgrid hok hc hd3 hgt hsec hV in
theorem varLFGroups_ok {st : GlobalStream} (hst : ExtraRead h f F st) (hlf31 : varLFGroups f < 2 ^ 31) (padded : Dim) (lfBuffer : List (List (List α))) : ∀ (n id : Nat), id + n ≤ varLFGroups f → ∀ s, St (1 + id) s →
    ∃ (vs : List (VarLFGroup α)) (s' : BR), readVarLFGroups h f (varLayout f) toc readers padded (F.varGlobal st) lfBuffer n id s = (.ok (vs.map some), s') ∧ St (1 + id + n) s' ∧ vs.length = n ∧
      ∀ (j : Nat) v, vs[j]? = some v → LFDecoded F f (id + j) v
  | 0, id, _, s, hs => ⟨[], s, rfl, hs, rfl, fun j v hv => by cases hv⟩
  | n + 1, id, hle, s, hs => by
    have hid : id < varLFGroups f := by omega
    obtain ⟨a, ha, hah, haw⟩ := hgrid.lfArea id hid
    have hrun := lfGroupBody_ok hp hgrid hok hc hd3 hgt hid hlf31 (hV.lf id hid) st lfBuffer
      (((id / groupsAcross 2048 f.size.width : Nat) : Int), ((id % groupsAcross 2048 f.size.width : Nat) : Int))
    obtain ⟨v, s1, e1, g1, h1⟩ := hsec (1 + id) (by omega) hrun s hs
    obtain ⟨vs, s2, e2, h2, h3, h4⟩ := varLFGroups_ok hst hlf31 padded lfBuffer n (id + 1) (by omega) s1 (by rw [show 1 + (id + 1) = 1 + id + 1 by omega]; exact h1)
    refine ⟨v :: vs, s2, ?_, by rw [show 1 + id + (n + 1) = 1 + (id + 1) + n by omega]; exact h2, by rw [List.length_cons, h3], ?_⟩
    · rw [readVarLFGroups]
      have e : readVarLFGroup h f (varLayout f) toc readers padded (F.varGlobal st) lfBuffer id s = (.ok v, s1) := by
        unfold readVarLFGroup
        rw [Rd.bind_ok (lift_ok (hgrid.lfPlace id hid) s), Rd.bind_ok (lift_ok ha s), hah, haw, Nat.shiftRight_eq_div_pow, Nat.shiftRight_eq_div_pow,
          show 8 * lfRows f id / 2 ^ 3 = lfRows f id by omega, show 8 * lfCols f id / 2 ^ 3 = lfCols f id by omega,
          show (F.varGlobal st).stream.rest.filter inLFGroups = [] from rest_lf hst hV.channels]
        exact e1
      rw [Rd.bind_ok (orEmpty_ok e), Rd.bind_ok e2]
      rfl
    · intro j w hw
      cases j with
      | zero =>
        rw [List.getElem?_cons_zero] at hw
        injection hw with hw
        rw [← hw]
        exact g1
      | succ j =>
        rw [List.getElem?_cons_succ] at hw
        rw [show id + (j + 1) = id + 1 + j by omega]
        exact h4 j w hw

include hp hgrid hok hc hgt hsec hV in
theorem varGroups_ok {st : GlobalStream} (hst : ExtraRead h f F st) (hn31 : varGroups f < 2 ^ 31) {lfgs : List (VarLFGroup α)} (hlfl : lfgs.length = varLFGroups f) (hlfg : ∀ (j : Nat) v, lfgs[j]? = some v → LFDecoded F f j v) {pass : HFPass} (hpass : PassRead' F pass) :
    ∀ (n g : Nat), g + n ≤ varGroups f → ∀ s, St (2 + varLFGroups f + g) s →
    ∃ (vs : List (VarGroup α)) (s' : BR), readVarGroups h f (varLayout f) toc readers (F.varGlobal st) lfgs F.presets [pass] (0, 3) 0 n g s = (.ok (vs.map some), s') ∧ St (2 + varLFGroups f + g + n) s' ∧
      vs.length = n ∧ ∀ (j : Nat) v, vs[j]? = some v → GroupDecoded F f (g + j) v
  | 0, g, _, s, hs => ⟨[], s, rfl, hs, rfl, fun j v hv => by cases hv⟩
  | n + 1, g, hle, s, hs => by
    have hg : g < varGroups f := by omega
    obtain ⟨hl1, -⟩ := hgrid.lfOf g hg
    have hlf : lfgs[lfGroupOf f g]? = some (lfgs[lfGroupOf f g]'(by omega)) := List.getElem?_eq_getElem (by omega)
    obtain ⟨p', hA, hE⟩ := hV.groups g hg
    have hrun := groupBody_ok st hp hgrid hok hc hg hlf (hlfg _ _ hlf) hpass hA hn31 hgt (fun c hc => (hV.channels c hc).1.shifts) hE
    obtain ⟨v, s1, e1, g1, h1⟩ := hsec (2 + varLFGroups f + g) (by omega) hrun s hs
    obtain ⟨vs, s2, e2, h2, h3, h4⟩ := varGroups_ok hst hn31 hlfl hlfg hpass n (g + 1) (by omega) s1 (by rw [show 2 + varLFGroups f + (g + 1) = 2 + varLFGroups f + g + 1 by omega]; exact h1)
    refine ⟨v :: vs, s2, ?_, by rw [show 2 + varLFGroups f + g + (n + 1) = 2 + varLFGroups f + (g + 1) + n by omega]; exact h2, by rw [List.length_cons, h3], ?_⟩
    · rw [readVarGroups]
      have e : readVarGroup h f (varLayout f) toc readers (F.varGlobal st) lfgs F.presets [pass] (0, 3) 0 g s = (.ok v, s1) := by
        unfold readVarGroup
        have hch : List.mapM (groupChannel f.groupDim g) (List.filter (inPass (0, 3)) (F.varGlobal st).stream.rest) = .ok (F.rest.map (tileEntry 256 (groupsAcross 256 f.size.width) g)) := by
          show List.mapM (groupChannel f.groupDim g) (List.filter (inPass (0, 3)) st.rest) = _
          rw [hst.rest, filter_blank, List.filter_eq_self.2 (rest_pass hV.channels), hp.groups, mapM_ok (g := tileEntry 256 (groupsAcross 256 f.size.width) g), List.map_map]
          · rfl
          · intro c hc'
            obtain ⟨d, hd, rfl⟩ := List.mem_map.mp hc'
            exact groupChannel_ok (by decide) (hV.channels d hd).1 hn31 hg
        rw [Rd.bind_ok (lift_ok hch s), show 2 + (varLayout f).numLFGroups + 0 * (varLayout f).numGroups + g = 2 + varLFGroups f + g by
          rw [Nat.zero_mul, Nat.add_zero]; rfl]
        exact e1
      rw [Rd.bind_ok (orEmpty_ok e), Rd.bind_ok e2]
      rfl
    · intro j w hw
      cases j with
      | zero =>
        rw [List.getElem?_cons_zero] at hw
        injection hw with hw
        rw [← hw]
        exact g1
      | succ j =>
        rw [List.getElem?_cons_succ] at hw
        rw [show g + (j + 1) = g + 1 + j by omega]
        exact h4 j w hw

/-- The functions, the tables and the memory of the decoder. -/
structure VarParts.Ok (V : VarParts α) (cos : Nat → Nat → Nat → α) (B : Nat → Nat → α) : Prop where
  tables : HasTables V.lut cos
  basis : HasBlock 0 0 16 16 B V.basis
  scratchLF : ∀ pass g, Table 32 32 (V.scratchLF pass g).1 ∧ Table 32 32 (V.scratchLF pass g).2
  scratch : ∀ pass g, (V.scratch pass g).Ok
  grounded : Spec.Grounded V.quant
  filters : V.filters.Ok

omit [Arith α] in
theorem stored_weights {weights : List (List (List (List α)))} (d : α) (h : Spec.Fits weights) : ∀ tt ∈ allDCT, ∃ w2, weights[tt.parameterIndex.toNat]? = some w2 ∧ ∀ c, c < 3 → ∃ w3, w2[c]? = some w3 ∧
      ∀ y x, y < min tt.pixelHeight.toNat tt.pixelWidth.toNat → x < max tt.pixelHeight.toNat tt.pixelWidth.toNat →
        sample w3 y x = some ((sample ((weights.getD tt.parameterIndex.toNat []).getD c []) y x).getD d) := by
  intro tt htt
  obtain ⟨ws, e, l, hm⟩ := h tt htt
  refine ⟨ws, e, fun c hc => ?_⟩
  have hl : c < ws.length := by omega
  refine ⟨ws[c], List.getElem?_eq_getElem hl, fun y x hy hx => ?_⟩
  obtain ⟨v, hv⟩ := (hm _ (List.getElem_mem hl)).sample hy hx
  rw [show weights.getD tt.parameterIndex.toNat [] = ws by rw [List.getD_eq_getElem?_getD, e]; rfl, List.getD_eq_getElem?_getD, List.getElem?_eq_getElem hl, Option.getD_some, hv]
  rfl

include hp in
theorem biases_ok (c : Nat) (hc : c < 3) : ((quantBiases h).map Arith.lit : List α)[c]? = some (Arith.lit (biasOf h c)) := by
  unfold quantBiases biasOf
  cases e : h.opsin with
  | none =>
    match c, hc with
    | 0, _ => rfl
    | 1, _ => rfl
    | 2, _ => rfl
  | some l =>
    have hl := hp.opsin l e
    dsimp only
    rw [List.getElem?_map, List.getElem?_take_of_lt hc, List.getElem?_drop, List.getElem?_eq_getElem (by omega), List.getD_eq_getElem?_getD, List.getElem?_eq_getElem (by omega)]
    rfl

include hp in
theorem factors_ok (pow : Nat → α) (weights : List (List (List (List α)))) (g c : Nat) (hc : c < 3) : (scaleFactors pow F.globalScale f.xqm f.bqm)[c]? = some ((F.group h f pow weights g).factor c) := by
  obtain ⟨⟨x1, x2⟩, b1, b2⟩ := hp.scales
  unfold scaleFactors CodedFrame.group
  dsimp only
  rw [show (f.xqm + 2 ^ 32 - 2) % 2 ^ 32 = f.xqm - 2 by omega, show (f.bqm + 2 ^ 32 - 2) % 2 ^ 32 = f.bqm - 2 by omega]
  match c, hc with
  | 0, _ => rfl
  | 1, _ => rfl
  | 2, _ => rfl

/-- The samples of the blocks of a group in the planes of the frame. -/
def GroupShown (F : CodedFrame) (h : ImageHeader) (f : FrameHeader) (V : VarParts α) (weights : List (List (List (List α)))) (cos : Nat → Nat → Nat → α) (B : Nat → Nat → α) (g : Nat)
    (fb : List (List (List α))) : Prop :=
  ∀ b ∈ F.blocks (lfGroupOf f g), b.y / 32 = (placeInLF f g).1 → b.x / 32 = (placeInLF f g).2 → ∀ c, c < 3 → ∃ plane, fb[c]? = some plane ∧
    HasBlock (256 * (g / groupsAcross 256 f.size.width) + 8 * (b.y - 32 * (placeInLF f g).1)) (256 * (g % groupsAcross 256 f.size.width) + 8 * (b.x - 32 * (placeInLF f g).2))
      (8 * b.rows) (8 * b.cols) (blockSamples cos B b.tt false false
        ((F.group h f V.pow weights g).formatCoeff cos V.scale (32 * (placeInLF f g).1, 32 * (placeInLF f g).2) (b.y, b.x) c b.tt b.mul)) plane

include hp hgrid hok in
theorem invertGroup_ok {st : GlobalStream} {V : VarParts α} {cos : Nat → Nat → Nat → α} {B : Nat → Nat → α} (hVo : V.Ok cos B) {weights : List (List (List (List α)))} (hw : Spec.Fits weights) {g : Nat} (hg : g < varGroups f)
    {vg : VarGroup α} (hvg : GroupDecoded F f g vg) {H W : Nat} {fb : List (List (List α))} (h3 : fb.length = 3) (hT : ∀ (c : Nat) m, fb[c]? = some m → Table H W m)
    (hH : 8 * ((f.size.height + 7) / 8) ≤ H) (hW : 8 * ((f.size.width + 7) / 8) ≤ W) :
    ∃ fb', invertVarGroup V h f (varLayout f) (F.varGlobal st) weights 0 g vg fb = .ok fb' ∧ fb'.length = 3 ∧ (∀ (c : Nat) m, fb'[c]? = some m → Table H W m) ∧ GroupShown F h f V weights cos B g fb' ∧
      ∀ (c : Nat) plane plane', fb[c]? = some plane → fb'[c]? = some plane' → ∀ j k,
        ¬ ((256 * (g / groupsAcross 256 f.size.width) ≤ j ∧ j < 256 * (g / groupsAcross 256 f.size.width) + 256) ∧
          (256 * (g % groupsAcross 256 f.size.width) ≤ k ∧ k < 256 * (g % groupsAcross 256 f.size.width) + 256)) → sample plane' j k = sample plane j k := by
  obtain ⟨hl1, -⟩ := hgrid.lfOf g hg
  obtain ⟨hTl, h44⟩ := hok.blocks _ hl1
  obtain ⟨z1, z2, z3, z4⟩ := hgrid.lfSize _ hl1
  obtain ⟨r1, r2, r3, r4⟩ := hgrid.rows g hg
  have hL := hvg.lfg
  have hS : Stored (F.group h f V.pow weights g) (fun _ => groupRows (lfRows f (lfGroupOf f g)) (placeInLF f g).1) (fun _ => groupRows (lfCols f (lfGroupOf f g)) (placeInLF f g).2)
      (fun _ => lfRows f (lfGroupOf f g)) (fun _ => lfCols f (lfGroupOf f g)) ((lfRows f (lfGroupOf f g) + 7) / 8) ((lfCols f (lfGroupOf f g) + 7) / 8) weights
      (scaleFactors V.pow F.globalScale f.xqm f.bqm) ((quantBiases h).map Arith.lit) (cflOf (F.varGlobal st) vg.lfg) vg.coeffs vg.lfg.lf := by
    refine ⟨stored_weights (Arith.lit 0) hw, fun c hc => factors_ok hp V.pow weights g c hc, fun c hc => biases_ok hp c hc, ?_, ?_, rfl, rfl, rfl, hL.hfX, hL.hfB, by omega⟩
    · intro c hc3
      obtain ⟨m, e, hm⟩ := hvg.coeffs c hc3
      rw [hvg.height, hvg.width] at hm
      exact ⟨m, e, hm⟩
    · intro c hc3
      obtain ⟨a, b, d, e, ha, hb, hd⟩ := holds3_iff.1 hL.lf
      rw [e]
      match c, hc3 with
      | 0, _ => exact ⟨a, rfl, ha.2⟩
      | 1, _ => exact ⟨b, rfl, hb.2⟩
      | 2, _ => exact ⟨d, rfl, hd.2⟩
  have hbl : blankCoeffs f vg.area = List.replicate 3 (List.replicate (groupRows (lfRows f (lfGroupOf f g)) (placeInLF f g).1)
      (List.replicate (groupRows (lfCols f (lfGroupOf f g)) (placeInLF f g).2) (Arith.lit 0 : α))) := by
    unfold blankCoeffs
    rw [hp.jpegX, hp.jpegY, hvg.height, hvg.width]
    rfl
  have hgl : (placeInLF f g).1 = g / groupsAcross 256 f.size.width % 8 ∧ (placeInLF f g).2 = g % groupsAcross 256 f.size.width % 8 := ⟨rfl, rfl⟩
  have hrl : 256 * (g / groupsAcross 256 f.size.width) + groupRows (lfRows f (lfGroupOf f g)) (placeInLF f g).1 ≤ 8 * ((f.size.height + 7) / 8) ∧
      groupRows (lfRows f (lfGroupOf f g)) (placeInLF f g).1 ≤ 256 := by
    unfold groupRows lfRows
    rw [r1, hgl.1]
    omega
  have hcl : 256 * (g % groupsAcross 256 f.size.width) + groupRows (lfCols f (lfGroupOf f g)) (placeInLF f g).2 ≤ 8 * ((f.size.width + 7) / 8) ∧
      groupRows (lfCols f (lfGroupOf f g)) (placeInLF f g).2 ≤ 256 := by
    unfold groupRows lfCols
    rw [r2, hgl.2]
    omega
  obtain ⟨t0, t1⟩ := hVo.scratchLF 0 g
  obtain ⟨m, blocks, ps, fb', t', e1, e2, e3, e4, e5, e6, e7⟩ := C68_stream_partial hTl h44 (placeInLF f g) (g / groupsAcross 256 f.size.width, g % groupsAcross 256 f.size.width) V.scale hVo.tables hVo.basis hS
    (planes := blankCoeffs f vg.area) (by rw [hbl]; rfl) (by
      intro c m hm
      rw [hbl] at hm
      have := List.mem_of_getElem? hm
      rw [List.eq_of_mem_replicate this]
      exact table_replicate _ _ _) t0 t1 h3 hT (H := H) (W := W) (Nat.le_trans hrl.1 hH) (Nat.le_trans hcl.1 hW) (hVo.scratch 0 g)
  have hcells : vg.lfg.cells = m := by
    have := e1.symm.trans hL.cells
    exact (Prod.mk.inj (Res.ok.inj this)).2.symm
  have hT' : ∀ (c : Nat) m, fb'[c]? = some m → Table H W m := by
    intro c m hm
    have hc3 : c < 3 := by
      rw [← e5]
      exact (List.getElem?_eq_some_iff.1 hm).1
    obtain ⟨b, hb, hcov⟩ := hTl.all (32 * (placeInLF f g).1) (32 * (placeInLF f g).2) (by
      unfold lfRows
      rw [r1, hgl.1]
      omega) (by
      unfold lfCols
      rw [r2, hgl.2]
      omega)
    have hgr := hTl.group b hb
    unfold Block.Covers at hcov
    obtain ⟨pl, k1, k2, -⟩ := e6 b hb (by omega) (by omega) c hc3
    rw [hm] at k1
    injection k1 with k1
    rw [k1]
    exact k2
  refine ⟨fb', ?_, e5, hT', ?_, ?_⟩
  · unfold invertVarGroup
    dsimp only
    rw [hvg.pos, Int.toNat_natCast, Int.toNat_natCast, hcells, hL.points, e2, Res.bind_ok, hp.jpegX, hp.jpegY]
    have e3' : bakeDequantizedCoeffs V.lut V.scale weights (scaleFactors V.pow (F.varGlobal st).globalScale f.xqm f.bqm) ((quantBiases h).map Arith.lit) (Arith.lit (quantNumerator h)) (cflOf (F.varGlobal st) vg.lfg)
        vg.coeffs vg.lfg.lf ([0, 0, 0].zip [0, 0, 0]) (32 * (placeInLF f g).1, 32 * (placeInLF f g).2) blocks (blankCoeffs f vg.area) (V.scratchLF 0 g) = .ok ps := e3
    rw [e3', Res.bind_ok, hgrid.place g hg, Res.bind_ok]
    dsimp only
    rw [Int.toNat_natCast, Int.toNat_natCast]
    have e4' : invertVarDCT V.lut V.basis (decide (0 < 0)) ps ([0, 0, 0].zip [0, 0, 0]) (g / groupsAcross 256 f.size.width, g % groupsAcross 256 f.size.width) (blocks.map QBlock.toVBlock) fb
        (V.scratch 0 g) = .ok (fb', t') := e4
    rw [e4', Res.bind_ok]
  · intro b hb hy hx c hc3
    obtain ⟨pl, k1, -, k2⟩ := e6 b hb hy hx c hc3
    exact ⟨pl, k1, k2⟩
  · intro c plane plane' q1 q2 j k hout
    refine e7 c plane plane' q1 q2 j k ?_
    dsimp only
    omega

/-- Samples of other groups are kept. -/
theorem shown_kept {V : VarParts α} {weights : List (List (List (List α)))} {cos : Nat → Nat → Nat → α} {B : Nat → Nat → α} {g g' : Nat} (hne : g' ≠ g)
    (hT : ∀ b ∈ F.blocks (lfGroupOf f g'), b.y % 32 + b.rows ≤ 32 ∧ b.x % 32 + b.cols ≤ 32) {fb fb' : List (List (List α))} (hl' : fb'.length = 3)
    (hS : GroupShown F h f V weights cos B g' fb)
    (hk : ∀ (c : Nat) plane plane', fb[c]? = some plane → fb'[c]? = some plane' → ∀ j k,
        ¬ ((256 * (g / groupsAcross 256 f.size.width) ≤ j ∧ j < 256 * (g / groupsAcross 256 f.size.width) + 256) ∧
          (256 * (g % groupsAcross 256 f.size.width) ≤ k ∧ k < 256 * (g % groupsAcross 256 f.size.width) + 256)) → sample plane' j k = sample plane j k) :
    GroupShown F h f V weights cos B g' fb' := by
  intro b hb hy hx c hc
  obtain ⟨plane, e, hB⟩ := hS b hb hy hx c hc
  refine ⟨fb'[c]'(by omega), List.getElem?_eq_getElem (by omega), fun y x h1 h2 => ?_⟩
  rw [← hB y x h1 h2]
  refine hk c plane _ e (List.getElem?_eq_getElem (by omega)) _ _ ?_
  obtain ⟨t1, t2⟩ := hT b hb
  intro ⟨⟨a1, a2⟩, a3, a4⟩
  apply hne
  have q1 : g' / groupsAcross 256 f.size.width = g / groupsAcross 256 f.size.width := by omega
  have q2 : g' % groupsAcross 256 f.size.width = g % groupsAcross 256 f.size.width := by omega
  rw [← Nat.div_add_mod g' (groupsAcross 256 f.size.width), ← Nat.div_add_mod g (groupsAcross 256 f.size.width), q1, q2]

include hp hgrid hok in
theorem invertGroups_ok {st : GlobalStream} {V : VarParts α} {cos : Nat → Nat → Nat → α} {B : Nat → Nat → α} (hVo : V.Ok cos B) {weights : List (List (List (List α)))} (hw : Spec.Fits weights) {H W : Nat}
    (hH : 8 * ((f.size.height + 7) / 8) ≤ H) (hW : 8 * ((f.size.width + 7) / 8) ≤ W) : ∀ (vs : List (VarGroup α)) (g : Nat), g + vs.length ≤ varGroups f →
    (∀ (j : Nat) v, vs[j]? = some v → GroupDecoded F f (g + j) v) → ∀ fb : List (List (List α)), fb.length = 3 → (∀ (c : Nat) m, fb[c]? = some m → Table H W m) →
    (∀ g', g' < g → GroupShown F h f V weights cos B g' fb) →
    ∃ fb', invertVarGroups V h f (varLayout f) (F.varGlobal st) weights 0 (vs.map some) g fb = .ok fb' ∧ fb'.length = 3 ∧ (∀ (c : Nat) m, fb'[c]? = some m → Table H W m) ∧
      ∀ g', g' < g + vs.length → GroupShown F h f V weights cos B g' fb'
  | [], g, _, _, fb, h3, hT, hS => ⟨fb, rfl, h3, hT, hS⟩
  | v :: vs, g, hle, hv, fb, h3, hT, hS => by
    rw [List.length_cons] at hle
    have hg : g < varGroups f := by omega
    obtain ⟨fb1, e1, l1, t1, s1, k1⟩ := invertGroup_ok (st := st) hp hgrid hok hVo hw hg (hv 0 v rfl) h3 hT hH hW
    obtain ⟨fb2, e2, l2, t2, s2⟩ := invertGroups_ok hVo hw hH hW vs (g + 1) (by omega) (by
      intro j u hu
      rw [show g + 1 + j = g + (j + 1) by omega]
      exact hv (j + 1) u hu) fb1 l1 t1 (by
      intro g' hg'
      by_cases e : g' = g
      · rw [e]
        exact s1
      · have hlf := (hgrid.lfOf g' (by omega)).1
        exact shown_kept e (hok.blocks _ hlf).1.group l1 (hS g' (by omega)) k1)
    refine ⟨fb2, ?_, l2, t2, ?_⟩
    · rw [List.map_cons, invertVarGroups, e1, Res.bind_ok, e2]
    · intro g' hg'
      rw [List.length_cons] at hg'
      exact s2 g' (by omega)

include hgrid in
/-- The group of a block. -/
theorem blockGroup {i : Nat} (hi : i < varLFGroups f) {b : Block} (hy : b.y < lfRows f i) (hx : b.x < lfCols f i) : groupOfBlock f i b < varGroups f ∧ lfGroupOf f (groupOfBlock f i b) = i ∧
    placeInLF f (groupOfBlock f i b) = (b.y / 32, b.x / 32) ∧ groupOfBlock f i b / groupsAcross 256 f.size.width = 8 * (i / groupsAcross 2048 f.size.width) + b.y / 32 ∧
    groupOfBlock f i b % groupsAcross 256 f.size.width = 8 * (i % groupsAcross 2048 f.size.width) + b.x / 32 := by
  obtain ⟨z1, z2, z3, z4⟩ := hgrid.lfSize i hi
  have hA : 0 < groupsAcross 256 f.size.width := Nat.succ_pos _
  have hb1 : 8 * (i % groupsAcross 2048 f.size.width) + b.x / 32 < groupsAcross 256 f.size.width := by
    unfold lfCols at hx
    unfold groupsAcross at *
    omega
  have hb2 : 8 * (i / groupsAcross 2048 f.size.width) + b.y / 32 < groupsAcross 256 f.size.height := by
    unfold lfRows at hy
    unfold groupsAcross at *
    omega
  have e1 : groupOfBlock f i b / groupsAcross 256 f.size.width = 8 * (i / groupsAcross 2048 f.size.width) + b.y / 32 := by
    unfold groupOfBlock
    rw [Nat.add_comm, Nat.add_mul_div_right _ _ hA, Nat.div_eq_of_lt hb1, Nat.zero_add]
  have e2 : groupOfBlock f i b % groupsAcross 256 f.size.width = 8 * (i % groupsAcross 2048 f.size.width) + b.x / 32 := by
    unfold groupOfBlock
    rw [Nat.add_comm, Nat.add_mul_mod_self_right, Nat.mod_eq_of_lt hb1]
  refine ⟨?_, ?_, ?_, e1, e2⟩
  · unfold varGroups
    rw [Nat.mul_comm]
    exact (Nat.div_lt_iff_lt_mul hA).1 (by rw [e1]; exact hb2)
  · unfold lfGroupOf
    rw [e1, e2, show (8 * (i / groupsAcross 2048 f.size.width) + b.y / 32) / 8 = i / groupsAcross 2048 f.size.width by omega,
      show (8 * (i % groupsAcross 2048 f.size.width) + b.x / 32) / 8 = i % groupsAcross 2048 f.size.width by omega, Nat.mul_comm]
    exact Nat.div_add_mod i _
  · unfold placeInLF
    rw [e1, e2]
    exact Prod.ext (by dsimp only; omega) (by dsimp only; omega)

/-- A reader at a given bit. -/
theorem exists_atBit {data : List UInt8} {p : Nat} (hle : p ≤ 8 * data.length) : ∃ s : BR, AtBit s p ∧ s.data = data := by
  by_cases h0 : p % 8 = 0
  · exact ⟨⟨data, p / 8, 0, 0, 0⟩, Or.inl ⟨rfl, by dsimp only; omega, by dsimp only; omega⟩, rfl⟩
  · refine ⟨⟨data, p / 8 + 1, 0, p % 8, data[p / 8]'(by omega)⟩, Or.inr ⟨by dsimp only; omega, by dsimp only; omega, by dsimp only; omega, ?_, by dsimp only; omega⟩, rfl⟩
    dsimp only
    rw [Nat.add_sub_cancel]
    exact List.getElem?_eq_getElem _

theorem params_shape {data : List UInt8} {p q : Nat} {ps : List DCTParam} (hA : DecAt decHFParams data p q ps) :
    ps.length = 17 ∧ ∀ k p, ps[k]? = some p → Spec.ParamShape (0 + k) p := by
  have hp0 : p ≤ 8 * data.length := by
    by_contra hgt
    have h2 := hA.2
    rw [show bitsFrom data p = [] from List.drop_eq_nil_of_le (by rw [length_streamBits]; omega)] at h2
    cases h2
  obtain ⟨s, hs, hd⟩ := exists_atBit hp0
  obtain ⟨v, s', e, -, -, rfl⟩ := Runs.dec (follows_hfParams (fun _ _ _ => Rd.fail)) hA s hs hd
  have key : Safe (do let d ← readBool; readIf (!d) (readParams (fun _ _ _ => Rd.fail) 17 0) defaultParams)
      (fun ps => ps.length = 17 ∧ ∀ k p, ps[k]? = some p → Spec.ParamShape (0 + k) p) := by
    refine Safe.bind safe_bool fun d _ => safe_if (safe_readParams (fun _ _ _ _ => Safe.fail) 17 0 (by omega)) ⟨rfl, fun k p h => ?_⟩
    rw [Nat.zero_add]
    exact default_shape h
  exact key.onOk s _ s' e

theorem weights_fit {Q : QuantFuncs α} (hQ : Spec.Grounded Q) {ps : List DCTParam} (hps : ps.length = 17 ∧ ∀ k p, ps[k]? = some p → Spec.ParamShape (0 + k) p)
    {weights : List (List (List (List α)))} (hw : allWeights Q ps 0 = .ok weights) : Spec.Fits weights := by
  have hW := safe_allWeights hQ ps 0 hps.2
  rw [hw] at hW
  intro tt htt
  have hall : ∀ tt ∈ allDCT, tt.parameterIndex.toNat < 17 ∧ Spec.matrixSize[tt.parameterIndex.toNat]? = some (min tt.pixelHeight.toNat tt.pixelWidth.toNat, max tt.pixelHeight.toNat tt.pixelWidth.toNat) := by
    decide
  obtain ⟨h1, h2⟩ := hall tt htt
  obtain ⟨ws, h, w, e1, e2, e3⟩ := hW tt.parameterIndex.toNat (by rw [hps.1]; exact h1)
  rw [Nat.zero_add, h2] at e2
  cases e2
  exact ⟨ws, e1, e3⟩

include hp hgrid hok hc hd3 hgt hsec hV in
theorem varSections_ok {st : GlobalStream} (hst : ExtraRead h f F st) (hn : varGroups f < 2 ^ 31) (hlf31 : varLFGroups f < 2 ^ 31) {V : VarParts α} {cos : Nat → Nat → Nat → α} {B : Nat → Nat → α} (hVo : V.Ok cos B)
    {weights : List (List (List (List α)))} (hw : allWeights V.quant F.params 0 = .ok weights) (padded : Dim) (lfBuffer fb : List (List (List α))) (h3 : fb.length = 3)
    (hT : ∀ (c : Nat) m, fb[c]? = some m → Table (8 * ((f.size.height + 7) / 8)) (8 * ((f.size.width + 7) / 8)) m) (s : BR) (hs : St 1 s) :
    ∃ fb' res lfs s', decodeVarGroups V h f (varLayout f) toc readers padded (F.varGlobal st) lfBuffer fb s = (.ok (fb', res, lfs), s') ∧ St (2 + varLFGroups f + varGroups f) s' ∧
      res.map MChan.toChan = (imageChannels h.extra.length f.size F.channels.v).map MChan.toChan ∧
      F.ShownIn h f cos B V.scale V.pow weights fb' ∧ lfs.length = varLFGroups f ∧ ∀ (j : Nat) v, lfs[j]? = some v → LFDecoded F f j v := by
  have hg0 : 0 < varGroups f := Nat.mul_pos (Nat.succ_pos _) (Nat.succ_pos _)
  obtain ⟨p1, p2, hA, -⟩ := hV.hf
  have hfit := weights_fit hVo.grounded (params_shape hA) hw
  obtain ⟨lfs, s1, e1, st1, l1, d1⟩ := varLFGroups_ok hp hgrid hok hc hd3 hgt hsec hV hst hlf31 padded lfBuffer (varLFGroups f) 0 (by omega) s hs
  rw [Nat.add_zero] at st1
  have d1' : ∀ (j : Nat) v, lfs[j]? = some v → LFDecoded F f j v := by
    intro j v hj
    have := d1 j v hj
    rwa [Nat.zero_add] at this
  obtain ⟨hf, s2, e2, ⟨hf1, pass, hf2, hpass⟩, st2⟩ := hsec (1 + varLFGroups f) (by omega) (hfSection_ok st hp hok hc hw hg0 hn hV.hf) s1 st1
  obtain ⟨vs, s3, e3, st3, l3, d3⟩ := varGroups_ok hp hgrid hok hc hgt hsec hV hst hn l1 d1' hpass (varGroups f) 0 (by omega) s2 (by
    rw [show 2 + varLFGroups f + 0 = 1 + varLFGroups f + 1 by omega]
    exact st2)
  obtain ⟨fb', e4, l4, t4, s4⟩ := invertGroups_ok (st := st) hp hgrid hok hVo hfit (Nat.le_refl _) (Nat.le_refl _) vs 0 (by omega) (fun j v hj => d3 j v hj) fb h3 hT
    (fun g' hg' => absurd hg' (Nat.not_lt_zero _))
  obtain ⟨res, er1, er2⟩ := hst.undo
  refine ⟨fb', res, lfs, s3, ?_, by rwa [Nat.add_zero] at st3, er2, ⟨l4, ?_⟩, l1, d1'⟩
  · unfold decodeVarGroups
    rw [show (varLayout f).numLFGroups = varLFGroups f from rfl, Rd.bind_ok e1, Rd.bind_ok (lift_ok (allRead_some lfs) _)]
    have ep : pasteLF (lfs.map VarLFGroup.stream) (F.varGlobal st).stream.rest (F.varGlobal st).stream.done.length = .ok (F.rest.map MChan.blank) := by
      have key : ∀ (gs : List (List (MChan × Origin))) (cs : List MChan) (i : Nat), cs.filter inLFGroups = [] → pasteLF gs cs i = .ok cs := by
        intro gs cs
        induction cs with
        | nil => intro i _; rfl
        | cons c cs ih =>
          intro i hf
          rw [List.filter_eq_nil_iff] at hf
          rw [pasteLF, if_neg (hf c List.mem_cons_self), Res.bind_ok, ih _ (List.filter_eq_nil_iff.2 fun d hd => hf d (List.mem_cons_of_mem _ hd))]
          rfl
      show pasteLF (lfs.map VarLFGroup.stream) st.rest st.done.length = _
      rw [key _ _ _ (rest_lf hst hV.channels), hst.rest]
    rw [Rd.bind_ok (lift_ok ep _), Rd.bind_ok e2]
    have eps : passShifts f.passes f.passes.numPasses 0 3 = .ok [(0, 3)] := by
      rw [hp.passes]
      rfl
    rw [Rd.bind_ok (lift_ok eps _), hf1, hf2]
    dsimp only
    have e3' : readVarPasses h f (varLayout f) toc readers (F.varGlobal st) lfs F.presets [pass] [(0, 3)] 0 s2 = (.ok [vs.map some], s3) := by
      rw [readVarPasses, show (varLayout f).numGroups = varGroups f from rfl, Rd.bind_ok e3]
      rfl
    rw [Rd.bind_ok e3']
    have epp : pastePasses [(0, 3)] ([vs.map some].map fun gs => gs.map fun a => a.map VarGroup.stream) (F.rest.map MChan.blank) = .ok (F.rest.map MChan.erase) := by
      have hpp := pastePasses_ok (groupDim := 256) (by decide) hn (cs := F.rest) (fun c hc => (hV.channels c hc).1) (shs := [(0, 3)])
        (groups := [vs.map some].map fun gs => gs.map fun a => a.map VarGroup.stream) (.cons ⟨by rw [List.length_map, List.length_map, l3]; rfl, ?_⟩ .nil) (fun _ => false)
      · rw [show F.rest.map (pasted fun _ => false) = F.rest.map MChan.blank from rfl] at hpp
        rw [hpp]
        refine congrArg Res.ok (List.map_congr_left fun c hc => ?_)
        unfold pasted
        beta_reduce
        rw [show (false || [((0 : Nat), 3)].any fun sh => inPass sh c) = true by simp [rest_pass hV.channels c hc], if_pos rfl]
      · rw [List.filter_eq_self.2 (rest_pass hV.channels)]
        intro i hi
        rw [List.length_map, List.length_map] at hi
        refine ⟨(vs[i]'hi).stream, ?_, ?_⟩
        · show ((vs.map some).map fun a => a.map VarGroup.stream)[i]? = _
          rw [List.map_map, List.getElem?_map, List.getElem?_eq_getElem hi]
          rfl
        · exact (d3 i _ (List.getElem?_eq_getElem hi)).stream
    rw [Rd.bind_ok (lift_ok epp _)]
    have e4' : invertVarPasses V h f (varLayout f) (F.varGlobal st) weights [vs.map some] 0 fb = .ok fb' := by
      rw [invertVarPasses, e4, Res.bind_ok]
      rfl
    rw [Rd.bind_ok (lift_ok e4' _), Rd.bind_ok (lift_ok (show applyTransforms h.bitDepth.bits (F.varGlobal st).stream.steps ((F.varGlobal st).stream.done ++ F.rest.map MChan.erase) = .ok res from er1) _)]
    rfl
  · intro c plane hcp
    have hc3 : c < 3 := by
      rw [← l4]
      exact (List.getElem?_eq_some_iff.1 hcp).1
    refine ⟨t4 c plane hcp, fun i hi b hb => ?_⟩
    have hin := laid_inside (hok.blocks i hi).1.laid b hb
    have hcov := covers_self (b := b) hin.1
    unfold Block.Covers at hcov
    obtain ⟨g1, g2, g3, g4, g5⟩ := blockGroup hgrid hi (b := b) (by have := hin.2; omega) (by have := hin.2; omega)
    have hsh := s4 (groupOfBlock f i b) (by omega) b (by rw [g2]; exact hb) (by rw [g3]) (by rw [g3]) c hc3
    obtain ⟨pl, k1, k2⟩ := hsh
    rw [hcp] at k1
    injection k1 with k1
    rw [g3, g4, g5] at k2
    dsimp only at k2
    unfold CodedFrame.samplesOf
    rw [show 2048 * (i / groupsAcross 2048 f.size.width) + 8 * b.y = 256 * (8 * (i / groupsAcross 2048 f.size.width) + b.y / 32) + 8 * (b.y - 32 * (b.y / 32)) by omega,
      show 2048 * (i % groupsAcross 2048 f.size.width) + 8 * b.x = 256 * (8 * (i % groupsAcross 2048 f.size.width) + b.x / 32) + 8 * (b.x - 32 * (b.x / 32)) by omega, k1]
    exact k2

end

end Jxl
