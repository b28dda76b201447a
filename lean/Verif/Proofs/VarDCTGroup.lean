import Verif.Proofs.VarDCTOrders

/-!
# Proofs: the weights, passes and groups of VarDCT frames
-/
namespace Jxl
open Spec

/-! ## The section of weights and passes -/

theorem follows_dctParams (readRaw : Nat → Nat → Nat → Rd (List (List (List Int)))) : ∀ n i, Follows (readParams readRaw n i) (decParams n i)
  | 0, _ => Follows.pure _
  | n + 1, i => by
    unfold readParams decParams
    refine Follows.bind (C75_reads_partial readRaw i) fun p => ?_
    exact Follows.bind (follows_dctParams readRaw n (i + 1)) fun ps => Follows.pure _

theorem follows_hfParams (readRaw : Nat → Nat → Nat → Rd (List (List (List Int)))) :
    Follows (do let d ← readBool; readIf (!d) (readParams readRaw 17 0) defaultParams) decHFParams := by
  unfold decHFParams
  refine Follows.bind implements_bool.follows fun d => ?_
  cases d with
  | true => exact Follows.pure _
  | false => exact follows_dctParams readRaw 17 0

/-- A pass has been read. -/
def PassRead' (F : CodedFrame) (pass : HFPass) : Prop :=
  pass.order = F.orders ∧ pass.contextStream = F.codes ∧ ∃ s0 s0', readHFPass F.presets F.ctx.numClusters s0 = (.ok pass, s0')

theorem pass_fresh {presets clusters : Int} {s s' : BR} {pass : HFPass} (h : readHFPass presets clusters s = (.ok pass, s')) :
    pass.contextStream.fresh = pass.contextStream ∧ pass.contextStream.state = none ∧ pass.contextStream.numToCopy = 0 ∧ pass.contextStream.numDecoded = 0 := by
  have key : OnOk (readHFPass presets clusters) (fun pass => pass.contextStream.fresh = pass.contextStream ∧ pass.contextStream.state = none ∧ pass.contextStream.numToCopy = 0 ∧
      pass.contextStream.numDecoded = 0) := by
    have load : ∀ n, OnOk (ES.load n false) (fun es => es.fresh = es ∧ es.state = none ∧ es.numToCopy = 0 ∧ es.numDecoded = 0) := by
      intro n s es s' h
      obtain ⟨h1, h2, h3, h4⟩ := load_fresh h
      exact ⟨h4, h1, h2, h3⟩
    unfold readHFPass
    refine OnOk.bind (OnOk.trivial _) fun used _ => ?_
    split
    · refine OnOk.bind (OnOk.trivial _) fun es _ => ?_
      refine OnOk.bind (OnOk.trivial _) fun o _ => ?_
      split
      · exact OnOk.bind (load _) fun ctx hc => OnOk.pure hc
      · exact OnOk.fail
    · refine OnOk.bind (OnOk.trivial _) fun o _ => ?_
      exact OnOk.bind (load _) fun ctx hc => OnOk.pure hc
  exact key s pass s' h

section
variable {α : Type} [Arith α]

theorem hfSection_ok {Q : QuantFuncs α} {h : ImageHeader} {f : FrameHeader} (st : GlobalStream) (hp : PlainVarDCT h f) {F : CodedFrame} (hok : F.Ok f) (hx : ContextShape F.ctx) {weights : List (List (List (List α)))}
    (hw : allWeights Q F.params 0 = .ok weights) (hg : 0 < varGroups f) (hg31 : varGroups f < 2 ^ 31) {data : List UInt8} {p q : Nat} (hA : HFSectionAt F f data p q) :
    Runs (readHFSection Q h f (varLayout f) (F.varGlobal st)) data p q (fun v => v.1 = (weights, F.presets) ∧ ∃ pass, v.2 = [pass] ∧ PassRead' F pass) := by
  obtain ⟨p1, p2, h1, h2, h3⟩ := hA
  unfold readHFSection
  have hglob : Runs (readHFGlobal Q (readRawMatrix h.bitDepth.bits (F.varGlobal st).tree (varLayout f).numLFGroups) (varLayout f).numGroups) data p p2 (· = (weights, F.presets)) := by
    have e : readHFGlobal Q (readRawMatrix h.bitDepth.bits (F.varGlobal st).tree (varLayout f).numLFGroups) (varLayout f).numGroups =
        ((do let d ← readBool; readIf (!d) (readParams (readRawMatrix h.bitDepth.bits (F.varGlobal st).tree (varLayout f).numLFGroups) 17 0) defaultParams) >>= fun params => do
          let weights ← Rd.lift (allWeights Q params 0)
          let presets ← readBits (ceilLog1p ((varLayout f).numGroups - 1))
          pure (weights, 1 + presets)) := by
      unfold readHFGlobal
      rw [bind_assoc3]
    rw [e]
    refine Runs.bind_eq (Runs.dec (follows_hfParams _) h1) ?_
    refine Runs.bind_eq (Runs.lift hw) ?_
    rw [show (varLayout f).numGroups = varGroups f from rfl, preset_bits _ hg]
    refine Runs.bind_eq (Runs.dec (follows_bits _ ?_) h2) ?_
    · have : Nat.clog 2 (varGroups f) ≤ 31 := (Nat.clog_le_iff_le_pow (by decide)).2 (by omega)
      omega
    refine Runs.pure ?_
    have := hok.presets.1
    rw [show 1 + (F.presets - 1) = F.presets by omega]
  refine hglob.bind_eq ?_
  dsimp only
  rw [show f.passes.numPasses = 1 by rw [hp.passes]; rfl]
  unfold readHFPasses readHFPasses
  intro s hs hd
  have hn : ((F.ctx.numClusters.toNat : Nat) : Int) = F.ctx.numClusters := by
    refine Int.toNat_of_nonneg ?_
    have h0 := hx.well.lf
    have h1 := hx.well.size
    have : 0 < F.ctx.clusterMap.length := by
      have : (0 : Int) < 39 * ((F.ctx.qfThresholds.length : Int) + 1) * F.ctx.numLFContexts := by positivity
      omega
    have := hx.well.entries _ (List.getElem_mem this)
    omega
  have hsm : 495 * F.ctx.numClusters.toNat * F.presets < 2147483648 := by
    have := hok.presets.2.1
    rw [← hn] at this
    exact_mod_cast this
  obtain ⟨s', pass, e1, e2, e3, e4, e5⟩ := passAt_reads hsm h3 s hd hs
  rw [hn] at e1
  refine ⟨((weights, F.presets), [pass]), s', ?_, e2, e3, rfl, pass, rfl, e4, e5, s, s', e1⟩
  rw [Rd.bind_ok (show (do let p ← readHFPass (F.presets : Int) (F.varGlobal st).hfctx.numClusters; let ps ← (pure [] : Rd (List HFPass)); pure (p :: ps)) s = (.ok [pass], s') by
    rw [show (F.varGlobal st).hfctx.numClusters = F.ctx.numClusters from rfl, Rd.bind_ok e1]; rfl)]
  rfl

/-! ## Groups -/

/-- What the decoder knows about a group. -/
structure GroupDecoded (F : CodedFrame) (f : FrameHeader) (g : Nat) (v : VarGroup α) : Prop where
  lfg : LFDecoded F f (lfGroupOf f g) v.lfg
  pos : v.pos = (((32 * (placeInLF f g).1 : Nat) : Int), ((32 * (placeInLF f g).2 : Nat) : Int))
  height : v.area.height = groupRows (lfRows f (lfGroupOf f g)) (placeInLF f g).1
  width : v.area.width = groupRows (lfCols f (lfGroupOf f g)) (placeInLF f g).2
  coeffs : ∀ c, c < 3 → ∃ m, v.coeffs[c]? = some m ∧ ∀ y x, y < v.area.height → x < v.area.width → sample m y x = some (F.q g c y x)
  stream : List.Forall₂ (TileRead 256 (groupsAcross 256 f.size.width) g) F.rest v.stream

theorem groupBlocks_ok {h w : Nat} {l : List Block} {m : HFMetadata} (Hm : Holds h w l m) {lfIndex : List (List Int)} {ctx : Nat → Nat → Int} (hix : HoldsMat h w ctx lfIndex) (g : Nat × Nat) :
    ∀ l' : List Block, (∀ b ∈ l', b ∈ l) →
    groupBlocks m lfIndex ((32 * g.1 : Nat) : Int) ((32 * g.2 : Nat) : Int) (l'.map (fun b => (⟨b.y, b.x⟩ : Point))) =
      .ok ((l'.filter (fun b => b.inGroup g)).map (fun b => (⟨((b.y - 32 * g.1 : Nat) : Int), ((b.x - 32 * g.2 : Nat) : Int), b.tt, b.mul, ctx b.y b.x⟩ : HFBlock))) := by
  intro l'
  induction l' with
  | nil => intro _; rfl
  | cons b bs ih =>
    intro hsub
    have ih := ih (fun c hc => hsub c (List.mem_cons_of_mem _ hc))
    have hb := hsub b List.mem_cons_self
    have hi := Hm.inside b hb
    have hcov := covers_self (b := b) hi.1
    obtain ⟨s1, s2⟩ := Hm.covered b hb b.y b.x hcov
    obtain ⟨_, ht, _⟩ := block_tt hi.1
    rw [ht] at s1
    have hin := hi.2
    have s3 := hix.2 b.y b.x (by unfold Block.Covers at hcov; omega) (by unfold Block.Covers at hcov; omega)
    rw [List.map_cons, groupBlocks]
    dsimp only
    by_cases hg : b.inGroup g = true
    · have hg' : b.y / 32 = g.1 ∧ b.x / 32 = g.2 := of_decide_eq_true hg
      rw [if_neg (by omega), at2_sample s1, Res.bind_ok, at2_sample s2, Res.bind_ok, at2_sample s3, Res.bind_ok]
      dsimp only
      rw [ih, Res.bind_ok, List.filter_cons_of_pos hg, List.map_cons]
      congr 3
      · omega
      · omega
    · have hg' : ¬ (b.y / 32 = g.1 ∧ b.x / 32 = g.2) := fun hh => hg (decide_eq_true hh)
      rw [if_pos (by omega), ih, List.filter_cons_of_neg hg]

/-! ## Symbols are 32-bit numbers -/

theorem nonzeros_le (n ctx B : Nat) : ∀ (vs : List Int) (k : Nat) (prev : Bool), nonzeros vs ≤ (valueSymbols n ctx B k (nonzeros vs) prev vs).length
  | [], _, _ => Nat.le_refl _
  | v :: vs, k, prev => by
    rw [valueSymbols]
    by_cases h0 : nonzeros (v :: vs) = 0
    · rw [h0]
      exact Nat.zero_le _
    · rw [if_neg h0, List.length_cons]
      by_cases hv : v = 0
      · have e : nonzeros (v :: vs) = nonzeros vs := by
          unfold nonzeros
          rw [List.countP_cons_of_neg (by simp [hv])]
        rw [if_pos hv, e]
        have := nonzeros_le n ctx B vs (k + 1) (decide (v ≠ 0))
        omega
      · have e : nonzeros (v :: vs) = nonzeros vs + 1 := by
          unfold nonzeros
          rw [List.countP_cons_of_pos (by simp [hv])]
        rw [if_neg hv, e, Nat.add_sub_cancel]
        have := nonzeros_le n ctx B vs (k + 1) (decide (v ≠ 0))
        omega

theorem valueSymbols_lt (n ctx B : Nat) : ∀ (vs : List Int) (k left : Nat) (prev : Bool), (∀ v ∈ vs, -2 ^ 30 ≤ v ∧ v < 2 ^ 30) → ∀ t ∈ valueSymbols n ctx B k left prev vs, t.2 < 2147483648
  | [], _, _, _, _, t, ht => by cases ht
  | v :: vs, k, left, prev, h, t, ht => by
    rw [valueSymbols] at ht
    split at ht
    · cases ht
    · rcases List.mem_cons.1 ht with rfl | ht
      · have := h v List.mem_cons_self
        exact packed_lt (by omega) (by omega)
      · exact valueSymbols_lt n ctx B vs _ _ _ (fun v hv => h v (List.mem_cons_of_mem _ hv)) t ht

theorem channelSymbols_lt {hf : HFBlockContext} {orders : List (List (List Point))} {uy ux : Nat → Nat} {q : Nat → Nat → Nat → Int} (hq : ∀ c y x, -2 ^ 30 ≤ q c y x ∧ q c y x < 2 ^ 30)
    (b : HFBlock) (c : Nat) (counts : Nat → Nat → Nat → Nat) (hl : (channelSymbols hf orders uy ux q b c counts).length < 2147483648) :
    ∀ t ∈ channelSymbols hf orders uy ux q b c counts, t.2 < 2147483648 := by
  intro t ht
  unfold channelSymbols at ht hl
  split at ht
  · rename_i hg
    rw [if_pos hg] at hl
    unfold blockSymbols at ht hl
    rw [List.length_cons] at hl
    rcases List.mem_cons.1 ht with rfl | ht
    · have := nonzeros_le hf.numClusters.toNat (blockContext hf c b) (squares b.tt) (channelValues orders uy ux q b c) (squares b.tt)
        (decide (nonzeros (channelValues orders uy ux q b c) ≤ 64 * squares b.tt / 16))
      exact Nat.lt_of_le_of_lt this (by omega)
    · refine valueSymbols_lt _ _ _ _ _ _ _ ?_ t ht
      intro v hv
      unfold channelValues at hv
      obtain ⟨p, -, rfl⟩ := List.mem_map.1 hv
      exact hq _ _ _
  · cases ht

theorem groupSymbols_lt {hf : HFBlockContext} {orders : List (List (List Point))} {uy ux : Nat → Nat} {q : Nat → Nat → Nat → Int} (hq : ∀ c y x, -2 ^ 30 ≤ q c y x ∧ q c y x < 2 ^ 30) :
    ∀ (bs : List HFBlock) (n : Nat → Nat → Nat → Nat), (groupSymbols hf orders uy ux q bs n).length < 2147483648 → ∀ t ∈ groupSymbols hf orders uy ux q bs n, t.2 < 2147483648
  | [], _, _, t, ht => by cases ht
  | b :: bs, n, hl, t, ht => by
    rw [groupSymbols] at ht hl
    simp only [List.length_append] at hl
    rcases List.mem_append.1 ht with ht | ht
    · exact channelSymbols_lt hq b 1 _ (by omega) t ht
    rcases List.mem_append.1 ht with ht | ht
    · exact channelSymbols_lt hq b 0 _ (by omega) t ht
    rcases List.mem_append.1 ht with ht | ht
    · exact channelSymbols_lt hq b 2 _ (by omega) t ht
    · exact groupSymbols_lt hq bs _ (by omega) t ht

theorem dctSides : ∀ tt ∈ allDCT, tt.pixelHeight.toNat = 8 * tt.dctHeight.toNat ∧ tt.pixelWidth.toNat = 8 * tt.dctWidth.toNat := by decide

/-- The blocks of a group lie in it. -/
theorem hfBlock_fits {F : CodedFrame} {f : FrameHeader} {g : Nat} (hT : Tiled (lfRows f (lfGroupOf f g)) (lfCols f (lfGroupOf f g)) (F.blocks (lfGroupOf f g))) {b : Block} (hb : b ∈ F.groupBlocks f g) :
    b ∈ F.blocks (lfGroupOf f g) ∧ b.inGroup (placeInLF f g) = true ∧ b.tt ∈ allDCT ∧ b.tt.dctHeight.toNat = b.rows ∧ b.tt.dctWidth.toNat = b.cols ∧
    b.y < lfRows f (lfGroupOf f g) ∧ b.x < lfCols f (lfGroupOf f g) ∧
    (b.y - 32 * (placeInLF f g).1) + b.rows ≤ 32 ∧ (b.x - 32 * (placeInLF f g).2) + b.cols ≤ 32 ∧
    8 * ((b.y - 32 * (placeInLF f g).1) + b.rows) ≤ groupRows (lfRows f (lfGroupOf f g)) (placeInLF f g).1 ∧
    8 * ((b.x - 32 * (placeInLF f g).2) + b.cols) ≤ groupRows (lfCols f (lfGroupOf f g)) (placeInLF f g).2 := by
  unfold CodedFrame.groupBlocks at hb
  rw [List.mem_filter, List.mem_reverse] at hb
  obtain ⟨hb, hg⟩ := hb
  have hg' : b.y / 32 = (placeInLF f g).1 ∧ b.x / 32 = (placeInLF f g).2 := of_decide_eq_true hg
  have hi := laid_inside hT.laid b hb
  have hcov := covers_self (b := b) hi.1
  obtain ⟨k1, _, k2, k3⟩ := block_tt hi.1
  obtain ⟨d1, d2⟩ := dctSides _ k1
  have hgr := hT.group b hb
  have hin := hi.2
  unfold Block.Covers at hcov
  unfold groupRows
  refine ⟨hb, hg, k1, by omega, by omega, by omega, by omega, by omega, by omega, by omega, by omega⟩

theorem symbols_values (syms : List (Nat × Nat)) (off : Nat) (hlt : ∀ t ∈ syms, t.2 < 2147483648) : (syms.map fun t => (((off + t.1 : Nat) : Int), t.2)).map (fun o => i32 (o.2 : Int)) = syms.map fun t => (t.2 : Int) := by
  rw [List.map_map]
  refine List.map_congr_left fun t ht => ?_
  rw [Function.comp_apply]
  dsimp only
  rw [i32_ofNat (hlt t ht)]

theorem symbols_contexts (syms : List (Nat × Nat)) (off : Nat) : (syms.map fun t => (((off + t.1 : Nat) : Int), t.2)).map Prod.fst = syms.map fun t => ((off + t.1 : Nat) : Int) := by
  rw [List.map_map]
  rfl

theorem delivers_at {data : List UInt8} {p q : Nat} {es : ES} {off : Nat} {syms : List (Nat × Nat)} (h : NumbersAt data p q es 0 (syms.map fun t => (((off + t.1 : Nat) : Int), t.2)))
    (hlt : ∀ t ∈ syms, t.2 < 2147483648) (h0 : es.state = none) (h1 : es.numToCopy = 0) (h2 : es.numDecoded = 0) {s : BR} (hd : s.data = data) (hs : AtBit s p) :
    ∃ es' s', Delivers ES.readSymbol off syms es s es' s' ∧ AtBit s' q ∧ s'.data = data ∧ es'.validateFinalState = true := by
  obtain ⟨es', s', r1, r2, r3, r4⟩ := h.read h0 h1 h2 hd hs
  rw [symbols_values syms off hlt, symbols_contexts syms off] at r1
  exact ⟨es', s', delivers_of_readSeq syms es es' s s' r1, r2, r3, r4⟩

/-- The coefficients of a group. -/
theorem coeffs_ok {h : ImageHeader} {f : FrameHeader} (st : GlobalStream) (hp : PlainVarDCT h f) {F : CodedFrame} (hok : F.Ok f) (hc : ContextShape F.ctx) {g : Nat} (hg : g < varGroups f)
    (hT : Tiled (lfRows f (lfGroupOf f g)) (lfCols f (lfGroupOf f g)) (F.blocks (lfGroupOf f g)))
    (hctx : ∀ y x, y < lfRows f (lfGroupOf f g) → x < lfCols f (lfGroupOf f g) → 0 ≤ F.lfContext (lfGroupOf f g) y x ∧ F.lfContext (lfGroupOf f g) y x < F.ctx.numLFContexts)
    {a : Area} (hah : a.height = groupRows (lfRows f (lfGroupOf f g)) (placeInLF f g).1) (haw : a.width = groupRows (lfCols f (lfGroupOf f g)) (placeInLF f g).2)
    {pass : HFPass} (hpass : PassRead' F pass) {data : List UInt8} {p q : Nat} (hA : CoeffsAt F f g data p q) :
    Runs (readHFCoefficients F.presets (F.varGlobal st).hfctx pass 0 f.jpegY f.jpegX a.height a.width ((F.groupBlocks f g).map (F.hfBlock f g))) data p q
      (fun planes => planes.length = 3 ∧ ∀ (c : Nat) pl, planes[c]? = some pl → ∀ y x, y < a.height → x < a.width → sample pl.coeffs y x = some (F.q g c y x)) := by
  obtain ⟨ho, hcs, s0, s0', hrd⟩ := hpass
  obtain ⟨p1, h1, h2⟩ := hA
  intro s hs hd
  obtain ⟨hp0, hsmall, hpre⟩ := hok.presets
  have hsmall : 495 * F.ctx.numClusters * F.presets < 2147483648 := by
    generalize 495 * F.ctx.numClusters * (F.presets : Int) = z at hsmall ⊢
    omega
  have hpre := hpre g hg
  have hw := hc.well
  have hn : 0 < F.ctx.numClusters := by
    have hlen : 0 < F.ctx.clusterMap.length := by
      have h1 := hw.size
      have h2 : 0 < 39 * ((F.ctx.qfThresholds.length : Int) + 1) * F.ctx.numLFContexts := Int.mul_pos (by omega) hw.lf
      omega
    have := hw.entries _ (List.getElem_mem hlen)
    omega
  have hbound : (F.presets : Int) * 495 ≤ 495 * F.ctx.numClusters * F.presets ∧ 495 * F.ctx.numClusters ≤ 495 * F.ctx.numClusters * F.presets ∧
      0 ≤ 495 * F.ctx.numClusters * (F.preset g : Int) ∧ 495 * F.ctx.numClusters * (F.preset g : Int) ≤ 495 * F.ctx.numClusters * F.presets := by
    have h1 : (495 * 1) * (F.presets : Int) ≤ 495 * F.ctx.numClusters * F.presets := Int.mul_le_mul_of_nonneg_right (by omega) (by omega)
    have h2 : 495 * F.ctx.numClusters * 1 ≤ 495 * F.ctx.numClusters * (F.presets : Int) := Int.mul_le_mul_of_nonneg_left (by omega) (by omega)
    have h3 : 495 * F.ctx.numClusters * 0 ≤ 495 * F.ctx.numClusters * (F.preset g : Int) := Int.mul_le_mul_of_nonneg_left (by omega) (by omega)
    have h4 : 495 * F.ctx.numClusters * (F.preset g : Int) ≤ 495 * F.ctx.numClusters * (F.presets : Int) := Int.mul_le_mul_of_nonneg_left (by omega) (by omega)
    omega
  have hp31 : F.presets < 2147483648 := by omega
  have hclog : Nat.clog 2 F.presets ≤ 31 := (Nat.clog_le_iff_le_pow (by decide)).2 (by omega)
  obtain ⟨s1, e1, a1, d1⟩ := (follows_bits _ (by omega)).at h1 hs hd
  have hfr : F.codes.fresh = F.codes ∧ F.codes.state = none ∧ F.codes.numToCopy = 0 ∧ F.codes.numDecoded = 0 := by
    rw [← hcs]
    exact pass_fresh hrd
  have b2 : (groupSymbols F.ctx F.orders (fun _ => 0) (fun _ => 0) (F.q g) ((F.groupBlocks f g).map (F.hfBlock f g)) (fun _ _ _ => 0)).length < 2147483648 := by
    obtain ⟨co, cd, cmds, -, b2, -⟩ := h2
    rw [List.length_map] at b2
    omega
  obtain ⟨es', s', hd', r2, r3, r4⟩ := delivers_at h2 (groupSymbols_lt (hok.range g) ((F.groupBlocks f g).map (F.hfBlock f g)) (fun _ _ _ => 0) b2) hfr.2.1 hfr.2.2.1 hfr.2.2.2 d1 a1
  rw [← ho] at hd'
  obtain ⟨planes, e2, h1, h2⟩ := C76_coefficients (read := ES.readSymbol) (uy := fun _ => 0) (ux := fun _ => 0) (height := a.height) (width := a.width) (shift := 0) hw hrd
    (preset := F.preset g) (by omega) hsmall (by
      intro c y x
      have := hok.range g c y x
      rw [_root_.pow_zero, Int.mul_one]
      omega) (by
      intro b hb
      obtain ⟨b0, hb0, rfl⟩ := List.mem_map.1 hb
      obtain ⟨_, _, t1, _, _, t2, t3, _⟩ := hfBlock_fits hT hb0
      exact ⟨t1, hctx _ _ t2 t3⟩) (by
      intro b hb
      obtain ⟨b0, hb0, rfl⟩ := List.mem_map.1 hb
      obtain ⟨_, _, _, t1, t2, _, _, t3, t4, t5, t6⟩ := hfBlock_fits hT hb0
      unfold CodedFrame.hfBlock FitsGroup
      dsimp only
      refine ⟨by omega, by omega, fun c _ _ => ?_⟩
      rw [t1, t2, Nat.pow_zero, Nat.div_one, Nat.div_one, Nat.shiftRight_zero, Nat.shiftRight_zero, Int.toNat_natCast, Int.toNat_natCast, hah, haw]
      exact ⟨t3, t4, t5, t6⟩) (by
      intro c y x hc3 hne
      obtain ⟨b, hb, dy, dx, u1, u2, u3, u4, u5⟩ := hok.support g c y x hg hc3 hne
      obtain ⟨_, _, _, t1, t2, _⟩ := hfBlock_fits hT hb
      refine ⟨_, List.mem_map_of_mem hb, ⟨Nat.mod_one _, Nat.mod_one _⟩, dy, dx, ?_⟩
      unfold CodedFrame.hfBlock
      dsimp only
      rw [t1, t2, Nat.pow_zero, Nat.div_one, Nat.div_one, Int.toNat_natCast, Int.toNat_natCast]
      exact ⟨u1, u2, u3, u4, u5⟩) hd'
  refine ⟨planes, s', ?_, r2, r3, h1, fun c pl hc y x hy hx => ?_⟩
  · unfold readHFCoefficients
    rw [i32_in (by omega) (by omega), show ((F.presets : Int) - 1).toNat = F.presets - 1 by omega, preset_bits F.presets (by omega), Rd.bind_ok e1,
      show (F.varGlobal st).hfctx = F.ctx from rfl, i32_in (z := 495 * F.ctx.numClusters) (by omega) (by omega), i32_in (z := (F.preset g : Int)) (by omega) (by omega), i32_in (by omega) (by omega),
      hp.jpegX, hp.jpegY, hcs, hfr.1, Rd.bind_ok e2]
    dsimp only
    rw [r4]
    rfl
  · have := (h2 c pl hc).2 y x hy hx
    rw [this, _root_.pow_zero, Int.mul_one]

/-- The stream of a group. -/
theorem tiles_ok {bitDepth stride id index : Nat} {tree : GlobalTree} (hg : GoodTree tree) {data : List UInt8} {p q : Nat} {chs : List MChan} (hs : ∀ c ∈ chs, 0 ≤ c.vshift ∧ 0 ≤ c.hshift)
    (h : TilesAt bitDepth stride tree index data p q id chs) :
    Runs (readGroupStream bitDepth tree index (chs.map (tileEntry 256 stride id))) data p q (List.Forall₂ (TileRead 256 stride id) chs) := by
  intro s hsp hdata
  rcases h with ⟨rfl, rfl⟩ | ⟨hne, tiles, enc, hd, m, ht, htr, hst⟩
  · exact ⟨[], s, rfl, hsp, hdata, .nil⟩
  obtain ⟨s1, s2, s3, t, es, es', R, l, h1, h2, h3, h4, h5, h6, h7, h8, h9⟩ := stream_read hg hst hsp hdata
  rw [List.take_of_length_le (Nat.le_refl _)] at h4 h6
  obtain ⟨res, r1, r2⟩ := h9 R h6
  have happ : AppliesAll bitDepth hd.transforms 0 tiles m enc := by
    obtain ⟨_, _, _, _, _, _, _, ha, _⟩ := hst
    exact ha
  have ho := originsAfter_ok (pl := originOf 256 stride id)
    (fun a b e1 e2 => by unfold originOf; rw [e1, e2]) (fun c e1 e2 => by unfold originOf; rw [if_pos ⟨e1, e2⟩]) happ htr _ _ h3
  refine ⟨res.zip (tiles.map (originOf 256 stride id)), s3, ?_, h7, h8, tilesRead ht hs res r2⟩
  have e1 := tilesEntries ht
  have e2 := tilesOrigins ht hs
  obtain ⟨a, as, ha⟩ : ∃ a as, chs.map (tileEntry 256 stride id) = a :: as := by
    cases chs with
    | nil => exact absurd rfl hne
    | cons c cs => exact ⟨_, _, rfl⟩
  rw [ha] at e1 e2 ⊢
  unfold readGroupStream
  dsimp only
  rw [e1, e2]
  have key : decodeModular bitDepth hd.transforms (tiles.map MChan.blank) hd.wp t index es s2 = (.ok (res, es'), s3) := by
    unfold decodeModular
    rw [Rd.bind_ok (lift_ok h3 s2)]
    dsimp only
    rw [maxWidth_blank, Rd.bind_ok h4]
    dsimp only
    rw [if_pos h5, Rd.bind_ok (lift_ok r1 s3)]
    rfl
  rw [Rd.bind_ok h1, Rd.bind_ok (lift_ok h3 s1), Rd.bind_ok h2]
  dsimp only
  rw [Rd.bind_ok key, Rd.bind_ok (lift_ok ho s3)]
  rfl

theorem stream_index {f : FrameHeader} (hn : varGroups f < 2 ^ 31) {g : Nat} (hg : g < varGroups f) :
    u32 (18 + 3 * (varLayout f).numLFGroups + (varLayout f).numGroups * 0 + g) = groupStreamIndex (varLFGroups f) (varGroups f) 0 g := by
  have h1 := lfAcross f.size.width
  have h2 := lfAcross f.size.height
  have hA : 0 < groupsAcross 256 f.size.width := Nat.succ_pos _
  have hB : 0 < groupsAcross 256 f.size.height := Nat.succ_pos _
  show u32 (18 + 3 * varLFGroups f + varGroups f * 0 + g) = 18 + 3 * varLFGroups f + varGroups f * 0 + g
  have : 8 * varLFGroups f ≤ varGroups f + 7 := by
    unfold varLFGroups varGroups
    rw [h1, h2]
    obtain ⟨a, ha⟩ : ∃ a, groupsAcross 256 f.size.width = a + 1 := ⟨_, (Nat.sub_add_cancel hA).symm⟩
    obtain ⟨b, hb⟩ : ∃ b, groupsAcross 256 f.size.height = b + 1 := ⟨_, (Nat.sub_add_cancel hB).symm⟩
    rw [ha, hb, Nat.add_sub_cancel, Nat.add_sub_cancel]
    have hu : 8 * (a / 8) ≤ a := Nat.mul_div_le a 8
    have hv : 8 * (b / 8) ≤ b := Nat.mul_div_le b 8
    have := Nat.mul_le_mul (Nat.succ_le_succ hu) (Nat.succ_le_succ hv)
    nlinarith [Nat.zero_le (a / 8 * (b / 8))]
  unfold u32
  omega

/-- The section of a group. -/
theorem groupBody_ok {h : ImageHeader} {f : FrameHeader} (st : GlobalStream) (hp : PlainVarDCT h f) (hgrid : VarGrid f) {F : CodedFrame} (hok : F.Ok f) (hc : ContextShape F.ctx) {g : Nat} (hg : g < varGroups f)
    {lfgs : List (VarLFGroup α)} {lfg : VarLFGroup α} (hlfg : lfgs[lfGroupOf f g]? = some lfg) (hL : LFDecoded F f (lfGroupOf f g) lfg) {pass : HFPass} (hpass : PassRead' F pass)
    {data : List UInt8} {p q r : Nat} (hA : CoeffsAt F f g data p q) (hn : varGroups f < 2 ^ 31) (hgt : GoodTree F.tree) (hs : ∀ c ∈ F.rest, 0 ≤ c.vshift ∧ 0 ≤ c.hshift)
    (hE : TilesAt h.bitDepth.bits (groupsAcross 256 f.size.width) F.tree (groupStreamIndex (varLFGroups f) (varGroups f) 0 g) data q r g F.rest) :
    Runs (groupBody h f (varLayout f) (F.varGlobal st) lfgs F.presets [pass] 0 g (F.rest.map (tileEntry 256 (groupsAcross 256 f.size.width) g))) data p r (GroupDecoded F f g) := by
  obtain ⟨hl1, hl2, hl3⟩ := hgrid.lfOf g hg
  obtain ⟨a, ha, hah, haw⟩ := hgrid.area g hg
  obtain ⟨hT, -⟩ := hok.blocks _ hl1
  obtain ⟨ho, hcs, s0, s0', hrd⟩ := hpass
  obtain ⟨m, em, Hm⟩ := format_holds _ _ _ hT.laid (fun b hb => by have := hT.mul b hb; omega)
  have hcells : lfg.cells = m := by
    have := em.symm.trans hL.cells
    exact (Prod.mk.inj (Res.ok.inj this)).2.symm
  have hpl : (placeInLF f g).1 < 8 ∧ (placeInLF f g).2 < 8 := by
    unfold placeInLF
    exact ⟨Nat.mod_lt _ (by decide), Nat.mod_lt _ (by decide)⟩
  have hgp1 : i32 (((placeInLF f g).1 : Int) * 32) = ((32 * (placeInLF f g).1 : Nat) : Int) := by rw [i32_in (by omega) (by omega)]; push_cast; ring
  have hgp2 : i32 (((placeInLF f g).2 : Int) * 32) = ((32 * (placeInLF f g).2 : Nat) : Int) := by rw [i32_in (by omega) (by omega)]; push_cast; ring
  have hgb := groupBlocks_ok Hm hL.index (placeInLF f g) (F.blocks (lfGroupOf f g)).reverse (fun b hb => List.mem_reverse.1 hb)
  unfold groupBody
  refine Runs.bind_eq (Runs.lift hl2) ?_
  refine Runs.bind_eq (Runs.lift (idx_of_getElem? _ _ _ hlfg)) ?_
  refine Runs.bind_eq (Runs.lift (v := 0) (by rw [hp.passes]; rfl)) ?_
  refine Runs.bind_eq (Runs.lift (v := pass) rfl) ?_
  refine Runs.bind_eq (Runs.lift ha) ?_
  refine Runs.bind_eq (Runs.lift hl3) ?_
  dsimp only
  rw [hgp1, hgp2, hL.points, hcells]
  refine Runs.bind_eq (Runs.lift hgb) ?_
  have hco := coeffs_ok st hp hok hc hg hT hL.contexts hah haw ⟨ho, hcs, s0, s0', hrd⟩ hA
  refine Runs.bind hco ?_
  rintro planes ⟨hlen, hpl⟩
  rw [stream_index hn hg]
  refine Runs.bind (tiles_ok hgt hs hE) ?_
  intro out hout
  refine Runs.pure ⟨hL, rfl, hah, haw, ?_, hout⟩
  intro c hc3
  have e : planes[c]? = some planes[c] := List.getElem?_eq_getElem (by omega)
  refine ⟨planes[c].coeffs, ?_, hpl c _ e⟩
  dsimp only
  rw [List.getElem?_map, e]
  rfl

end

end Jxl
