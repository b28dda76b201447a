import Verif.Proofs.BlockCongr

/-!
# C68, C69, C70 together: from the stream to the samples of a group
-/
namespace Jxl
open Spec (Block)

section
variable {α : Type} [Arith α]

theorem toQ_places (g gl : Nat × Nat) (b : Block) : (b.toQ g).takesPart (0, 0) = true ∧ (b.toQ g).ppg (0, 0) = (8 * (b.y - 32 * g.1), 8 * (b.x - 32 * g.2)) ∧
    (b.toQ g).ppf (0, 0) (gl.1 <<< 8, gl.2 <<< 8) = (256 * gl.1 + 8 * (b.y - 32 * g.1), 256 * gl.2 + 8 * (b.x - 32 * g.2)) := by
  obtain ⟨h1, h2, h3⟩ := C68_places (b.toQ g).toVBlock (0, 0) (gl.1 <<< 8, gl.2 <<< 8)
  refine ⟨h1.2 ⟨by simp, by simp⟩, ?_, ?_⟩
  · simpa [Spec.Block.toQ] using h2
  · rw [h3]
    simp only [Spec.Block.toQ, Nat.pow_zero, Nat.div_one, Nat.shiftLeft_eq, Prod.mk.injEq]
    omega

/-- **C68, C69, C70**: a group of a frame without subsampling, whose blocks keep to groups and tiles and are not of the type DCT 4×4. The blocks get the places of the format, and after
decoding the group the samples of every block are the transform of the coefficients that the format gives to it (with the corner of all AFV blocks at the upper left, see C49). `g` is the place of the group in its LF group, `gl` in the frame. -/
theorem C68_stream_partial {I : CodedGroup α} {h w : Nat} {l : List Block} (F : Spec.Tiled h w l) (h44 : ∀ b ∈ l, b.type ≠ 3) (g gl : Nat × Nat) {weights : List (List (List (List α)))}
    {factors bias : List α} {p : CflParams α} {quantized : List (List (List Int))} {lf : List (List (List α))} {lut : List (List (List α))} {cos : Nat → Nat → Nat → α} (scale : Nat → Nat → α)
    (hl : HasTables lut cos) {basis : List (List α)} {B : Nat → Nat → α} (hB : HasBlock 0 0 16 16 B basis)
    (hS : Stored I (fun _ => groupRows h g.1) (fun _ => groupRows w g.2) (fun _ => h) (fun _ => w) ((h + 7) / 8) ((w + 7) / 8) weights factors bias p quantized lf)
    {planes : List (List (List α))} (h3 : planes.length = 3) (hT : ∀ (c : Nat) m, planes[c]? = some m → Table (groupRows h g.1) (groupRows w g.2) m)
    {s0 s1 : List (List α)} (t0 : Table 32 32 s0) (t1 : Table 32 32 s1)
    {H W : Nat} {fb : List (List (List α))} (h3' : fb.length = 3) (hT' : ∀ (c : Nat) m, fb[c]? = some m → Table H W m) (hH : 256 * gl.1 + groupRows h g.1 ≤ H) (hW : 256 * gl.2 + groupRows w g.2 ≤ W)
    {t : Scratch α} (ht : t.Ok) :
    ∃ m blocks ps fb' t', newHFMetadata h w (l.reverse.map (fun b => ((b.type : Int), b.mul - 1))) = .ok (l.reverse.map (fun b => (⟨b.y, b.x⟩ : Point)), m) ∧
      groupQBlocks (32 * g.1, 32 * g.2) m (l.reverse.map (fun b => (⟨b.y, b.x⟩ : Point))) = .ok blocks ∧
      bakeDequantizedCoeffs lut scale weights factors bias I.numerator p quantized lf [(0, 0), (0, 0), (0, 0)] (32 * g.1, 32 * g.2) blocks planes (s0, s1) = .ok ps ∧
      invertVarDCT lut basis false ps [(0, 0), (0, 0), (0, 0)] gl (blocks.map QBlock.toVBlock) fb t = .ok (fb', t') ∧ fb'.length = 3 ∧
      (∀ b ∈ l, b.y / 32 = g.1 → b.x / 32 = g.2 → ∀ c, c < 3 → ∃ plane, fb'[c]? = some plane ∧ Table H W plane ∧
        HasBlock (256 * gl.1 + 8 * (b.y - 32 * g.1)) (256 * gl.2 + 8 * (b.x - 32 * g.2)) (8 * b.rows) (8 * b.cols)
          (blockSamples cos B b.tt false false (I.formatCoeff cos scale (32 * g.1, 32 * g.2) (b.y, b.x) c b.tt b.mul)) plane) ∧
      (∀ (c : Nat) plane plane', fb[c]? = some plane → fb'[c]? = some plane' → ∀ j k,
        ¬ ((256 * gl.1 ≤ j ∧ j < 256 * gl.1 + groupRows h g.1) ∧ (256 * gl.2 ≤ k ∧ k < 256 * gl.2 + groupRows w g.2)) → sample plane' j k = sample plane j k) := by
  obtain ⟨m, e1, Hm⟩ := format_holds h w l F.laid (fun b hb => by have := F.mul b hb; omega)
  have e2 := groupQBlocks_ok Hm g l.reverse (fun b hb => List.mem_reverse.1 hb)
  obtain ⟨m', blocks', ps, e1', e2', e3, r3⟩ := C70_coefficients_partial F g scale (fun a ha => hl a (by omega)) hS h3 hT t0 t1
  rw [e1] at e1'
  obtain rfl : m = m' := by injection e1' with e; injection e
  rw [e2] at e2'
  injection e2' with e2''
  subst e2''
  obtain ⟨ps', e3', l3, r3'⟩ := C69_coefficients scale (fun a ha => hl a (by omega)) hS (laid_fits F.laid F.group g) h3 hT t0 t1
  have hps : ps = ps' := by
    have := e3.symm.trans e3'
    injection this
  subst hps
  have hmem : ∀ q ∈ ((l.reverse.filter (fun b => b.inGroup g)).map (fun b => b.toQ g)).map QBlock.toVBlock, ∃ b ∈ l, b.inGroup g = true ∧ q = (b.toQ g).toVBlock := by
    intro q hq
    obtain ⟨q', hq', rfl⟩ := List.mem_map.1 hq
    obtain ⟨b, hb, rfl⟩ := List.mem_map.1 hq'
    rw [List.mem_filter, List.mem_reverse] at hb
    exact ⟨b, hb.1, hb.2, rfl⟩
  have hFits := laid_fits F.laid F.group g
  have hGF : GroupFits (fun _ => H) (fun _ => W) (fun _ => groupRows h g.1) (fun _ => groupRows w g.2) (fun _ => (0, 0)) (gl.1 <<< 8, gl.2 <<< 8)
      (((l.reverse.filter (fun b => b.inGroup g)).map (fun b => b.toQ g)).map QBlock.toVBlock) := by
    refine ⟨?_, ?_, ?_, ?_⟩
    · intro q hq
      obtain ⟨b, hb, _, rfl⟩ := hmem q hq
      obtain ⟨k1, k2, _⟩ := block_tt (laid_inside F.laid b hb).1
      refine ⟨k1, ?_⟩
      have h3n := h44 b hb
      have hi := (laid_inside F.laid b hb).1
      intro hm2
      have key : ∀ t : Fin 27, ∀ tt ∈ allDCT[t.1]?, tt.method = 2 → t.1 = 3 := by decide
      exact h3n (key ⟨b.type, hi⟩ b.tt k2 hm2)
    · intro q hq c hc hp
      obtain ⟨b, hb, hbg, rfl⟩ := hmem q hq
      exact hFits.inside (b.toQ g) (List.mem_map_of_mem (List.mem_filter.2 ⟨List.mem_reverse.2 hb, hbg⟩)) c hc hp
    · intro q hq c hc hp
      obtain ⟨b, hb, hbg, rfl⟩ := hmem q hq
      have := hFits.inside (b.toQ g) (List.mem_map_of_mem (List.mem_filter.2 ⟨List.mem_reverse.2 hb, hbg⟩)) c hc hp
      rw [(toQ_places g gl b).2.1] at this
      rw [(toQ_places g gl b).2.2]
      dsimp only at this ⊢
      omega
    · rw [List.pairwise_map]
      refine hFits.apart.imp_of_mem ?_
      intro q q' hq hq' hap c hc hp hp' j k r1 r2
      obtain ⟨b, hb, rfl⟩ := List.mem_map.1 hq
      obtain ⟨b', hb', rfl⟩ := List.mem_map.1 hq'
      unfold VBlock.rect at r1 r2
      rw [(toQ_places g gl b).2.2] at r1
      rw [(toQ_places g gl b').2.2] at r2
      refine hap c hc hp hp' (j - 256 * gl.1) (k - 256 * gl.2) ?_ ?_
      · rw [(toQ_places g gl b).2.1]
        unfold InRect at r1 ⊢
        dsimp only at r1 ⊢
        omega
      · rw [(toQ_places g gl b').2.1]
        unfold InRect at r2 ⊢
        dsimp only at r2 ⊢
        omega
  have hco : ∀ c, c < 3 → ∃ m, ps[c]? = some m ∧ HasBlock 0 0 (groupRows h g.1) (groupRows w g.2) (fun y x => (sample (ps[c]?.getD []) y x).getD (Arith.lit 0)) m := by
    intro c hc
    have hpc : ps[c]? = some ps[c] := List.getElem?_eq_getElem (by omega)
    refine ⟨ps[c], hpc, ?_⟩
    have hTc := (r3' c _ hc hpc).1
    rw [hpc]
    intro y x hy hx
    rw [Nat.zero_add, Nat.zero_add]
    exact (holds_of_table hTc).2 y x hy hx
  have hup : ∀ c, c < 3 → [(0, 0), (0, 0), (0, 0)][c]? = some ((0, 0) : Nat × Nat) := by
    intro c hc
    rcases c with _ | _ | _ | c
    · rfl
    · rfl
    · rfl
    · omega
  obtain ⟨fb', t', e4, l4, r4⟩ := C68_group hl hB (up := fun _ => (0, 0)) (ups := [(0, 0), (0, 0), (0, 0)])
    (cf := fun c y x => (sample (ps[c]?.getD []) y x).getD (Arith.lit 0)) hup hco hGF ht h3' hT'
  refine ⟨m, _, ps, fb', t', e1, e2, e3, e4, l4, ?_, ?_⟩
  · intro b hb hy hx c hc
    have hfc : fb'[c]? = some fb'[c] := List.getElem?_eq_getElem (by omega)
    obtain ⟨m0, _, k1, k2, _⟩ := r4 c _ hc hfc
    refine ⟨fb'[c], hfc, k1, ?_⟩
    have hi := laid_inside F.laid b hb
    obtain ⟨d0, _, d1, d2⟩ := block_tt hi.1
    have hbg : b.inGroup g = true := decide_eq_true ⟨hy, hx⟩
    have key := k2 (b.toQ g).toVBlock (List.mem_map_of_mem (List.mem_map_of_mem (List.mem_filter.2 ⟨List.mem_reverse.2 hb, hbg⟩))) (toQ_places g gl b).1
    rw [(toQ_places g gl b).2.2] at key
    intro y x hy' hx'
    have k3 := key y x (by show y < b.tt.pixelHeight.toNat; omega) (by show x < b.tt.pixelWidth.toNat; omega)
    rw [k3]
    refine congrArg some ?_
    unfold VBlock.samples
    rw [(toQ_places g gl b).2.1]
    refine blockSamples_congr cos B d0 false false ?_ (by omega) (by omega)
    intro y x hy2 hx2
    obtain ⟨plane, q1, q2, q3⟩ := r3 b hb hy hx c hc
    dsimp only
    rw [q1, Option.getD_some, q3 y x (by omega) (by omega)]
    rfl
  · intro c plane plane' hp hp' j k hout
    have hc : c < 3 := by
      have := (List.getElem?_eq_some_iff.1 hp).1
      omega
    obtain ⟨m0, k0, _, _, k3⟩ := r4 c _ hc hp'
    rw [hp] at k0
    cases k0
    refine k3 j k ?_
    intro q hq _ hin
    obtain ⟨b, hb, hbg, rfl⟩ := hmem q hq
    have := hFits.inside (b.toQ g) (List.mem_map_of_mem (List.mem_filter.2 ⟨List.mem_reverse.2 hb, hbg⟩)) c hc (toQ_places g gl b).1
    rw [(toQ_places g gl b).2.1] at this
    unfold VBlock.rect InRect at hin
    rw [(toQ_places g gl b).2.2] at hin
    dsimp only at this hin
    omega

/-- A table of the values of a function. -/
def tableOf {β : Type} (h w : Nat) (f : Nat → Nat → β) : List (List β) := (List.range h).map fun (y : Nat) => (List.range w).map fun (x : Nat) => f y x

omit [Arith α] in
theorem tableOf_holds {β : Type} (h w : Nat) (f : Nat → Nat → β) : HoldsMat h w f (tableOf h w f) := by
  refine ⟨⟨by simp [tableOf], ?_⟩, ?_⟩
  · intro r hr
    unfold tableOf at hr
    obtain ⟨y, _, rfl⟩ := List.mem_map.1 hr
    simp
  · intro y x hy hx
    simp [sample, tableOf, hy, hx]

/-- The hypotheses on tables can be met for everything that a stream may say. -/
example (I : CodedGroup α) (H W Lh Lw : Nat → Nat) (th tw : Nat) (hth : 0 < th) (cos : Nat → Nat → Nat → α) : ∃ weights factors bias p quantized lf lut,
    Stored I H W Lh Lw th tw weights factors bias p quantized lf ∧ HasTables lut cos := by
  have h3 : ∀ {β : Type} (f : Nat → β) (c : Nat), c < 3 → [f 0, f 1, f 2][c]? = some (f c) := by
    intro β f c hc
    rcases c with _ | _ | _ | c
    · rfl
    · rfl
    · rfl
    · omega
  refine ⟨(List.range 17).map fun (i : Nat) => [tableOf 256 256 (I.weight i 0), tableOf 256 256 (I.weight i 1), tableOf 256 256 (I.weight i 2)],
    [I.factor 0, I.factor 1, I.factor 2], [I.bias 0, I.bias 1, I.bias 2], ⟨I.baseX, I.baseB, I.inv, tableOf th tw I.hfX, tableOf th tw I.hfB⟩,
    [tableOf (H 0) (W 0) (I.q 0), tableOf (H 1) (W 1) (I.q 1), tableOf (H 2) (W 2) (I.q 2)],
    [tableOf (Lh 0) (Lw 0) (I.lf 0), tableOf (Lh 1) (Lw 1) (I.lf 1), tableOf (Lh 2) (Lw 2) (I.lf 2)],
    (List.range 9).map fun (l : Nat) => tableOf (2 ^ l) (2 ^ l) fun n k => cos l (n + 1) k, ⟨?_, ?_, ?_, ?_, ?_, rfl, rfl, rfl, tableOf_holds _ _ _, tableOf_holds _ _ _, hth⟩, ?_⟩
  · intro tt ht
    have hp : tt.parameterIndex.toNat < 17 ∧ min tt.pixelHeight.toNat tt.pixelWidth.toNat ≤ 256 ∧ max tt.pixelHeight.toNat tt.pixelWidth.toNat ≤ 256 := by
      have : ∀ tt ∈ allDCT, tt.parameterIndex.toNat < 17 ∧ min tt.pixelHeight.toNat tt.pixelWidth.toNat ≤ 256 ∧ max tt.pixelHeight.toNat tt.pixelWidth.toNat ≤ 256 := by decide
      exact this tt ht
    refine ⟨_, by rw [List.getElem?_map, List.getElem?_range hp.1]; rfl, fun c hc => ⟨_, h3 (fun c => tableOf 256 256 (I.weight tt.parameterIndex.toNat c)) c hc, ?_⟩⟩
    intro y x hy hx
    exact (tableOf_holds 256 256 _).2 y x (by omega) (by omega)
  · exact fun c hc => h3 I.factor c hc
  · exact fun c hc => h3 I.bias c hc
  · exact fun c hc => ⟨_, h3 (fun c => tableOf (H c) (W c) (I.q c)) c hc, (tableOf_holds _ _ _).2⟩
  · exact fun c hc => ⟨_, h3 (fun c => tableOf (Lh c) (Lw c) (I.lf c)) c hc, (tableOf_holds _ _ _).2⟩
  · intro a ha
    refine ⟨_, by rw [List.getElem?_map, List.getElem?_range (by omega)]; rfl, ?_⟩
    intro n k h1 h2 h4
    have := (tableOf_holds (2 ^ a) (2 ^ a) fun n k => cos a (n + 1) k).2 (n - 1) k (by omega) h4
    rw [this]
    beta_reduce
    rw [Nat.sub_add_cancel h1]

end

end Jxl
