import Verif.Proofs.Cfl
import Verif.Props.VarDCTGroup

/-!
# C69, C70: from the stream to the coefficients of the blocks

For every arithmetic, float32 included.
-/
namespace Jxl

theorem allDCT_sizes : ∀ tt ∈ allDCT, ∃ a < 6, ∃ b < 6, tt.pixelHeight.toNat = 8 * 2 ^ a ∧ tt.pixelWidth.toNat = 8 * 2 ^ b ∧ tt.dctHeight.toNat = 2 ^ a ∧ tt.dctWidth.toNat = 2 ^ b ∧
    0 ≤ tt.parameterIndex ∧ 0 ≤ tt.pixelHeight ∧ 0 ≤ tt.pixelWidth := by decide

theorem pairwise_either {β : Type} {R : β → β → Prop} : ∀ {l : List β}, l.Pairwise R → ∀ {x y : β}, x ∈ l → y ∈ l → x ≠ y → R x y ∨ R y x
  | [], _, _, _, hx, _, _ => absurd hx List.not_mem_nil
  | a :: l, h, x, y, hx, hy, hne => by
    have h := List.pairwise_cons.1 h
    rcases List.mem_cons.1 hx with rfl | hx'
    · rcases List.mem_cons.1 hy with rfl | hy'
      · exact absurd rfl hne
      · exact Or.inl (h.1 y hy')
    · rcases List.mem_cons.1 hy with rfl | hy'
      · exact Or.inr (h.1 x hx')
      · exact pairwise_either h.2 hx' hy' hne

/-- What a group needs: blocks of known types that lie inside of the planes of coefficients, of LF samples and of tiles, and that do not overlap. `g` is the place of the group in the
LF group, in units of 256 pixels. -/
structure DequantFits (H W Lh Lw : Nat → Nat) (th tw : Nat) (up : Nat → Nat × Nat) (g : Nat × Nat) (blocks : List QBlock) : Prop where
  known : ∀ b ∈ blocks, b.tt.tt ∈ allDCT
  size : ∀ c, H c ≤ 256 ∧ W c ≤ 256
  equal : (∀ c, c < 3 → up c = (0, 0)) → ∀ c, c < 3 → H c = H 0 ∧ W c = W 0
  inside : ∀ b ∈ blocks, ∀ c, c < 3 → b.takesPart (up c) = true → (b.ppg (up c)).1 + b.tt.tt.pixelHeight.toNat ≤ H c ∧ (b.ppg (up c)).2 + b.tt.tt.pixelWidth.toNat ≤ W c
  lfInside : ∀ b ∈ blocks, ∀ c, c < 3 → b.takesPart (up c) = true →
    (32 * g.1 + b.groupY) / 2 ^ (up c).1 + b.tt.tt.pixelHeight.toNat / 8 ≤ Lh c ∧ (32 * g.2 + b.groupX) / 2 ^ (up c).2 + b.tt.tt.pixelWidth.toNat / 8 ≤ Lw c
  tiles : ∀ b ∈ blocks, 256 * g.1 + 8 * b.groupY + b.tt.tt.pixelHeight.toNat ≤ th * 64 ∧ 256 * g.2 + 8 * b.groupX + b.tt.tt.pixelWidth.toNat ≤ tw * 64
  apart : blocks.Pairwise fun b b' => ∀ c, c < 3 → b.takesPart (up c) = true → b'.takesPart (up c) = true → ∀ j k,
    InRect (b.ppg (up c), (b.tt.tt.pixelHeight.toNat, b.tt.tt.pixelWidth.toNat)) j k → ¬ InRect (b'.ppg (up c), (b'.tt.tt.pixelHeight.toNat, b'.tt.tt.pixelWidth.toNat)) j k

section
variable {α : Type} [Arith α]

/-- The tables that hold what the stream says. -/
structure Stored (I : CodedGroup α) (H W Lh Lw : Nat → Nat) (th tw : Nat) (weights : List (List (List (List α)))) (factors bias : List α) (p : CflParams α) (quantized : List (List (List Int)))
    (lf : List (List (List α))) : Prop where
  weights : ∀ tt ∈ allDCT, ∃ w2, weights[tt.parameterIndex.toNat]? = some w2 ∧ ∀ c, c < 3 → ∃ w3, w2[c]? = some w3 ∧
    ∀ y x, y < min tt.pixelHeight.toNat tt.pixelWidth.toNat → x < max tt.pixelHeight.toNat tt.pixelWidth.toNat → sample w3 y x = some (I.weight tt.parameterIndex.toNat c y x)
  factors : ∀ c, c < 3 → factors[c]? = some (I.factor c)
  bias : ∀ c, c < 3 → bias[c]? = some (I.bias c)
  quantized : ∀ c, c < 3 → ∃ q, quantized[c]? = some q ∧ ∀ y x, y < H c → x < W c → sample q y x = some (I.q c y x)
  lf : ∀ c, c < 3 → ∃ l, lf[c]? = some l ∧ ∀ y x, y < Lh c → x < Lw c → sample l y x = some (I.lf c y x)
  baseX : p.baseX = I.baseX
  baseB : p.baseB = I.baseB
  inv : p.inv = I.inv
  tilesX : HoldsMat th tw I.hfX p.hfX
  tilesB : HoldsMat th tw I.hfB p.hfB
  tilesPos : 0 < th

variable {I : CodedGroup α} {H W Lh Lw : Nat → Nat} {th tw : Nat} {weights : List (List (List (List α)))} {factors bias : List α} {p : CflParams α} {quantized : List (List (List Int))}
  {lf : List (List (List α))} {up : Nat → Nat × Nat} {g : Nat × Nat} {blocks : List QBlock}

/-- The high frequencies of a block in its plane. -/
def QBlock.High (b : QBlock) (u : Nat × Nat) (j k : Nat) : Prop :=
  HighPart (b.ppg u).1 (b.ppg u).2 b.tt.tt.pixelHeight.toNat b.tt.tt.pixelWidth.toNat b.tt.tt.dctHeight.toNat b.tt.tt.dctWidth.toNat j k

omit [Arith α] in
theorem weightOf_flip (Wt : Nat → Nat → α) (tt : TransformType) (y x : Nat) : weightOf Wt tt y x = if tt.flip then Wt x y else Wt y x := by
  unfold weightOf TransformType.flip
  by_cases h : tt.pixelHeight > tt.pixelWidth ∨ tt.method = 0 ∧ tt.pixelHeight = tt.pixelWidth
  · rw [if_pos h, if_pos (by simpa using h)]
  · rw [if_neg h, if_neg (by simpa using h)]

theorem dequantizeHF_ok (hS : Stored I H W Lh Lw th tw weights factors bias p quantized lf) (hF : DequantFits H W Lh Lw th tw up g blocks) {planes : List (List (List α))}
    (h3 : planes.length = 3) (hT : ∀ c m, planes[c]? = some m → Table (H c) (W c) m) :
    ∃ ps, dequantizeHF weights factors bias I.numerator quantized [up 0, up 1, up 2] blocks planes = .ok ps ∧ ps.length = 3 ∧ ∀ c m, c < 3 → ps[c]? = some m → Table (H c) (W c) m ∧
      ∀ j k, ∀ b ∈ blocks, b.takesPart (up c) = true → b.High (up c) j k → sample m j k = some (I.high c b (b.ppg (up c)) (j - (b.ppg (up c)).1) (k - (b.ppg (up c)).2)) := by
  have hup : ∀ c, c < 3 → [up 0, up 1, up 2][c]? = some (up c) := by
    intro c hc
    rcases c with _ | _ | _ | c
    · rfl
    · rfl
    · rfl
    · omega
  unfold dequantizeHF
  obtain ⟨ps', _, e, l, r⟩ := eachPlane_ok (h := H) (w := W) (σ := Unit) hup (f := fun c b s => do
      let u ← idx [up 0, up 1, up 2] (c : Int)
      let w2 ← idx weights b.tt.tt.parameterIndex
      let w3 ← idx w2 (c : Int)
      let sf ← idx factors (c : Int)
      let bi ← idx bias (c : Int)
      let q ← idx quantized (c : Int)
      let m ← dequantBlock q w3 (sf / Arith.lit (b.hfMult : Rat)) bi I.numerator b.tt.tt (b.ppg u) s.1
      .ok (m, ())) (Ok := fun _ => True) (Reg := fun c b j k => b.High (up c) j k)
    (val := fun c b j k => I.high c b (b.ppg (up c)) (j - (b.ppg (up c)).1) (k - (b.ppg (up c)).2)) blocks
    (by
      intro b hb c hc hp m _ hTm _
      obtain ⟨w2, hw2, hw2'⟩ := hS.weights _ (hF.known b hb)
      obtain ⟨w3, hw3, hw3'⟩ := hw2' c hc
      obtain ⟨q, hq, hq'⟩ := hS.quantized c hc
      obtain ⟨i1, i2⟩ := hF.inside b hb c hc hp
      obtain ⟨a', ha', b', hb', e1, e2, e3, e4, e5, e6, e7⟩ := allDCT_sizes _ (hF.known b hb)
      obtain ⟨m', e, t, s⟩ := dequantBlock_ok hTm (tt := b.tt.tt) (ppg := b.ppg (up c)) (q := fun y x => I.q c ((b.ppg (up c)).1 + y) ((b.ppg (up c)).2 + x)) (quantized := q) (weights := w3)
        (sfc := I.factor c / Arith.lit (b.hfMult : Rat)) (bias := I.bias c) (numerator := I.numerator) (Wt := I.weight b.tt.tt.parameterIndex.toNat c) i1 i2
        (fun y x hy hx => hq' _ _ (by omega) (by omega))
        (by
          intro y x hy hx
          cases hfl : b.tt.tt.flip with
          | true =>
            simp only [if_true]
            refine hw3' x y ?_ ?_
            · unfold TransformType.flip at hfl
              simp only [Bool.or_eq_true, decide_eq_true_eq, Bool.and_eq_true, beq_iff_eq] at hfl
              omega
            · omega
          | false =>
            simp only [Bool.false_eq_true, if_false]
            refine hw3' y x ?_ ?_
            · unfold TransformType.flip at hfl
              simp only [Bool.or_eq_false_iff, decide_eq_false_iff_not] at hfl
              omega
            · omega)
      refine ⟨m', (), ?_, trivial, t, fun j k => ⟨fun hr => ?_, fun hr => (s j k).2 hr⟩⟩
      · have hpi : idx weights b.tt.tt.parameterIndex = .ok w2 := by
          have := idx_nat hw2
          rwa [Int.toNat_of_nonneg e5] at this
        rw [idx_nat (hup c hc), Res.bind_ok, hpi, Res.bind_ok, idx_nat hw3, Res.bind_ok, idx_nat (hS.factors c hc), Res.bind_ok, idx_nat (hS.bias c hc), Res.bind_ok, idx_nat hq, Res.bind_ok]
        show (dequantBlock q w3 (I.factor c / Arith.lit (b.hfMult : Rat)) (I.bias c) I.numerator b.tt.tt (b.ppg (up c)) m >>= _) = _
        rw [e, Res.bind_ok]
      · rw [(s j k).1 hr]
        unfold CodedGroup.high hfValue
        rw [weightOf_flip])
    (by
      refine hF.apart.imp ?_
      intro b b' h c hc hp hp' j k hr hr'
      exact h c hc hp hp' j k hr.1 hr'.1)
    planes () trivial h3 hT
  refine ⟨ps', by rw [e, Res.bind_ok], l, fun c m hc hm => ?_⟩
  obtain ⟨_, _, t, s⟩ := r c m hc hm
  exact ⟨t, fun j k b hb hp hr => (s j k).1 b hb hp hr⟩

/-- Are the channels of equal size? -/
def noSubsampling (up : Nat → Nat × Nat) : Bool := decide (up 0 = (0, 0) ∧ up 1 = (0, 0) ∧ up 2 = (0, 0))

/-- The high frequencies after `chromaFromLuma`. -/
def CodedGroup.highChroma (I : CodedGroup α) (cfl : Bool) (gp : Nat × Nat) (seen : List QBlock) (c : Nat) (b : QBlock) (pos : Nat × Nat) (y x : Nat) : α :=
  if cfl ∧ c ≠ 1 then I.high c b pos y x + I.chroma gp seen c (8 * (gp.1 + b.groupY) + y) (8 * (gp.2 + b.groupX) + x) * I.high 1 b pos y x else I.high c b pos y x

theorem holds_of_table {H W : Nat} {m : List (List α)} (h : Table H W m) : HoldsMat H W (fun y x => (sample m y x).getD (Arith.lit 0)) m :=
  ⟨h, fun y x hy hx => by
    obtain ⟨v, hv⟩ := h.sample hy hx
    dsimp only
    rw [hv]
    rfl⟩

omit [Arith α] in
theorem holds_replicate (h w : Nat) (v : α) : HoldsMat h w (fun _ _ => v) (List.replicate h (List.replicate w v)) := by
  refine ⟨⟨List.length_replicate, fun r hr => ?_⟩, fun y x hy hx => ?_⟩
  · rw [(List.mem_replicate.1 hr).2, List.length_replicate]
  · unfold sample
    rw [List.getElem?_replicate, if_pos hy, Option.bind_some, List.getElem?_replicate, if_pos hx]

theorem chromaFromLuma_ok (hS : Stored I H W Lh Lw th tw weights factors bias p quantized lf) (hF : DequantFits H W Lh Lw th tw up g blocks) {ps : List (List (List α))} (h3 : ps.length = 3)
    (hps : ∀ c m, c < 3 → ps[c]? = some m → Table (H c) (W c) m ∧
      ∀ j k, ∀ b ∈ blocks, b.takesPart (up c) = true → b.High (up c) j k → sample m j k = some (I.high c b (b.ppg (up c)) (j - (b.ppg (up c)).1) (k - (b.ppg (up c)).2))) :
    ∃ ps', chromaFromLuma p [up 0, up 1, up 2] (32 * g.1, 32 * g.2) blocks ps = .ok ps' ∧ ps'.length = 3 ∧ ∀ c m, c < 3 → ps'[c]? = some m → Table (H c) (W c) m ∧
      ∀ l1 b l2, blocks = l1 ++ b :: l2 → b.takesPart (up c) = true → ∀ j k, b.High (up c) j k →
        sample m j k = some (I.highChroma (noSubsampling up) (32 * g.1, 32 * g.2) (l1 ++ [b]) c b (b.ppg (up c)) (j - (b.ppg (up c)).1) (k - (b.ppg (up c)).2)) := by
  unfold chromaFromLuma
  cases hn : noSubsampling up with
  | false =>
    rw [if_pos]
    · refine ⟨ps, rfl, h3, fun c m hc hm => ⟨(hps c m hc hm).1, fun l1 b l2 hb hp j k hr => ?_⟩⟩
      rw [(hps c m hc hm).2 j k b (by rw [hb]; simp) hp hr]
      unfold CodedGroup.highChroma
      rw [if_neg (by simp)]
    · unfold noSubsampling at hn
      rw [decide_eq_false_iff_not] at hn
      by_contra hc
      simp only [List.any_cons, List.any_nil, Bool.or_false, Bool.or_eq_true, bne_iff_ne, ne_eq, not_or, Decidable.not_not] at hc
      exact hn ⟨Prod.ext hc.2.1 hc.1.1, Prod.ext hc.2.2.1 hc.1.2.1, Prod.ext hc.2.2.2 hc.1.2.2⟩
  | true =>
    have hz : ∀ c, c < 3 → up c = (0, 0) := by
      unfold noSubsampling at hn
      obtain ⟨a, b, d⟩ := of_decide_eq_true hn
      intro c hc
      rcases c with _ | _ | _ | c
      · exact a
      · exact b
      · exact d
      · omega
    have hHW := hF.equal hz
    rw [if_neg (by rw [hz 0 (by omega), hz 1 (by omega), hz 2 (by omega)]; decide)]
    obtain ⟨m0, m1, m2, rfl⟩ : ∃ m0 m1 m2, ps = [m0, m1, m2] := by
      rcases ps with _ | ⟨a, _ | ⟨b, _ | ⟨c, _ | ⟨d, ps⟩⟩⟩⟩ <;> simp at h3
      exact ⟨a, b, c, rfl⟩
    obtain ⟨rx, hrx, hrxl⟩ := hS.tilesX.1.row hS.tilesPos
    obtain ⟨rb, hrb, hrbl⟩ := hS.tilesB.1.row hS.tilesPos
    have ex : idx p.hfX 0 = .ok rx := idx_nat (i := 0) hrx
    have eb : idx p.hfB 0 = .ok rb := idx_nat (i := 0) hrb
    have t0 := hps 0 m0 (by omega) rfl
    have t1 := hps 1 m1 (by omega) rfl
    have t2 := hps 2 m2 (by omega) rfl
    have hTt : ∀ (c : Nat) (m : List (List α)), c < 3 → Table (H c) (W c) m → Table (H 0) (W 0) m := fun c m hc h => by rwa [(hHW c hc).1, (hHW c hc).2] at h
    have ppg0 : ∀ b : QBlock, b.ppg (0, 0) = (8 * b.groupY, 8 * b.groupX) := fun b => by
      have := (C68_places b.toVBlock (0, 0) (0, 0)).2.1
      simpa using this
    have tp0 : ∀ b : QBlock, b.takesPart (0, 0) = true := fun b => (C68_places b.toVBlock (0, 0) (0, 0)).1.2 (by simp)
    obtain ⟨s', g0, g2, e, q0, q2, r1, r2⟩ := cflBlocks_ok (H := H 0) (W := W 0) (p := p) (th := th) (tw := tw) hS.tilesX.2 hS.tilesB.2 (holds_of_table (hTt 1 m1 (by omega) t1.1)) (g := g) blocks []
      _ _ ⟨List.replicate p.hfX.length (List.replicate rx.length (Arith.lit 0)), List.replicate p.hfB.length (List.replicate rb.length (Arith.lit 0)), m0, m2⟩
      ⟨by rw [hS.tilesX.1.1, hrxl]; exact holds_replicate th tw (Arith.lit 0), by rw [hS.tilesB.1.1, hrbl]; exact holds_replicate th tw (Arith.lit 0),
        holds_of_table t0.1, holds_of_table (hTt 2 m2 (by omega) t2.1)⟩
      (by
        intro b hb
        obtain ⟨a', ha', b', hb', e1, e2, _⟩ := allDCT_sizes _ (hF.known b hb)
        obtain ⟨i1, i2⟩ := hF.inside b hb 0 (by omega) (by rw [hz 0 (by omega)]; exact tp0 b)
        rw [hz 0 (by omega), ppg0] at i1 i2
        dsimp only at i1 i2
        have s256 := hF.size 0
        have ht := hF.tiles b hb
        have pa : 0 < 2 ^ a' := Nat.two_pow_pos a'
        have pb : 0 < 2 ^ b' := Nat.two_pow_pos b'
        refine ⟨by omega, by omega, i1, i2, ht.1, ht.2, by omega, by omega⟩)
      (by
        refine hF.apart.imp ?_
        intro b b' h j k hr hr'
        refine h 0 (by omega) (by rw [hz 0 (by omega)]; exact tp0 b) (by rw [hz 0 (by omega)]; exact tp0 b') j k ?_ ?_
        · rw [hz 0 (by omega), ppg0]; exact hr
        · rw [hz 0 (by omega), ppg0]; exact hr')
    refine ⟨[s'.p0, m1, s'.p2], ?_, rfl, fun c m hc hm => ?_⟩
    · rw [ex, Res.bind_ok, eb, Res.bind_ok]
      show (cflBlocks p (32 * g.1, 32 * g.2) m1 blocks _ >>= _) = _
      rw [e, Res.bind_ok]
    · have key : ∀ (c : Nat) (f gg : Nat → Nat → α) (mm m' : List (List α)), c < 3 → c ≠ 1 → (∀ j k, f j k = (sample mm j k).getD (Arith.lit 0)) →
          (∀ j k, ∀ b ∈ blocks, b.takesPart (up c) = true → b.High (up c) j k → sample mm j k = some (I.high c b (b.ppg (up c)) (j - (b.ppg (up c)).1) (k - (b.ppg (up c)).2))) →
          HoldsMat (H 0) (W 0) gg m' →
          (∀ l1 b l2, blocks = l1 ++ b :: l2 → ∀ j k, b.Has j k → gg j k = f j k + I.chroma (32 * g.1, 32 * g.2) (l1 ++ [b]) c (256 * g.1 + j) (256 * g.2 + k) * (sample m1 j k).getD (Arith.lit 0)) →
          ∀ l1 b l2, blocks = l1 ++ b :: l2 → b.takesPart (up c) = true → ∀ j k, b.High (up c) j k →
            sample m' j k = some (I.highChroma true (32 * g.1, 32 * g.2) (l1 ++ [b]) c b (b.ppg (up c)) (j - (b.ppg (up c)).1) (k - (b.ppg (up c)).2)) := by
        intro c f gg mm m' hc hc1 hf hmm hgg hv l1 b l2 hb hp j k hr
        have hmem : b ∈ blocks := by rw [hb]; simp
        have hhas : b.Has j k := by
          have := hr.1
          rw [hz c hc, ppg0] at this
          exact this
        obtain ⟨i1, i2⟩ := hF.inside b hmem c hc hp
        rw [hz c hc, ppg0] at i1 i2
        dsimp only at i1 i2
        rw [(hHW c hc).1] at i1
        rw [(hHW c hc).2] at i2
        have hh := hhas
        unfold QBlock.Has at hh
        rw [hgg.2 j k (by omega) (by omega), hv l1 b l2 hb j k hhas, hf, hmm j k b hmem hp hr]
        have hr1 : b.High (up 1) j k := by rw [hz 1 (by omega)]; rw [hz c hc] at hr; exact hr
        rw [t1.2 j k b hmem (by rw [hz 1 (by omega)]; exact tp0 b) hr1]
        unfold CodedGroup.highChroma
        rw [if_pos ⟨rfl, hc1⟩, hz c hc, hz 1 (by omega), ppg0]
        dsimp only [Option.getD_some]
        rw [show 8 * (32 * g.1 + b.groupY) + (j - 8 * b.groupY) = 256 * g.1 + j by omega, show 8 * (32 * g.2 + b.groupX) + (k - 8 * b.groupX) = 256 * g.2 + k by omega]
      rcases c with _ | _ | _ | c
      · cases hm
        refine ⟨q0.1, key 0 _ g0 m0 s'.p0 (by omega) (by omega) (fun _ _ => rfl) t0.2 q0 fun l1 b l2 hb j k hh => ?_⟩
        rw [(r1 l1 b l2 hb j k hh).1, List.nil_append, hS.baseX, hS.inv]
        rfl
      · cases hm
        refine ⟨t1.1, fun l1 b l2 hb hp j k hr => ?_⟩
        rw [t1.2 j k b (by rw [hb]; simp) hp hr]
        unfold CodedGroup.highChroma
        rw [if_neg (by simp)]
      · cases hm
        refine ⟨by rw [(hHW 2 hc).1, (hHW 2 hc).2]; exact q2.1, key 2 _ g2 m2 s'.p2 (by omega) (by omega) (fun _ _ => rfl) t2.2 q2 fun l1 b l2 hb j k hh => ?_⟩
        rw [(r1 l1 b l2 hb j k hh).2, List.nil_append, hS.baseB, hS.inv]
        rfl
      · omega

/-- C69: the coefficients of every block are the ones that the stream gives: low frequencies from its LF samples, high frequencies from its own quantized coefficients, its multiplier
and the weights of its type, and luma added to the chroma channels. The order of the blocks matters only for the factors of this (C70), and what the planes and the scratch spaces held
before does not matter. -/
theorem C69_coefficients {lut : List (List (List α))} {cos : Nat → Nat → Nat → α} (scale : Nat → Nat → α) (hl : ∀ l, l ≤ 5 → HasLUT lut l (2 ^ l) (cos l))
    (hS : Stored I H W Lh Lw th tw weights factors bias p quantized lf) (hF : DequantFits H W Lh Lw th tw up g blocks) {planes : List (List (List α))}
    (h3 : planes.length = 3) (hT : ∀ c m, planes[c]? = some m → Table (H c) (W c) m) {s0 s1 : List (List α)} (t0 : Table 32 32 s0) (t1 : Table 32 32 s1) :
    ∃ ps, bakeDequantizedCoeffs lut scale weights factors bias I.numerator p quantized lf [up 0, up 1, up 2] (32 * g.1, 32 * g.2) blocks planes (s0, s1) = .ok ps ∧ ps.length = 3 ∧
      ∀ c m, c < 3 → ps[c]? = some m → Table (H c) (W c) m ∧ ∀ l1 b l2, blocks = l1 ++ b :: l2 → b.takesPart (up c) = true →
        HasBlock (b.ppg (up c)).1 (b.ppg (up c)).2 b.tt.tt.pixelHeight.toNat b.tt.tt.pixelWidth.toNat
          (I.coeff cos scale (noSubsampling up) (32 * g.1, 32 * g.2) (l1 ++ [b]) c b (b.ppg (up c)) ((32 * g.1 + b.groupY) / 2 ^ (up c).1, (32 * g.2 + b.groupX) / 2 ^ (up c).2)) m := by
  obtain ⟨ps1, e1, l1, r1⟩ := dequantizeHF_ok hS hF h3 hT
  obtain ⟨ps2, e2, l2, r2⟩ := chromaFromLuma_ok hS hF l1 r1
  have hup : ∀ c, c < 3 → [up 0, up 1, up 2][c]? = some (up c) := by
    intro c hc
    rcases c with _ | _ | _ | c
    · rfl
    · rfl
    · rfl
    · omega
  have hlow : ∀ b ∈ blocks, ∀ c, c < 3 → b.takesPart (up c) = true → ∀ j k,
      InRect (b.ppg (up c), (b.tt.tt.dctHeight.toNat, b.tt.tt.dctWidth.toNat)) j k → InRect (b.ppg (up c), (b.tt.tt.pixelHeight.toNat, b.tt.tt.pixelWidth.toNat)) j k := by
    intro b hb c hc hp j k hr
    obtain ⟨a', ha', b', hb', e1, e2, e3, e4, _⟩ := allDCT_sizes _ (hF.known b hb)
    unfold InRect at hr ⊢
    dsimp only at hr ⊢
    omega
  obtain ⟨ps3, _, e3, l3, r3⟩ := eachPlane_ok (h := H) (w := W) (σ := List (List α) × List (List α)) hup (f := fun c b s => do
      let u ← idx [up 0, up 1, up 2] (c : Int)
      let l ← idx lf (c : Int)
      llfBlock lut scale l b.tt.tt ((32 * g.1 + b.groupY) >>> u.1, (32 * g.2 + b.groupX) >>> u.2) (b.ppg u) s)
    (Ok := fun s => Table 32 32 s.1 ∧ Table 32 32 s.2) (Reg := fun c b j k => InRect (b.ppg (up c), (b.tt.tt.dctHeight.toNat, b.tt.tt.dctWidth.toNat)) j k)
    (val := fun c b j k => lowValue cos scale (Nat.log2 (b.tt.tt.pixelHeight.toNat / 8)) (Nat.log2 (b.tt.tt.pixelWidth.toNat / 8))
      (fun y x => I.lf c ((32 * g.1 + b.groupY) / 2 ^ (up c).1 + y) ((32 * g.2 + b.groupX) / 2 ^ (up c).2 + x)) (j - (b.ppg (up c)).1) (k - (b.ppg (up c)).2)) blocks
    (by
      rintro b hb c hc hp m ⟨z0, z1⟩ hTm ⟨o0, o1⟩
      obtain ⟨l, hl1, hl2⟩ := hS.lf c hc
      obtain ⟨a', ha', b', hb', e1, e2, e3, e4, _⟩ := allDCT_sizes _ (hF.known b hb)
      obtain ⟨i1, i2⟩ := hF.inside b hb c hc hp
      obtain ⟨j1, j2⟩ := hF.lfInside b hb c hc hp
      have d1 : b.tt.tt.pixelHeight.toNat / 8 = 2 ^ a' := by omega
      have d2 : b.tt.tt.pixelWidth.toNat / 8 = 2 ^ b' := by omega
      obtain ⟨m', z0', z1', e, q0, q1, L⟩ := llfBlock_ok scale hl (tt := b.tt.tt) e3 e4 (by omega) (by omega)
        (src := ((32 * g.1 + b.groupY) >>> (up c).1, (32 * g.2 + b.groupX) >>> (up c).2)) (ppg := b.ppg (up c)) (lf := l)
        (f := fun y x => I.lf c ((32 * g.1 + b.groupY) / 2 ^ (up c).1 + y) ((32 * g.2 + b.groupX) / 2 ^ (up c).2 + x))
        (by
          intro y x hy hx
          dsimp only
          rw [Nat.shiftRight_eq_div_pow, Nat.shiftRight_eq_div_pow]
          exact hl2 _ _ (by omega) (by omega)) hTm (by omega) (by omega) o0 o1
      refine ⟨m', (z0', z1'), ?_, ⟨q0, q1⟩, L.1, fun j k => ⟨fun hr => ?_, fun hr => ?_⟩⟩
      · rw [idx_nat (hup c hc), Res.bind_ok, idx_nat hl1, Res.bind_ok]
        exact e
      · unfold InRect at hr
        dsimp only at hr
        rw [e3, e4] at hr
        rw [L.2, if_pos hr, d1, d2, Nat.log2_two_pow, Nat.log2_two_pow]
      · unfold InRect at hr
        dsimp only at hr
        rw [e3, e4] at hr
        rw [L.2, if_neg hr])
    (by
      refine List.Pairwise.imp_of_mem ?_ hF.apart
      intro b b' hb hb' h c hc hp hp' j k hr hr'
      exact h c hc hp hp' j k (hlow b hb c hc hp j k hr) (hlow b' hb' c hc hp' j k hr'))
    ps2 (s0, s1) ⟨t0, t1⟩ l2 (by
      intro c m hm
      have hc : c < 3 := by
        obtain ⟨hlt, _⟩ := List.getElem?_eq_some_iff.1 hm
        omega
      exact (r2 c m hc hm).1)
  refine ⟨ps3, ?_, l3, fun c m hc hm => ?_⟩
  · unfold bakeDequantizedCoeffs
    rw [e1, Res.bind_ok, e2, Res.bind_ok]
    unfold finalizeLLF
    rw [e3, Res.bind_ok]
  obtain ⟨m2, hm2, t, v⟩ := r3 c m hc hm
  refine ⟨t, fun k1 b k2 hb hp y x hy hx => ?_⟩
  have hmem : b ∈ blocks := by rw [hb]; simp
  obtain ⟨a', ha', b', hb', e1, e2, e3, e4, _⟩ := allDCT_sizes _ (hF.known b hmem)
  obtain ⟨v1, v2⟩ := v ((b.ppg (up c)).1 + y) ((b.ppg (up c)).2 + x)
  have hin : InRect (b.ppg (up c), (b.tt.tt.pixelHeight.toNat, b.tt.tt.pixelWidth.toNat)) ((b.ppg (up c)).1 + y) ((b.ppg (up c)).2 + x) := by
    unfold InRect
    dsimp only
    omega
  by_cases hlo : y < b.tt.tt.pixelHeight.toNat / 8 ∧ x < b.tt.tt.pixelWidth.toNat / 8
  · rw [v1 b hmem hp (by unfold InRect; dsimp only; omega)]
    unfold CodedGroup.coeff
    rw [if_pos hlo, Nat.add_sub_cancel_left, Nat.add_sub_cancel_left]
  · rw [v2, (r2 c m2 hc hm2).2 k1 b k2 hb hp _ _ (by unfold QBlock.High HighPart; omega)]
    · unfold CodedGroup.coeff CodedGroup.highChroma
      rw [if_neg hlo, Nat.add_sub_cancel_left, Nat.add_sub_cancel_left]
    · intro b2 hb2 hp2 hr2
      by_cases hbb : b2 = b
      · subst hbb
        unfold InRect at hr2
        dsimp only at hr2
        omega
      · rcases pairwise_either hF.apart hb2 hmem hbb with h | h
        · exact h c hc hp2 hp _ _ (hlow b2 hb2 c hc hp2 _ _ hr2) hin
        · exact h c hc hp hp2 _ _ hin (hlow b2 hb2 c hc hp2 _ _ hr2)

end

end Jxl
