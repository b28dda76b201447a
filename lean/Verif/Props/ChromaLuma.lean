import Verif.Proofs.GroupBlocks

/-!
# C70: chroma from luma

From the blocks of an LF group to the coefficients of a group. The factors of a tile are computed when a block reaches its first pixel.
-/
namespace Jxl
open Spec (Block)

/-- A block of the LF group as a block of its group. -/
def Spec.Block.toQ (g : Nat × Nat) (b : Block) : QBlock := ⟨⟨b.y - 32 * g.1, b.x - 32 * g.2, placedRef b.tt⟩, b.mul⟩

theorem groupQBlocks_ok {h w : Nat} {l : List Block} {m : HFMetadata} (Hm : Holds h w l m) (g : Nat × Nat) : ∀ l' : List Block, (∀ b ∈ l', b ∈ l) →
    groupQBlocks (32 * g.1, 32 * g.2) m (l'.map (fun b => (⟨b.y, b.x⟩ : Point))) = .ok ((l'.filter (fun b => b.inGroup g)).map (fun b => b.toQ g)) := by
  intro l'
  induction l' with
  | nil => intro _; rfl
  | cons b bs ih =>
    intro hsub
    have ih := ih (fun c hc => hsub c (List.mem_cons_of_mem _ hc))
    have hb := hsub b List.mem_cons_self
    have hi := Hm.inside b hb
    obtain ⟨s1, s2⟩ := Hm.covered b hb b.y b.x (covers_self hi.1)
    obtain ⟨_, ht, _⟩ := block_tt hi.1
    rw [ht] at s1
    rw [List.map_cons, groupQBlocks]
    dsimp only
    by_cases hg : b.inGroup g = true
    · have hg' : b.y / 32 = g.1 ∧ b.x / 32 = g.2 := of_decide_eq_true hg
      rw [if_neg (by omega), at2_sample s1, Res.bind_ok]
      dsimp only
      rw [at2_sample s2, Res.bind_ok, ih, Res.bind_ok, List.filter_cons_of_pos hg, List.map_cons]
      unfold Spec.Block.toQ
      congr 4
      · omega
      · omega
    · have hg' : ¬ (b.y / 32 = g.1 ∧ b.x / 32 = g.2) := fun hh => hg (decide_eq_true hh)
      rw [if_pos (by omega), ih, List.filter_cons_of_neg hg]

/-- The blocks of a group in the order of the stream. -/
def Spec.groupOf (g : Nat × Nat) (l : List Block) : List QBlock := (l.reverse.filter (fun b => b.inGroup g)).map (fun b => b.toQ g)

theorem toQ_covers {h w : Nat} {g : Nat × Nat} {b : Block} (hi : b.Inside h w) (hg : b.inGroup g = true) (y x : Nat) :
    (b.toQ g).covers (32 * g.1, 32 * g.2) y x = true ↔ b.Covers (y / 8) (x / 8) := by
  have hg' : b.y / 32 = g.1 ∧ b.x / 32 = g.2 := of_decide_eq_true hg
  obtain ⟨_, _, e1, e2⟩ := block_tt hi.1
  unfold QBlock.covers Spec.Block.toQ Spec.Block.Covers placedRef
  dsimp only
  rw [e1, e2, decide_eq_true_iff]
  omega

/-- The factor of the tile has been computed when a block needs it. -/
theorem tiled_seen {h w : Nat} {l : List Block} (F : Spec.Tiled h w l) (g : Nat × Nat) {l1 l2 : List QBlock} {q : QBlock} (hs : Spec.groupOf g l = l1 ++ q :: l2) {y x : Nat}
    (hc : q.covers (32 * g.1, 32 * g.2) y x = true) : (l1 ++ [q]).any (fun b => b.covers (32 * g.1, 32 * g.2) (y / 64 * 64) (x / 64 * 64)) = true := by
  unfold Spec.groupOf at hs
  obtain ⟨k1, k2, e, e1, e2⟩ := List.map_eq_append_iff.1 hs
  obtain ⟨b, k3, e3, e4, e5⟩ := List.map_eq_cons_iff.1 e2
  subst e3 e4 e1
  have hmem : ∀ c, c ∈ k1 ++ b :: k3 → c ∈ l ∧ c.inGroup g = true := by
    intro c hc
    rw [← e, List.mem_filter, List.mem_reverse] at hc
    exact hc
  obtain ⟨hb, hbg⟩ := hmem b (by simp)
  have hi := laid_inside F.laid b hb
  have hcov := (toQ_covers hi hbg y x).1 hc
  obtain ⟨a, ha, ac, hab⟩ := tile_before F hb hcov
  have hia := laid_inside F.laid a ha
  have hag : a.inGroup g = true := by
    have hbg' : b.y / 32 = g.1 ∧ b.x / 32 = g.2 := of_decide_eq_true hbg
    refine decide_eq_true ?_
    obtain ⟨g1, g2⟩ := F.group a ha
    obtain ⟨g3, g4⟩ := F.group b hb
    obtain ⟨c1, c2, c3, c4⟩ := hcov
    obtain ⟨c5, c6, c7, c8⟩ := ac
    omega
  have hord : (k1 ++ b :: k3).Pairwise (fun a b => a.Before b) := by
    rw [← e]
    exact (List.pairwise_reverse.2 (laid_raster F.laid)).filter _
  have hin : a ∈ k1 ++ b :: k3 := by
    rw [← e, List.mem_filter, List.mem_reverse]
    exact ⟨ha, hag⟩
  have hfirst : a ∈ k1 ++ [b] := by
    rcases hab with rfl | hbef
    · simp
    · rcases List.mem_append.1 hin with h1 | h1
      · exact List.mem_append_left _ h1
      · rcases List.mem_cons.1 h1 with h2 | h2
        · subst h2; simp
        · have h3 := (List.pairwise_cons.1 (List.pairwise_append.1 hord).2.1).1 a h2
          exfalso
          unfold Spec.Block.Before at hbef h3
          omega
  rw [List.any_eq_true]
  refine ⟨a.toQ g, ?_, (toQ_covers hia hag _ _).2 ?_⟩
  · have := List.mem_map_of_mem (f := fun b => b.toQ g) hfirst
    simpa using this
  · have e6 : y / 64 * 64 / 8 = y / 8 / 8 * 8 := by omega
    have e7 : x / 64 * 64 / 8 = x / 8 / 8 * 8 := by omega
    rw [e6, e7]
    exact ac

/-- The sizes of a group in pixels. -/
def groupRows (h : Nat) (g : Nat) : Nat := 8 * min 32 (h - 32 * g)

theorem laid_fits {h w : Nat} {l : List Block} (hl : Spec.Laid h w l) (hgr : ∀ b ∈ l, b.y % 32 + b.rows ≤ 32 ∧ b.x % 32 + b.cols ≤ 32) (g : Nat × Nat) :
    DequantFits (fun _ => groupRows h g.1) (fun _ => groupRows w g.2) (fun _ => h) (fun _ => w) ((h + 7) / 8) ((w + 7) / 8) (fun _ => (0, 0)) g (Spec.groupOf g l) := by
  have hmem : ∀ q ∈ Spec.groupOf g l, ∃ b ∈ l, b.inGroup g = true ∧ q = b.toQ g := by
    intro q hq
    unfold Spec.groupOf at hq
    obtain ⟨b, hb, e⟩ := List.mem_map.1 hq
    rw [List.mem_filter, List.mem_reverse] at hb
    exact ⟨b, hb.1, hb.2, e.symm⟩
  have hppg : ∀ b : Block, (b.toQ g).ppg (0, 0) = (8 * (b.y - 32 * g.1), 8 * (b.x - 32 * g.2)) := by
    intro b
    have := (C68_places (b.toQ g).toVBlock (0, 0) (0, 0)).2.1
    simpa [Spec.Block.toQ] using this
  refine ⟨?_, ?_, ?_, ?_, ?_, ?_, ?_⟩
  · intro q hq
    obtain ⟨b, hb, _, rfl⟩ := hmem q hq
    exact (block_tt (laid_inside hl b hb).1).1
  · intro c
    unfold groupRows
    omega
  · intro _ c _
    exact ⟨rfl, rfl⟩
  · intro q hq c _ _
    obtain ⟨b, hb, hbg, rfl⟩ := hmem q hq
    have hbg' : b.y / 32 = g.1 ∧ b.x / 32 = g.2 := of_decide_eq_true hbg
    obtain ⟨i1, i2, i3⟩ := laid_inside hl b hb
    obtain ⟨_, _, e1, e2⟩ := block_tt i1
    obtain ⟨g1, g2⟩ := hgr b hb
    rw [hppg]
    show 8 * (b.y - 32 * g.1) + b.tt.pixelHeight.toNat ≤ _ ∧ 8 * (b.x - 32 * g.2) + b.tt.pixelWidth.toNat ≤ _
    rw [e1, e2]
    unfold groupRows
    omega
  · intro q hq c _ _
    obtain ⟨b, hb, hbg, rfl⟩ := hmem q hq
    have hbg' : b.y / 32 = g.1 ∧ b.x / 32 = g.2 := of_decide_eq_true hbg
    obtain ⟨i1, i2, i3⟩ := laid_inside hl b hb
    obtain ⟨_, _, e1, e2⟩ := block_tt i1
    show (32 * g.1 + (b.y - 32 * g.1)) / 2 ^ 0 + b.tt.pixelHeight.toNat / 8 ≤ _ ∧ (32 * g.2 + (b.x - 32 * g.2)) / 2 ^ 0 + b.tt.pixelWidth.toNat / 8 ≤ _
    rw [e1, e2]
    omega
  · intro q hq
    obtain ⟨b, hb, hbg, rfl⟩ := hmem q hq
    have hbg' : b.y / 32 = g.1 ∧ b.x / 32 = g.2 := of_decide_eq_true hbg
    obtain ⟨i1, i2, i3⟩ := laid_inside hl b hb
    obtain ⟨_, _, e1, e2⟩ := block_tt i1
    show 256 * g.1 + 8 * (b.y - 32 * g.1) + b.tt.pixelHeight.toNat ≤ _ ∧ 256 * g.2 + 8 * (b.x - 32 * g.2) + b.tt.pixelWidth.toNat ≤ _
    rw [e1, e2]
    omega
  · unfold Spec.groupOf
    rw [List.pairwise_map]
    have hp : (l.reverse.filter (fun b => b.inGroup g)).Pairwise (fun a b => a ∈ l ∧ b ∈ l ∧ a.inGroup g = true ∧ b.inGroup g = true ∧ a.Apart b) := by
      have h1 : l.reverse.Pairwise (fun a b => a.Apart b) := by
        rw [List.pairwise_reverse]
        exact hl.apart.imp (fun hab y x hc => hab y x ⟨hc.2, hc.1⟩)
      have h2 := h1.filter (fun b => b.inGroup g)
      refine h2.imp_of_mem ?_
      intro a b ha hb hab
      rw [List.mem_filter, List.mem_reverse] at ha hb
      exact ⟨ha.1, hb.1, ha.2, hb.2, hab⟩
    refine hp.imp ?_
    rintro a b ⟨ha, hb, hag, hbg, hab⟩ c _ _ _ j k r1 r2
    have hag' : a.y / 32 = g.1 ∧ a.x / 32 = g.2 := of_decide_eq_true hag
    have hbg' : b.y / 32 = g.1 ∧ b.x / 32 = g.2 := of_decide_eq_true hbg
    obtain ⟨_, _, e1, e2⟩ := block_tt (laid_inside hl a ha).1
    obtain ⟨_, _, e3, e4⟩ := block_tt (laid_inside hl b hb).1
    rw [hppg] at r1 r2
    unfold InRect at r1 r2
    change (8 * (a.y - 32 * g.1) ≤ j ∧ j < 8 * (a.y - 32 * g.1) + a.tt.pixelHeight.toNat) ∧ (8 * (a.x - 32 * g.2) ≤ k ∧ k < 8 * (a.x - 32 * g.2) + a.tt.pixelWidth.toNat) at r1
    change (8 * (b.y - 32 * g.1) ≤ j ∧ j < 8 * (b.y - 32 * g.1) + b.tt.pixelHeight.toNat) ∧ (8 * (b.x - 32 * g.2) ≤ k ∧ k < 8 * (b.x - 32 * g.2) + b.tt.pixelWidth.toNat) at r2
    rw [e1, e2] at r1
    rw [e3, e4] at r2
    refine hab (j / 8 + 32 * g.1) (k / 8 + 32 * g.2) ⟨⟨?_, ?_, ?_, ?_⟩, ⟨?_, ?_, ?_, ?_⟩⟩ <;> omega

section
variable {α : Type} [Arith α]

/-- **C70**, for blocks that keep to groups and tiles: the blocks of a frame without subsampling are put where the format puts them, and the coefficients of each of them are the
ones of the format. -/
theorem C70_coefficients_partial {I : CodedGroup α} {h w : Nat} {l : List Block} (F : Spec.Tiled h w l) (g : Nat × Nat) {weights : List (List (List (List α)))} {factors bias : List α} {p : CflParams α}
    {quantized : List (List (List Int))} {lf : List (List (List α))} {lut : List (List (List α))} {cos : Nat → Nat → Nat → α} (scale : Nat → Nat → α)
    (hl : ∀ l, l ≤ 5 → HasLUT lut l (2 ^ l) (cos l))
    (hS : Stored I (fun _ => groupRows h g.1) (fun _ => groupRows w g.2) (fun _ => h) (fun _ => w) ((h + 7) / 8) ((w + 7) / 8) weights factors bias p quantized lf)
    {planes : List (List (List α))} (h3 : planes.length = 3) (hT : ∀ (c : Nat) m, planes[c]? = some m → Table (groupRows h g.1) (groupRows w g.2) m)
    {s0 s1 : List (List α)} (t0 : Table 32 32 s0) (t1 : Table 32 32 s1) :
    ∃ m blocks ps, newHFMetadata h w (l.reverse.map (fun b => ((b.type : Int), b.mul - 1))) = .ok (l.reverse.map (fun b => (⟨b.y, b.x⟩ : Point)), m) ∧
      groupQBlocks (32 * g.1, 32 * g.2) m (l.reverse.map (fun b => (⟨b.y, b.x⟩ : Point))) = .ok blocks ∧
      bakeDequantizedCoeffs lut scale weights factors bias I.numerator p quantized lf [(0, 0), (0, 0), (0, 0)] (32 * g.1, 32 * g.2) blocks planes (s0, s1) = .ok ps ∧
      ∀ b ∈ l, b.y / 32 = g.1 → b.x / 32 = g.2 → ∀ c, c < 3 → ∃ plane, ps[c]? = some plane ∧ Table (groupRows h g.1) (groupRows w g.2) plane ∧
        HasBlock (8 * (b.y - 32 * g.1)) (8 * (b.x - 32 * g.2)) (8 * b.rows) (8 * b.cols) (I.formatCoeff cos scale (32 * g.1, 32 * g.2) (b.y, b.x) c b.tt b.mul) plane := by
  obtain ⟨m, e1, Hm⟩ := format_holds h w l F.laid (fun b hb => by have := F.mul b hb; omega)
  have e2 := groupQBlocks_ok Hm g l.reverse (fun b hb => List.mem_reverse.1 hb)
  obtain ⟨ps, e3, l3, r3⟩ := C69_coefficients scale hl hS (laid_fits F.laid F.group g) h3 hT t0 t1
  refine ⟨m, _, ps, e1, e2, e3, ?_⟩
  intro b hb hy hx c hc
  have hps : ps[c]? = some ps[c] := List.getElem?_eq_getElem (by omega)
  refine ⟨ps[c], hps, (r3 c _ hc hps).1, ?_⟩
  have hbg : b.inGroup g = true := decide_eq_true ⟨hy, hx⟩
  have hi := laid_inside F.laid b hb
  obtain ⟨_, _, d1, d2⟩ := block_tt hi.1
  have hq : b.toQ g ∈ Spec.groupOf g l := by
    unfold Spec.groupOf
    exact List.mem_map_of_mem (List.mem_filter.2 ⟨List.mem_reverse.2 hb, hbg⟩)
  obtain ⟨l1, l2, hs⟩ := List.append_of_mem hq
  have hparts := (C68_places (b.toQ g).toVBlock (0, 0) (0, 0)).1.2 ⟨by simp, by simp⟩
  have hppg : (b.toQ g).ppg (0, 0) = (8 * (b.y - 32 * g.1), 8 * (b.x - 32 * g.2)) := by
    have := (C68_places (b.toQ g).toVBlock (0, 0) (0, 0)).2.1
    simpa [Spec.Block.toQ] using this
  have key := (r3 c _ hc hps).2 l1 (b.toQ g) l2 hs hparts
  rw [hppg] at key
  dsimp only at key
  intro y x hy' hx'
  have k2 := key y x (by show y < b.tt.pixelHeight.toNat; omega) (by show x < b.tt.pixelWidth.toNat; omega)
  rw [k2]
  congr 1
  have q1 : 32 * g.1 + (b.y - 32 * g.1) = b.y := by omega
  have q2 : 32 * g.2 + (b.x - 32 * g.2) = b.x := by omega
  have hcov : (b.toQ g).covers (32 * g.1, 32 * g.2) (8 * b.y + y) (8 * b.x + x) = true := by
    rw [toQ_covers hi hbg]
    refine ⟨?_, ?_, ?_, ?_⟩ <;> omega
  have hseen := tiled_seen F g hs hcov
  have hch : I.chroma (32 * g.1, 32 * g.2) (l1 ++ [b.toQ g]) c (8 * b.y + y) (8 * b.x + x) = I.tile c (8 * b.y + y) (8 * b.x + x) := by
    unfold CodedGroup.chroma CodedGroup.tile usedFactor
    rw [if_pos hseen, if_pos hseen]
  have hno : noSubsampling (fun _ => (0, 0)) = true := by decide
  unfold CodedGroup.coeff CodedGroup.formatCoeff CodedGroup.high
  rw [hno]
  show (if y < b.tt.pixelHeight.toNat / 8 ∧ x < b.tt.pixelWidth.toNat / 8 then lowValue cos scale _ _ (fun y x => I.lf c ((32 * g.1 + (b.y - 32 * g.1)) / 2 ^ 0 + y) ((32 * g.2 + (b.x - 32 * g.2)) / 2 ^ 0 + x)) y x
    else if _ then _ + I.chroma _ _ c (8 * (32 * g.1 + (b.y - 32 * g.1)) + y) (8 * (32 * g.2 + (b.x - 32 * g.2)) + x) * _ else _) = _
  rw [q1, q2, hch]
  simp only [Nat.pow_zero, Nat.div_one]
  by_cases hlow : y < b.tt.pixelHeight.toNat / 8 ∧ x < b.tt.pixelWidth.toNat / 8
  · rw [if_pos hlow, if_pos hlow]
    rfl
  · rw [if_neg hlow, if_neg hlow]
    by_cases h1 : c = 1
    · subst h1
      rw [if_neg (by simp), if_pos rfl]
      rfl
    · rw [if_pos ⟨trivial, h1⟩, if_neg h1]
      rfl

end

/-! ## Examples -/

/-- The block of 8 by 8 pixels at the cell with the number `i`. -/
def Spec.cellBlock (w i : Nat) : Block := ⟨0, 1, i / w, i % w⟩

/-- The first `n` cells, last one first. -/
def Spec.cellBlocks (w : Nat) : Nat → List Block
  | 0 => []
  | n + 1 => Spec.cellBlock w n :: Spec.cellBlocks w n

theorem cell_size (w i : Nat) : (Spec.cellBlock w i).rows = 1 ∧ (Spec.cellBlock w i).cols = 1 := by
  constructor
  · show (Spec.transformSizes[0]?.getD (0, 0)).1 / 8 = 1
    decide
  · show (Spec.transformSizes[0]?.getD (0, 0)).2 / 8 = 1
    decide

theorem cell_covers {w i y x : Nat} : (Spec.cellBlock w i).Covers y x ↔ y = i / w ∧ x = i % w := by
  unfold Spec.Block.Covers
  rw [(cell_size w i).1, (cell_size w i).2]
  show i / w ≤ y ∧ y < i / w + 1 ∧ i % w ≤ x ∧ x < i % w + 1 ↔ _
  omega

theorem mem_cells {w : Nat} {b : Block} : ∀ {n : Nat}, b ∈ Spec.cellBlocks w n ↔ ∃ i, i < n ∧ b = Spec.cellBlock w i
  | 0 => by simp [Spec.cellBlocks]
  | n + 1 => by
    rw [Spec.cellBlocks, List.mem_cons, mem_cells]
    constructor
    · rintro (rfl | ⟨i, h, rfl⟩)
      · exact ⟨n, by omega, rfl⟩
      · exact ⟨i, by omega, rfl⟩
    · rintro ⟨i, h, rfl⟩
      by_cases hi : i = n
      · exact Or.inl (by rw [hi])
      · exact Or.inr ⟨i, by omega, rfl⟩

theorem cells_cover {w n y x : Nat} (hx : x < w) : (∃ b ∈ Spec.cellBlocks w n, b.Covers y x) ↔ y * w + x < n := by
  constructor
  · rintro ⟨b, hb, hc⟩
    obtain ⟨i, hi, rfl⟩ := mem_cells.1 hb
    obtain ⟨h1, h2⟩ := cell_covers.1 hc
    have := Nat.div_add_mod' i w
    rw [h1, h2]
    omega
  · intro h
    have hw : 0 < w := by omega
    refine ⟨Spec.cellBlock w (y * w + x), mem_cells.2 ⟨_, h, rfl⟩, cell_covers.2 ⟨?_, ?_⟩⟩
    · rw [Nat.add_comm, Nat.add_mul_div_right _ _ hw, Nat.div_eq_of_lt hx, Nat.zero_add]
    · rw [Nat.add_comm, Nat.add_mul_mod_self_right, Nat.mod_eq_of_lt hx]

theorem cells_first {w n : Nat} (hw : 0 < w) : Spec.FirstFree w (Spec.cellBlocks w n) (n / w) (n % w) := by
  have hm := Nat.mod_lt n hw
  have hd := Nat.div_add_mod' n w
  refine ⟨hm, ?_, ?_⟩
  · intro b hb hc
    have := (cells_cover hm).1 ⟨b, hb, hc⟩
    omega
  · intro j k hk hjk
    refine (cells_cover hk).2 ?_
    rcases hjk with h | ⟨rfl, h⟩
    · have : (j + 1) * w ≤ n / w * w := Nat.mul_le_mul_right _ h
      rw [Nat.add_mul] at this
      omega
    · omega

theorem laid_cells {h w : Nat} (hw : 0 < w) : ∀ n, n ≤ h * w → Spec.Laid h w (Spec.cellBlocks w n)
  | 0, _ => .nil
  | n + 1, hn => by
    have hm := Nat.mod_lt n hw
    have hd : n / w < h := (Nat.div_lt_iff_lt_mul hw).2 (by omega)
    refine .cons _ _ (laid_cells hw n (by omega)) (cells_first hw) ⟨by show 0 < 27; decide, ?_, ?_⟩ ?_
    · rw [(cell_size w n).1]
      show n / w + 1 ≤ h
      omega
    · rw [(cell_size w n).2]
      show n % w + 1 ≤ w
      omega
    · intro a ha y x hc
      obtain ⟨i, hi, rfl⟩ := mem_cells.1 ha
      obtain ⟨⟨h1, h2⟩, h3, h4⟩ := And.intro (cell_covers.1 hc.1) (cell_covers.1 hc.2)
      have e1 := Nat.div_add_mod' n w
      have e2 := Nat.div_add_mod' i w
      rw [← h1, ← h2] at e1
      rw [← h3, ← h4] at e2
      omega

/-- The hypotheses of C70 are met by every LF group that has only blocks of 8 by 8 pixels. -/
example (h w : Nat) (hw : 0 < w) : Spec.Tiled h w (Spec.cellBlocks w (h * w)) := by
  have hmem : ∀ b ∈ Spec.cellBlocks w (h * w), b.rows = 1 ∧ b.cols = 1 ∧ b.mul = 1 := by
    intro b hb
    obtain ⟨i, _, rfl⟩ := mem_cells.1 hb
    exact ⟨(cell_size w i).1, (cell_size w i).2, rfl⟩
  refine ⟨laid_cells hw _ (Nat.le_refl _), ?_, ?_, ?_, ?_⟩
  · intro y x hy hx
    refine (cells_cover hx).2 ?_
    have : (y + 1) * w ≤ h * w := Nat.mul_le_mul_right _ hy
    rw [Nat.add_mul] at this
    omega
  all_goals
    intro b hb
    obtain ⟨h1, h2, h3⟩ := hmem b hb
    omega

/-- An LF group of 9 by 3 cells: blocks of 8 by 8 pixels in seven rows and at (7, 0), then a block of 16 by 16 pixels at (7, 1), then one of 8 by 8 at (8, 0). -/
def Spec.tall : List Block := ⟨0, 1, 8, 0⟩ :: ⟨4, 1, 7, 1⟩ :: Spec.cellBlocks 3 22

theorem tall_laid : Spec.Laid 9 3 Spec.tall := by
  have c1 : ∀ y x : Nat, (⟨4, 1, 7, 1⟩ : Block).Covers y x ↔ (y = 7 ∨ y = 8) ∧ (x = 1 ∨ x = 2) := by
    intro y x
    unfold Spec.Block.Covers
    show 7 ≤ y ∧ y < 7 + 2 ∧ 1 ≤ x ∧ x < 1 + 2 ↔ _
    omega
  have c2 : ∀ y x : Nat, (⟨0, 1, 8, 0⟩ : Block).Covers y x ↔ y = 8 ∧ x = 0 := by
    intro y x
    unfold Spec.Block.Covers
    show 8 ≤ y ∧ y < 8 + 1 ∧ 0 ≤ x ∧ x < 0 + 1 ↔ _
    omega
  refine .cons _ _ (.cons _ _ (laid_cells (by decide) 22 (by decide)) (cells_first (n := 22) (by decide)) ⟨by decide, by decide, by decide⟩ ?_) ⟨by decide, ?_, ?_⟩
    ⟨by decide, by decide, by decide⟩ ?_
  · intro a ha y x hc
    have h1 := (c1 y x).1 hc.1
    have := (cells_cover (w := 3) (n := 22) (y := y) (x := x) (by omega)).1 ⟨a, ha, hc.2⟩
    omega
  · intro b hb hc
    rcases List.mem_cons.1 hb with rfl | hb'
    · have := (c1 8 0).1 hc
      omega
    · have := (cells_cover (w := 3) (n := 22) (y := 8) (x := 0) (by omega)).1 ⟨b, hb', hc⟩
      omega
  · intro j k hk hjk
    by_cases h22 : j * 3 + k < 22
    · obtain ⟨b, hb, hc⟩ := (cells_cover (w := 3) (n := 22) hk).2 h22
      exact ⟨b, List.mem_cons_of_mem _ hb, hc⟩
    · refine ⟨_, List.mem_cons_self, (c1 j k).2 ?_⟩
      dsimp only at hjk
      omega
  · intro a ha y x hc
    have h1 := (c2 y x).1 hc.1
    rcases List.mem_cons.1 ha with rfl | ha'
    · have := (c1 y x).1 hc.2
      omega
    · have := (cells_cover (w := 3) (n := 22) (y := y) (x := x) (by omega)).1 ⟨a, ha', hc.2⟩
      omega

/-- C70 does not hold for blocks that cross the border of a tile: here the block of 16 by 16 pixels at (56, 8) comes before the block with the first pixel of the second tile, which
is at (64, 0). Whatever the stream says, no luma is added to the chroma coefficients of its lower half. -/
theorem C70_fails {I : CodedGroup ℚ} {weights : List (List (List (List ℚ)))} {factors bias : List ℚ} {p : CflParams ℚ}
    {quantized : List (List (List Int))} {lf : List (List (List ℚ))} {lut : List (List (List ℚ))} {cos : Nat → Nat → Nat → ℚ} (scale : Nat → Nat → ℚ)
    (hl : ∀ l, l ≤ 5 → HasLUT lut l (2 ^ l) (cos l))
    (hS : Stored I (fun _ => 72) (fun _ => 24) (fun _ => 9) (fun _ => 3) 2 1 weights factors bias p quantized lf)
    {planes : List (List (List ℚ))} (h3 : planes.length = 3) (hT : ∀ (c : Nat) m, planes[c]? = some m → Table 72 24 m)
    {s0 s1 : List (List ℚ)} (t0 : Table 32 32 s0) (t1 : Table 32 32 s1) :
    ∃ m blocks ps plane, newHFMetadata 9 3 (Spec.tall.reverse.map (fun b => ((b.type : Int), b.mul - 1))) = .ok (Spec.tall.reverse.map (fun b => (⟨b.y, b.x⟩ : Point)), m) ∧
      groupQBlocks (0, 0) m (Spec.tall.reverse.map (fun b => (⟨b.y, b.x⟩ : Point))) = .ok blocks ∧
      bakeDequantizedCoeffs lut scale weights factors bias I.numerator p quantized lf [(0, 0), (0, 0), (0, 0)] (0, 0) blocks planes (s0, s1) = .ok ps ∧ ps[0]? = some plane ∧
      ∀ y x, 8 ≤ y → y < 16 → x < 16 → ∃ v k : ℚ, sample plane (56 + y) (8 + x) = some v ∧ k = I.tile 0 (56 + y) (8 + x) ∧
        I.formatCoeff cos scale (0, 0) (7, 1) 0 ⟨4, 4, 2, 0, 16, 16⟩ 1 y x = v + k * I.formatCoeff cos scale (0, 0) (7, 1) 1 ⟨4, 4, 2, 0, 16, 16⟩ 1 y x := by
  obtain ⟨m, e1, Hm⟩ := format_holds 9 3 Spec.tall tall_laid (by
    intro b hb
    rcases List.mem_cons.1 hb with rfl | hb
    · decide
    rcases List.mem_cons.1 hb with rfl | hb
    · decide
    obtain ⟨i, _, rfl⟩ := mem_cells.1 hb
    show -2147483648 ≤ (1 : Int) ∧ (1 : Int) ≤ 2147483647
    decide)
  have e2 := groupQBlocks_ok Hm (0, 0) Spec.tall.reverse (fun b hb => List.mem_reverse.1 hb)
  have hgr : ∀ b ∈ Spec.tall, b.y % 32 + b.rows ≤ 32 ∧ b.x % 32 + b.cols ≤ 32 := by decide
  obtain ⟨ps, e3, l3, r3⟩ := C69_coefficients scale hl hS (laid_fits tall_laid hgr (0, 0)) h3 hT t0 t1
  have hps : ps[0]? = some ps[0] := List.getElem?_eq_getElem (by omega)
  refine ⟨m, _, ps, ps[0], e1, e2, e3, hps, ?_⟩
  intro y x hy1 hy2 hx
  have hs : Spec.groupOf (0, 0) Spec.tall = (Spec.cellBlocks 3 22).reverse.map (fun b => b.toQ (0, 0)) ++ (⟨4, 1, 7, 1⟩ : Block).toQ (0, 0) :: [(⟨0, 1, 8, 0⟩ : Block).toQ (0, 0)] := by
    rfl
  have k2 := (r3 0 _ (by decide) hps).2 _ _ _ hs (by decide) y x (by show y < 16; omega) (by show x < 16; omega)
  have hun : ((Spec.cellBlocks 3 22).reverse.map (fun b => b.toQ (0, 0)) ++ [(⟨4, 1, 7, 1⟩ : Block).toQ (0, 0)]).any
      (fun b => b.covers (0, 0) ((56 + y) / 64 * 64) ((8 + x) / 64 * 64)) = false := by
    rw [show (56 + y) / 64 * 64 = 64 by omega, show (8 + x) / 64 * 64 = 0 by omega]
    decide
  have hch : I.chroma (0, 0) ((Spec.cellBlocks 3 22).reverse.map (fun b => b.toQ (0, 0)) ++ [(⟨4, 1, 7, 1⟩ : Block).toQ (0, 0)]) 0 (56 + y) (8 + x) = (0 : ℚ) := by
    unfold CodedGroup.chroma usedFactor
    rw [if_pos rfl, hun]
    rfl
  have hlow : ¬ (y < 2 ∧ x < 2) := by omega
  have f1 : I.formatCoeff cos scale (0, 0) (7, 1) 1 ⟨4, 4, 2, 0, 16, 16⟩ 1 y x = I.high 1 ((⟨4, 1, 7, 1⟩ : Block).toQ (0, 0)) (56, 8) y x := by
    unfold CodedGroup.formatCoeff
    dsimp only
    refine (if_neg hlow).trans ?_
    rw [if_pos rfl]
    rfl
  have f0 : I.formatCoeff cos scale (0, 0) (7, 1) 0 ⟨4, 4, 2, 0, 16, 16⟩ 1 y x =
      I.high 0 ((⟨4, 1, 7, 1⟩ : Block).toQ (0, 0)) (56, 8) y x + I.tile 0 (56 + y) (8 + x) * I.high 1 ((⟨4, 1, 7, 1⟩ : Block).toQ (0, 0)) (56, 8) y x := by
    unfold CodedGroup.formatCoeff
    dsimp only
    refine (if_neg hlow).trans ?_
    rw [if_neg (by decide)]
    rfl
  refine ⟨I.high 0 ((⟨4, 1, 7, 1⟩ : Block).toQ (0, 0)) (56, 8) y x, _, k2.trans (congrArg some ?_), rfl, by rw [f0, f1]⟩
  unfold CodedGroup.coeff
  refine (if_neg hlow).trans ?_
  rw [if_pos (by decide)]
  show I.high 0 ((⟨4, 1, 7, 1⟩ : Block).toQ (0, 0)) (56, 8) y x + I.chroma (0, 0) ((Spec.cellBlocks 3 22).reverse.map (fun b => b.toQ (0, 0)) ++ [(⟨4, 1, 7, 1⟩ : Block).toQ (0, 0)]) 0 (56 + y) (8 + x) *
    I.high 1 ((⟨4, 1, 7, 1⟩ : Block).toQ (0, 0)) (56, 8) y x = _
  rw [hch, zero_mul, add_zero]

end Jxl
