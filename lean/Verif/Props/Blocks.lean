import Verif.Proofs.Blocks

/-!
# C29: the transform blocks of an LF group
-/
namespace Jxl
open Spec

/-- The types have the numbers and the sizes the format gives them. -/
theorem allDCT_spec : ∀ t : Fin 27, ∃ tt, allDCT[t.1]? = some tt ∧ tt.ttType = (t.1 : Int) ∧
    transformSizes[t.1]? = some (tt.pixelHeight.toNat, tt.pixelWidth.toNat) ∧ 0 < tt.dctHeight ∧ 0 < tt.dctWidth ∧
    tt.dctHeight.toNat = tt.pixelHeight.toNat / 8 ∧ tt.dctWidth.toNat = tt.pixelWidth.toNat / 8 := by
  have key : ∀ t : Fin 27, (match allDCT[t.1]? with
    | none => false
    | some tt => decide (tt.ttType = (t.1 : Int) ∧ transformSizes[t.1]? = some (tt.pixelHeight.toNat, tt.pixelWidth.toNat) ∧ 0 < tt.dctHeight ∧
      0 < tt.dctWidth ∧ tt.dctHeight.toNat = tt.pixelHeight.toNat / 8 ∧ tt.dctWidth.toNat = tt.pixelWidth.toNat / 8)) = true := by decide
  intro t
  have := key t
  split at this
  · cases this
  · next tt e => exact ⟨tt, e, of_decide_eq_true this⟩

theorem block_type {b : Block} (h : b.type < 27) : ∃ tt, allDCT[b.type]? = some tt ∧ tt.ttType = b.type ∧ tt.dctHeight.toNat = b.rows ∧
    tt.dctWidth.toNat = b.cols ∧ 0 < tt.dctHeight ∧ 0 < tt.dctWidth := by
  obtain ⟨tt, h1, h2, h3, h4, h5, h6, h7⟩ := allDCT_spec ⟨b.type, h⟩
  dsimp only at h1 h2 h3
  refine ⟨tt, h1, h2, ?_, ?_, h4, h5⟩
  · rw [h6, Block.rows, h3]; rfl
  · rw [h7, Block.cols, h3]; rfl

/-- What the tables hold. -/
structure Holds (h w : Nat) (bs : List Block) (m : HFMetadata) : Prop where
  types : Table h w m.dctSelect
  muls : Table h w m.hfMultiplier
  inside : ∀ b ∈ bs, b.Inside h w
  covered : ∀ b ∈ bs, ∀ y x, b.Covers y x → sample m.dctSelect y x = some allDCT[b.type]? ∧ sample m.hfMultiplier y x = some b.mul
  free : ∀ y x, y < h → x < w → (∀ b ∈ bs, ¬ b.Covers y x) → sample m.dctSelect y x = some none

theorem Holds.shows {h w : Nat} {bs : List Block} {m : HFMetadata} (H : Holds h w bs m) : CellMap h w bs m := by
  refine ⟨H.types, H.muls, fun b hb y x hc => ?_, H.free⟩
  obtain ⟨h1, h2⟩ := H.covered b hb y x hc
  obtain ⟨tt, e1, e2, _⟩ := block_type (H.inside b hb).1
  exact ⟨⟨tt, by rw [h1, e1], e2⟩, h2⟩

theorem Holds.sized {h w : Nat} {bs : List Block} {m : HFMetadata} (H : Holds h w bs m) : CellsSized m := by
  intro y x tt hs
  have hyx : y < h ∧ x < w := by
    by_contra hc
    rw [H.types.sample_none (by omega)] at hs
    cases hs
  by_cases hb : ∃ b ∈ bs, b.Covers y x
  · obtain ⟨b, hb, hc⟩ := hb
    obtain ⟨h1, _⟩ := H.covered b hb y x hc
    obtain ⟨tt', e1, _, _, _, _, e2⟩ := block_type (H.inside b hb).1
    rw [hs, e1] at h1
    cases h1
    exact e2
  · rw [H.free y x hyx.1 hyx.2 (by intro b h1 h2; exact hb ⟨b, h1, h2⟩)] at hs
    cases hs

theorem Holds.cons {h w : Nat} {bs : List Block} {m m' : HFMetadata} (H : Holds h w bs m) {b : Block} {tt : TransformType} (ht : allDCT[b.type]? = some tt)
    (hi : b.Inside h w) (ha : ∀ a ∈ bs, b.Apart a) (hr : tt.dctHeight.toNat = b.rows) (hc : tt.dctWidth.toNat = b.cols)
    (hm : Marked h w tt b.mul m b.y b.x tt.dctHeight.toNat 0 m') : Holds h w (b :: bs) m' := by
  have cov : ∀ y x, b.Covers y x ↔ (b.x ≤ x ∧ b.y ≤ y ∧ (y < b.y + tt.dctHeight.toNat ∧ x < b.x + tt.dctWidth.toNat ∨ y = b.y + tt.dctHeight.toNat ∧ x < b.x + 0)) := by
    intro y x
    unfold Block.Covers
    omega
  refine ⟨hm.types, hm.muls, ?_, ?_, ?_⟩
  · intro a h'
    rcases List.mem_cons.1 h' with rfl | h'
    · exact hi
    · exact H.inside a h'
  · intro a h' y x hcov
    rw [hm.sel, hm.mulv]
    rcases List.mem_cons.1 h' with rfl | h'
    · have := (cov y x).1 hcov
      rw [if_pos this, if_pos this, ht]
      exact ⟨rfl, rfl⟩
    · have hn : ¬ b.Covers y x := fun hb => ha a h' y x ⟨hb, hcov⟩
      rw [cov] at hn
      rw [if_neg hn, if_neg hn]
      exact H.covered a h' y x hcov
  · intro y x hy hx hno
    have hn := hno b List.mem_cons_self
    rw [cov] at hn
    rw [hm.sel, if_neg hn]
    exact H.free y x hy hx (fun a ha => hno a (List.mem_cons_of_mem _ ha))

/-- The state of the search: everything placed so far began in a row that is not below the last one. -/
structure Sound (h w : Nat) (bs : List Block) (lastY : Nat) (m : HFMetadata) : Prop where
  holds : Holds h w bs m
  apart : bs.Pairwise (fun a b => a.Apart b)
  above : ∀ b ∈ bs, b.y ≤ lastY

theorem placeBlocks_sound {h w : Nat} : ∀ (infos : List (Int × Int)) (bs : List Block) (lastY : Nat) (m m' : HFMetadata) (ps : List Point), lastY ≤ h →
    Sound h w bs lastY m → placeBlocks infos lastY m = .ok (ps, m') →
    ∃ new : List Block, new.map (fun b => ((b.type : Int), b.mul)) = infos.map (fun i => (i.1, i32 (1 + i.2))) ∧ new.map (fun b => (⟨b.y, b.x⟩ : Point)) = ps ∧
      ∃ lastY', Sound h w (new.reverse ++ bs) lastY' m'
  | [], bs, lastY, m, m', ps, _, H, e => by
    cases e
    exact ⟨[], rfl, rfl, lastY, H⟩
  | (t, mul) :: infos, bs, lastY, m, m', ps, hl, H, e => by
    rw [placeBlocks] at e
    by_cases ht : 26 < t ∨ t < 0
    · rw [if_pos ht] at e
      cases e
    rw [if_neg ht] at e
    obtain ⟨tn, rfl⟩ : ∃ n : Nat, t = n := ⟨t.toNat, by omega⟩
    have ht27 : tn < 27 := by omega
    obtain ⟨tt, e1, e⟩ := Res.of_bind e
    obtain ⟨⟨p, m1⟩, e2, e⟩ := Res.of_bind e
    obtain ⟨⟨rest, m2⟩, e3, e⟩ := Res.of_bind e
    cases e
    dsimp only at *
    have ett := idx_ok_some e1
    obtain ⟨tt', g1, g2, g3, g4, g5, g6, g7⟩ := allDCT_spec ⟨tn, ht27⟩
    dsimp only at g1 g2 g3
    rw [ett] at g1
    cases g1
    rw [H.holds.types.1, show ((h : Int) - lastY).toNat = h - lastY by omega] at e2
    obtain ⟨y, x, rfl, q1, q2, q3, q4⟩ := placeBlock_inv g5 _ _ _ _ _ H.holds.types H.holds.sized (by omega) e2
    obtain ⟨q5, q6, q7⟩ := markBlock_inv H.holds.types H.holds.muls (by omega) (by omega) q4
    let b : Block := ⟨tn, i32 (1 + mul), y, x⟩
    have hrows : tt.dctHeight.toNat = b.rows := by rw [g6, Block.rows, g3]; rfl
    have hcols : tt.dctWidth.toNat = b.cols := by rw [g7, Block.cols, g3]; rfl
    have hin : b.Inside h w := ⟨ht27, by rw [← hrows]; exact q5, by rw [← hcols]; exact q6⟩
    have hap : ∀ a ∈ bs, b.Apart a := by
      intro a ha j k ⟨c1, c2⟩
      have := H.above a ha
      have hcov : a.Covers y k := by
        obtain ⟨d1, d2, d3, d4⟩ := c2
        obtain ⟨f1, f2, f3, f4⟩ := c1
        have f1' : y ≤ j := f1
        exact ⟨by omega, by omega, d3, d4⟩
      have hs := (H.holds.covered a ha y k hcov).1
      obtain ⟨ta, e1, _⟩ := block_type (H.holds.inside a ha).1
      have hk : x ≤ k ∧ k < x + b.cols := ⟨c1.2.2.1, c1.2.2.2⟩
      rw [q3 k hk.1 (by omega), e1] at hs
      cases hs
    have hS : Sound h w (b :: bs) y m1 := by
      refine ⟨H.holds.cons ett hin hap hrows hcols q7, List.pairwise_cons.2 ⟨hap, H.apart⟩, ?_⟩
      intro a ha
      rcases List.mem_cons.1 ha with rfl | ha
      · exact Nat.le_refl _
      · have := H.above a ha; omega
    obtain ⟨new, r1, r2, lastY', r3⟩ := placeBlocks_sound infos (b :: bs) y m1 _ rest (by omega) hS e3
    refine ⟨b :: new, ?_, ?_, lastY', ?_⟩
    · rw [List.map_cons, List.map_cons, r1]
    · rw [List.map_cons, r2]
    · rw [List.reverse_cons, List.append_assoc]
      exact r3

theorem sound_nil (h w : Nat) : Sound h w [] 0 ⟨List.replicate h (List.replicate w none), List.replicate h (List.replicate w 0)⟩ := by
  refine ⟨⟨table_replicate _ _ _, table_replicate _ _ _, by simp, by simp, ?_⟩, List.Pairwise.nil, by simp⟩
  intro y x hy hx _
  simp [sample, hy, hx]

/-- **C29** (partial: what is accepted). Whenever the blocks of an LF group of `h` by `w` cells are accepted, they have the types and the multipliers that were
read, they lie inside the group, no two of them have a cell in common, and the tables of the group say for each cell which block covers it.

Missing: a sequence that does not fit is not always reported as an error (`C29_bottom_panics`), and a block may cross the border of a group of 32 by 32 cells
(`C29_crosses_groups`). -/
theorem C29_disjoint_partial (h w : Nat) (infos : List (Int × Int)) (ps : List Point) (m : HFMetadata) (hok : newHFMetadata h w infos = .ok (ps, m)) :
    ∃ bs : List Block, bs.map (fun b => ((b.type : Int), b.mul)) = infos.map (fun i => (i.1, i32 (1 + i.2))) ∧ bs.map (fun b => (⟨b.y, b.x⟩ : Point)) = ps ∧
      (∀ b ∈ bs, b.Inside h w) ∧ bs.Pairwise Block.Apart ∧ CellMap h w bs m := by
  obtain ⟨new, h1, h2, l, H⟩ := placeBlocks_sound infos [] 0 _ _ _ (by omega) (sound_nil h w) hok
  rw [List.append_nil] at H
  have hmem : ∀ b, b ∈ new ↔ b ∈ new.reverse := fun b => List.mem_reverse.symm
  have hs := H.holds.shows
  refine ⟨new, h1, h2, fun b hb => H.holds.inside b ((hmem b).1 hb), ?_, hs.types, hs.muls, fun b hb => hs.covered b ((hmem b).1 hb), ?_⟩
  · refine (List.pairwise_reverse.1 H.apart).imp ?_
    intro a b hab y x hc
    exact hab y x ⟨hc.2, hc.1⟩
  · intro y x hy hx hno
    exact hs.free y x hy hx (fun b hb => hno b ((hmem b).2 hb))

/-! ## The rule of the format -/

theorem Spec.Laid.apart {h w : Nat} {l : List Block} (hl : Laid h w l) : l.Pairwise (fun a b => a.Apart b) := by
  induction hl with
  | nil => exact List.Pairwise.nil
  | cons b bs _ _ _ ha ih => exact List.pairwise_cons.2 ⟨ha, ih⟩

theorem apart_same {l : List Block} (hl : l.Pairwise (fun a b => a.Apart b)) {a b : Block} (ha : a ∈ l) (hb : b ∈ l) {y x : Nat} (h1 : a.Covers y x)
    (h2 : b.Covers y x) : a = b := by
  induction hl with
  | nil => cases ha
  | cons hc _ ih =>
    rcases List.mem_cons.1 ha with ha' | ha' <;> rcases List.mem_cons.1 hb with hb' | hb'
    · rw [ha', hb']
    · rw [ha'] at h1
      exact absurd ⟨h1, h2⟩ (hc b hb' y x)
    · rw [hb'] at h2
      exact absurd ⟨h2, h1⟩ (hc a ha' y x)
    · exact ih ha' hb'

theorem Spec.Block.rows_pos {b : Block} (h : b.type < 27) : 0 < b.rows := by
  obtain ⟨tt, _, _, h1, h2, h3, h4⟩ := block_type h; omega

theorem Spec.Block.cols_pos {b : Block} (h : b.type < 27) : 0 < b.cols := by
  obtain ⟨tt, _, _, h1, h2, h3, h4⟩ := block_type h; omega

/-- The search finds the first free cell. -/
theorem placeBlock_first {h w : Nat} {l : List Block} {m : HFMetadata} (H : Holds h w l m) (hl : l.Pairwise (fun a b => a.Apart b)) {b : Block} (hf : FirstFree w l b.y b.x)
    (hi : b.Inside h w) (ha : ∀ a ∈ l, b.Apart a) {tt : TransformType} (ht : allDCT[b.type]? = some tt) :
    ∀ (n y : Nat), n + y = h → y ≤ b.y → ∃ m', placeBlock tt b.mul n y m = .ok (⟨b.y, b.x⟩, m') ∧ Holds h w (b :: l) m' := by
  obtain ⟨tt', e1, e2, e3, e4, e5, e6⟩ := block_type hi.1
  rw [ht] at e1
  cases e1
  have hrp := Block.rows_pos hi.1
  have hcp := Block.cols_pos hi.1
  have hi' := hi
  obtain ⟨_, hi2, hi3⟩ := hi
  obtain ⟨hf1, hf2, hf3⟩ := hf
  intro n
  induction n with
  | zero => intro y hn hy; omega
  | succ n ih =>
    intro y hn hy
    obtain ⟨row, h1, h2, h3⟩ := table_row_idx H.types (y := y) (by omega)
    have hr : RowSized row := fun k t hk => H.sized y k t (by rw [← h3, hk])
    have hw : tt.dctWidth = (b.cols : Int) := by omega
    rw [placeBlock, h1, Res.bind_ok, hw, show (0 : Int) = ((0 : Nat) : Int) from rfl]
    by_cases hyb : y < b.y
    · rw [rowScan_full hr b.cols hcp ?_ (row.length + 1) (by omega), Res.bind_ok]
      · dsimp only
        rw [show (y : Int) + 1 = ((y + 1 : Nat) : Int) by omega]
        exact ih (y + 1) (by omega) (by omega)
      · intro k hk
        have hkw : k < w := by rw [← h2]; exact (List.getElem?_eq_some_iff.1 hk).1
        obtain ⟨a, ha1, ha2⟩ := hf3 y k hkw (Or.inl hyb)
        obtain ⟨ta, g1, _⟩ := block_type (H.inside a ha1).1
        rw [h3, (H.covered a ha1 y k ha2).1, g1] at hk
        cases hk
    · obtain rfl : y = b.y := by omega
      have hfree : ∀ k, b.x ≤ k → k < b.x + b.cols → row[k]? = some none := by
        intro k k1 k2
        rw [h3]
        refine H.free b.y k (by omega) (by omega) (fun a ha1 hc => ha a ha1 b.y k ⟨⟨Nat.le_refl _, by omega, k1, k2⟩, hc⟩)
      rw [rowScan_first b.cols b.x (by omega) (by omega) hfree
        (fun x => x = 0 ∨ ∃ a ∈ l, a.Covers b.y (x - 1) ∧ a.x + a.cols = x) ?_ hcp (row.length + 1) 0 (Or.inl rfl) (by omega) (by omega), Res.bind_ok]
      · dsimp only
        obtain ⟨m', e, hm⟩ := markBlock_ok H.types H.muls tt b.mul b.y b.x (by omega) (by omega)
        refine ⟨m', by rw [e, Res.bind_ok], H.cons ht hi' ha e3 e4 hm⟩
      · intro x hs hx
        obtain ⟨a, ha1, ha2⟩ := hf3 b.y x (by omega) (Or.inr ⟨rfl, hx⟩)
        obtain ⟨ta, g1, g2, g3, g4, g5, g6⟩ := block_type (H.inside a ha1).1
        have hax : a.x = x := by
          by_contra hne
          obtain ⟨c1, c2, c3, c4⟩ := ha2
          rcases hs with rfl | ⟨c, hc1, hc2, hc3⟩
          · omega
          · have hcov : a.Covers b.y (x - 1) := ⟨c1, c2, by omega, by omega⟩
            have := apart_same hl ha1 hc1 hcov hc2
            rw [this] at c4
            omega
        refine ⟨ta, a.cols, by rw [h3, (H.covered a ha1 b.y x ha2).1, g1], by omega, Block.cols_pos (H.inside a ha1).1, ?_, Or.inr ⟨a, ha1, ?_, by omega⟩⟩
        · by_contra hgt
          exact hf2 a ha1 ⟨ha2.1, ha2.2.1, by omega, by omega⟩
        · have := Block.cols_pos (H.inside a ha1).1
          exact ⟨ha2.1, ha2.2.1, by omega, by omega⟩

theorem placeBlocks_snoc : ∀ (infos : List (Int × Int)) (lastY : Int) (m m1 : HFMetadata) (ps : List Point) (i : Int × Int),
    placeBlocks infos lastY m = .ok (ps, m1) → placeBlocks (infos ++ [i]) lastY m = (do
      let r ← placeBlocks [i] ((ps.getLast?.map (·.y)).getD lastY) m1
      .ok (ps ++ r.1, r.2))
  | [], lastY, m, m1, ps, i, e => by
    cases e
    simp only [List.nil_append, List.getLast?_nil, Option.map_none, Option.getD_none]
    cases placeBlocks [i] lastY m <;> rfl
  | (t, mul) :: infos, lastY, m, m1, ps, i, e => by
    rw [placeBlocks] at e
    rw [List.cons_append, placeBlocks]
    by_cases ht : 26 < t ∨ t < 0
    · rw [if_pos ht] at e
      cases e
    rw [if_neg ht] at e ⊢
    obtain ⟨tt, e1, e⟩ := Res.of_bind e
    obtain ⟨⟨p, m2⟩, e2, e⟩ := Res.of_bind e
    obtain ⟨⟨rest, m3⟩, e3, e⟩ := Res.of_bind e
    cases e
    rw [e1, Res.bind_ok, e2, Res.bind_ok]
    dsimp only at *
    rw [placeBlocks_snoc infos _ _ _ _ i e3]
    have hl : (((p :: rest).getLast?.map (·.y)).getD lastY) = ((rest.getLast?.map (·.y)).getD p.y) := by
      cases rest with
      | nil => rfl
      | cons q qs => rw [List.getLast?_cons_cons]; cases h : (q :: qs).getLast? <;> simp_all
    rw [hl]
    generalize placeBlocks [i] ((rest.getLast?.map (·.y)).getD p.y) _ = r
    cases r <;> rfl

theorem format_holds (h w : Nat) (l : List Block) (hl : Laid h w l) (hm : ∀ b ∈ l, -2147483648 ≤ b.mul ∧ b.mul ≤ 2147483647) :
    ∃ m, newHFMetadata h w (l.reverse.map (fun b => ((b.type : Int), b.mul - 1))) = .ok (l.reverse.map (fun b => (⟨b.y, b.x⟩ : Point)), m) ∧ Holds h w l m := by
  induction hl with
  | nil => exact ⟨_, rfl, (sound_nil h w).holds⟩
  | cons b bs hbs hf hi ha ih =>
    obtain ⟨m, e, H⟩ := ih (fun a h' => hm a (List.mem_cons_of_mem _ h'))
    obtain ⟨tt, ht, _⟩ := block_type hi.1
    obtain ⟨lastY, hlast, hle⟩ : ∃ lastY : Nat, (((bs.reverse.map (fun b => (⟨b.y, b.x⟩ : Point))).getLast?.map (·.y)).getD 0) = (lastY : Int) ∧ lastY ≤ b.y := by
      cases hbs with
      | nil => exact ⟨0, rfl, Nat.zero_le _⟩
      | cons a as _ hfa hia _ =>
        refine ⟨a.y, by simp, ?_⟩
        by_contra hlt
        obtain ⟨c, hc1, hc2⟩ := hfa.2.2 b.y b.x hf.1 (Or.inl (by omega))
        exact hf.2.1 c (List.mem_cons_of_mem _ hc1) hc2
    have hlh : lastY ≤ h := by have := hi.2.1; omega
    obtain ⟨m', p1, p2⟩ := placeBlock_first H hbs.apart hf hi ha ht (h - lastY) lastY (by omega) hle
    refine ⟨m', ?_, p2⟩
    have hmul := hm b List.mem_cons_self
    have hi32 : i32 (1 + (b.mul - 1)) = b.mul := by unfold i32; omega
    have hidx : idx allDCT (b.type : Int) = .ok tt := by simp [idx, ht]
    rw [newHFMetadata, List.reverse_cons, List.map_append, List.map_append, List.map_cons, List.map_nil]
    rw [newHFMetadata] at e
    rw [placeBlocks_snoc _ _ _ _ _ _ e, hlast, placeBlocks, if_neg (by have := hi.1; omega), hidx, Res.bind_ok, hi32, H.types.1,
      show ((h : Int) - lastY).toNat = h - lastY by omega, p1]
    rfl

/-- **C29**: blocks that are laid as the format lays them, each at the first free cell, are put exactly there. -/
theorem C29_format (h w : Nat) (l : List Block) (hl : Laid h w l) (hm : ∀ b ∈ l, -2147483648 ≤ b.mul ∧ b.mul ≤ 2147483647) :
    ∃ m, newHFMetadata h w (l.reverse.map (fun b => ((b.type : Int), b.mul - 1))) = .ok (l.reverse.map (fun b => (⟨b.y, b.x⟩ : Point)), m) ∧ CellMap h w l m := by
  obtain ⟨m, h1, h2⟩ := format_holds h w l hl hm
  exact ⟨m, h1, h2.shows⟩

/-- **C29**: an unknown type is an error, whatever came before it. -/
theorem C29_unknown_type (h w : Nat) (infos : List (Int × Int)) (ps : List Point) (m : HFMetadata) (hok : newHFMetadata h w infos = .ok (ps, m)) (t mul : Int)
    (ht : t < 0 ∨ 26 < t) : newHFMetadata h w (infos ++ [(t, mul)]) = .err := by
  unfold newHFMetadata at *
  rw [placeBlocks_snoc _ _ _ _ _ _ hok, placeBlocks, if_pos (by omega)]
  rfl

theorem placeBlock_full {h w : Nat} {tt : TransformType} {mul : Int} (hw : 0 < tt.dctWidth) {m : HFMetadata} (hT : Table h w m.dctSelect) (hc : CellsSized m)
    (hf : ∀ y x, sample m.dctSelect y x ≠ some none) : ∀ (n y : Nat), n + y = h → placeBlock tt mul n y m = .err
  | 0, _, _ => rfl
  | n + 1, y, hn => by
    obtain ⟨row, h1, h2, h3⟩ := table_row_idx hT (y := y) (by omega)
    have hr : RowSized row := fun k t hk => hc y k t (by rw [← h3, hk])
    obtain ⟨c, hcw⟩ : ∃ c : Nat, tt.dctWidth = c := ⟨tt.dctWidth.toNat, by omega⟩
    rw [placeBlock, h1, Res.bind_ok, hcw, show (0 : Int) = ((0 : Nat) : Int) from rfl,
      rowScan_full hr c (by omega) (fun k hk => hf y k (by rw [← h3, hk])) (row.length + 1) (by omega), Res.bind_ok]
    dsimp only
    rw [show (y : Int) + 1 = ((y + 1 : Nat) : Int) by omega]
    exact placeBlock_full hw hT hc hf n (y + 1) (by omega)

/-- **C29**: once every cell is covered, one more block is an error. -/
theorem C29_full (h w : Nat) (infos : List (Int × Int)) (ps : List Point) (m : HFMetadata) (hok : newHFMetadata h w infos = .ok (ps, m))
    (hf : ∀ y x, y < h → x < w → sample m.dctSelect y x ≠ some none) (t mul : Int) : newHFMetadata h w (infos ++ [(t, mul)]) = .err := by
  by_cases ht : t < 0 ∨ 26 < t
  · exact C29_unknown_type h w infos ps m hok t mul ht
  obtain ⟨new, _, h2, l, H⟩ := placeBlocks_sound infos [] 0 _ _ _ (by omega) (sound_nil h w) hok
  rw [List.append_nil] at H
  obtain ⟨tn, rfl⟩ : ∃ n : Nat, t = n := ⟨t.toNat, by omega⟩
  obtain ⟨tt, g1, _, _, _, g5, _⟩ := allDCT_spec ⟨tn, by omega⟩
  dsimp only at g1
  have hidx : idx allDCT (tn : Int) = .ok tt := by simp [idx, g1]
  obtain ⟨last, hlast, hle⟩ : ∃ last : Nat, ((ps.getLast?.map (·.y)).getD 0) = (last : Int) ∧ last ≤ h := by
    cases hp : ps.getLast? with
    | none => exact ⟨0, rfl, Nat.zero_le _⟩
    | some p =>
      have hpm := List.mem_of_getLast? hp
      rw [← h2] at hpm
      obtain ⟨b, hb, rfl⟩ := List.mem_map.1 hpm
      refine ⟨b.y, rfl, ?_⟩
      have := (H.holds.inside b (List.mem_reverse.2 hb)).2.1
      omega
  unfold newHFMetadata at *
  rw [placeBlocks_snoc _ _ _ _ _ _ hok, hlast, placeBlocks, if_neg (by omega), hidx, Res.bind_ok, H.holds.types.1,
    show ((h : Int) - last).toNat = h - last by omega, placeBlock_full g5 H.holds.types H.holds.sized ?_ (h - last) last (by omega)]
  · rfl
  · intro y x hs
    by_cases hyx : y < h ∧ x < w
    · exact hf y x hyx.1 hyx.2 hs
    · rw [H.holds.types.sample_none (by omega)] at hs
      cases hs

/-- **C29** is false of the code: in a group with one row, a block of two rows crashes the decoder. -/
theorem C29_bottom_panics (w : Nat) (hw : 0 < w) (mul : Int) : newHFMetadata 1 w [(6, mul)] = .panic := by
  obtain ⟨w, rfl⟩ : ∃ n, w = n + 1 := ⟨w - 1, by omega⟩
  have hscan : rowScan (List.replicate (w + 1) none) 1 (w + 1 + 1) 0 = .ok (some 0) :=
    rowScan_first (row := List.replicate (w + 1) none) 1 0 (by simp) (by simp) (by intro k _ hk; obtain rfl : k = 0 := by omega
                                                                                   simp) (fun _ => True) (by intro x _ hx; omega) (by omega)
      (w + 1 + 1) 0 trivial (Nat.le_refl _) (by omega)
  have hi : idx allDCT 6 = .ok (⟨6, 6, 4, 0, 16, 8⟩ : TransformType) := rfl
  have h1 : (⟨6, 6, 4, 0, 16, 8⟩ : TransformType).dctWidth = 1 := rfl
  have h2 : (⟨6, 6, 4, 0, 16, 8⟩ : TransformType).dctHeight = 2 := rfl
  unfold newHFMetadata
  rw [placeBlocks, if_neg (by omega), hi, Res.bind_ok]
  dsimp only
  rw [show (((List.replicate 1 (List.replicate (w + 1) (none : Option TransformType))).length : Int) - 0).toNat = 1 from rfl, placeBlock,
    show idx (List.replicate 1 (List.replicate (w + 1) (none : Option TransformType))) 0 = .ok (List.replicate (w + 1) none) from rfl, Res.bind_ok, h1,
    List.length_replicate, hscan]
  rfl

/-- Part of the claim is false of the code: a block is put across the border of two groups of 32 by 32 cells. -/
theorem C29_crosses_groups : ∃ m, (newHFMetadata 2 64 (List.replicate 31 (0, 0) ++ [(4, 0)])) = .ok ((List.range 31).map (fun x => ⟨0, x⟩) ++ [⟨0, 31⟩], m) := by
  have key : (match newHFMetadata 2 64 (List.replicate 31 (0, 0) ++ [(4, 0)]) with
    | .ok r => r.1 == (List.range 31).map (fun (x : Nat) => (⟨0, x⟩ : Point)) ++ [⟨0, 31⟩]
    | _ => false) = true := by decide +kernel
  split at key
  · next r e => exact ⟨r.2, by rw [e, ← beq_iff_eq.1 key]⟩
  · cases key

/-- A group of two by three cells with a block of 16 by 8 pixels, one of 8 by 16 pixels and two of 8 by 8 pixels, laid as the format lays them. -/
example : Laid 2 3 [⟨0, 1, 1, 2⟩, ⟨2, 9, 1, 1⟩, ⟨7, 5, 0, 1⟩, ⟨6, 3, 0, 0⟩] := by
  refine .cons _ _ (.cons _ _ (.cons _ _ (.cons _ _ .nil ?_ ?_ ?_) ?_ ?_ ?_) ?_ ?_ ?_) ?_ ?_ ?_
  all_goals
    simp only [FirstFree, Block.Inside, Block.Apart, Block.Covers, Block.rows, Block.cols, transformSizes, List.mem_cons, List.not_mem_nil, forall_eq_or_imp, exists_eq_or_imp]
    simp
    try (repeat' apply And.intro)
    all_goals omega

/-- It is accepted, and one more block is an error. -/
example : (newHFMetadata 2 3 [(6, 2), (7, 4), (2, 8), (0, 0)]).bind (fun r => .ok r.1) = .ok [⟨0, 0⟩, ⟨0, 1⟩, ⟨1, 1⟩, ⟨1, 2⟩] ∧
    newHFMetadata 2 3 [(6, 2), (7, 4), (2, 8), (0, 0), (0, 0)] = .err := by decide +kernel

end Jxl
