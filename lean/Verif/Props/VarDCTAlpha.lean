import Verif.Props.VarDCTWitness

/-!
# An example of a VarDCT frame with an extra channel
The frame has two groups, and so the channel is coded in them.
-/
namespace Jxl
open Spec

/-- An image with an alpha channel. -/
def alphaImage : ImageHeader := { tinyImage with extra := [⟨[], 0, 0, 0, [], BitDepth.dflt, false⟩] }

/-- A frame of 264 by 1 pixels. -/
def alphaFrame : FrameHeader := { wideFrame with size := ⟨264, 1⟩ }

theorem alphaFrame_plain : PlainVarDCT alphaImage alphaFrame :=
  { wideFrame_plain with
    framed := ⟨⟨1, by decide, rfl⟩, rfl, (by show ∀ v ∈ [0, 0, 0], v ≤ 1; decide), (by show ∀ v ∈ [0, 0, 0], v ≤ 1; decide), ⟨by decide, by decide⟩, ⟨by decide, by decide⟩⟩
    small := ⟨by decide, by decide⟩
    extra := by
      intro e he
      rw [List.mem_singleton.mp he]
      exact ⟨rfl, rfl⟩
    filtered := by decide }

/-- Two samples are not zero. -/
def alphaSamples (_ _ x : Nat) : Int := if x = 5 ∨ x = 257 then 1 else 0

def alphaCoded (tree codes : ES) : CodedFrame := { wideCoded tree codes with channels := ⟨⟨true, defaultWP, []⟩, 0, imageChannels 1 ⟨264, 1⟩ alphaSamples, alphaSamples⟩ }

theorem alpha_rest {tree codes : ES} : (alphaCoded tree codes).rest = [⟨⟨264, 1, 0, 0, false, tab 1 264 (alphaSamples 0)⟩, []⟩] := rfl

/-- The parts in the groups. -/
def alphaTiles (g : Nat) : List MChan := [planeChannel 1 (if g = 0 then 256 else 8) fun _ x => alphaSamples 0 0 (256 * g + x)]
def alphaOut0 : List (Int × Nat) := List.replicate 5 (0, 0) ++ (0, 2) :: List.replicate 250 (0, 0)
def alphaOut1 : List (Int × Nat) := (0, 0) :: (0, 2) :: List.replicate 6 (0, 0)

theorem alpha_cut (g w : Nat) (hw : 0 < w) (hg : 256 * g + w ≤ 264) :
    CutFrom (tab 1 264 (alphaSamples 0)) ⟨0, (256 * g : Nat), 1, w⟩ (tab 1 w fun _ x => alphaSamples 0 0 (256 * g + x)) := by
  have h1 := (imageChannels_holds 1 ⟨264, 1⟩ (fun _ => alphaSamples 0) ⟨by decide, by decide⟩ rfl).2 0 _ rfl
  have h2 := (imageChannels_holds 1 ⟨w, 1⟩ (fun _ _ x => alphaSamples 0 0 (256 * g + x)) ⟨Nat.one_pos, hw⟩ rfl).2 0 _ rfl
  refine ⟨h2.1, fun y x hy hx => (h2.2 y x hy hx).trans ?_⟩
  obtain rfl : y = 0 := by
    have : y < 1 := hy
    omega
  have hx' : x < w := hx
  exact (h1.2 0 (256 * g + x) (by decide) (by show _ < 264; omega)).symm

theorem alpha_tile (g : Nat) (hg : g < 2) : List.Forall₂ (IsTile 256 2 g) [⟨⟨264, 1, 0, 0, false, tab 1 264 (alphaSamples 0)⟩, []⟩] (alphaTiles g) := by
  have e : tileArea 256 2 (⟨⟨264, 1, 0, 0, false, tab 1 264 (alphaSamples 0)⟩, []⟩ : MChan) g = ⟨0, (256 * g : Nat), 1, if g = 0 then 256 else 8⟩ := by
    rcases (by omega : g = 0 ∨ g = 1) with rfl | rfl <;> decide
  refine .cons ⟨?_, ?_⟩ .nil
  · rw [e]
    rfl
  · rw [e]
    exact alpha_cut g _ (by split <;> omega) (by split <;> omega)

theorem alpha_header {tree codes : ES} : (alphaCoded tree codes).channels.header = ⟨true, defaultWP, []⟩ := rfl

theorem alpha_small (g : Nat) : ∀ c ∈ (alphaTiles g).take (alphaTiles g).length, c.Shaped ∧ Small c.buffer := by
  intro c hc
  rw [List.take_length] at hc
  rw [List.mem_singleton.mp hc]
  refine tiny_shaped fun y x _ _ => ?_
  unfold alphaSamples
  split <;> decide

/-- The sections have 109, 226, 46, 357 and 22 bits. -/
def alphaData : List UInt8 := [3, 0, 151, 20, 18, 36, 16, 16, 72, 33, 65, 2, 1, 7] ++ [12, 2, 0, 0, 0, 0, 0, 0, 0, 0, 0, 0, 0, 128, 3, 0, 0, 0, 0, 0, 0, 0, 0, 0, 0, 0, 0, 0, 1] ++ [41, 41, 36, 72, 32, 32] ++ [0, 0, 0, 0, 0, 0, 0, 0, 0, 0, 0, 0, 3, 2, 0, 0, 0, 0, 0, 0, 0, 0, 0, 0, 0, 0, 0, 0, 0, 0, 0, 0, 0, 0, 0, 0, 0, 0, 0, 0, 0, 0, 0, 0, 0] ++ [164, 70, 0]

def alphaSection : Nat → List UInt8
  | 0 => [3, 0, 151, 20, 18, 36, 16, 16, 72, 33, 65, 2, 1, 7, 0, 0, 0, 0]
  | 1 => [12, 2, 0, 0, 0, 0, 0, 0, 0, 0, 0, 0, 0, 128, 3, 0, 0, 0, 0, 0, 0, 0, 0, 0, 0, 0, 0, 0, 1, 0, 0, 0, 0]
  | 2 => [41, 41, 36, 72, 32, 32, 0, 0, 0, 0]
  | 3 => [0, 0, 0, 0, 0, 0, 0, 0, 0, 0, 0, 0, 3, 2, 0, 0, 0, 0, 0, 0, 0, 0, 0, 0, 0, 0, 0, 0, 0, 0, 0, 0, 0, 0, 0, 0, 0, 0, 0, 0, 0, 0, 0, 0, 0, 0, 0, 0, 0]
  | 4 => [164, 70, 0, 0, 0, 0, 0]
  | _ => [0, 0, 0, 0]

def alphaStop : Nat → Nat
  | 0 => 109
  | 1 => 226
  | 2 => 46
  | 3 => 357
  | 4 => 22
  | _ => 0

theorem alpha_at : ∃ tree codes, VarDCTAt alphaImage (alphaCoded tree codes) alphaFrame alphaSection (fun _ => 0) alphaStop := by
  obtain ⟨ds, h1, h2⟩ := codesAt_of (alphaSection 0) 19 6 (treeCodes 6) treeCodes_valid6 (by decide +kernel) (by decide +kernel)
  have h3 := treeNumbers (alphaSection 0) 61 6 ds h2 0 leafOut (by decide) (by decide) (by decide) (by decide +kernel) (by decide +kernel)
  obtain ⟨ds', h4, h5⟩ := codesAt_of (alphaSection 0) 66 1 (treeCodes 1) treeCodes_valid1 (by decide +kernel) (by decide +kernel)
  have h6 := treeNumbers (alphaSection 1) 6 1 ds' h5 33 wideLFOut (by decide) (by decide) (by decide) (by decide +kernel) (by decide +kernel)
  have h7 := treeNumbers (alphaSection 1) 116 1 ds' h5 33 wideMetaOut (by decide +kernel) (by decide +kernel) (by decide +kernel) (by decide +kernel) (by decide +kernel)
  obtain ⟨dc, h8, h9⟩ := codesAt_of (alphaSection 2) 4 7425 (treeCodes 7425) (treeCodes_valid (by decide) (by decide)) (by decide +kernel) (by decide +kernel)
  rw [show 4 + (treeCodes 7425).bits.length = 46 by decide +kernel] at h8
  have t9 := treeNumbers (alphaSection 0) 109 1 ds' h5 264 [] (by decide) (by decide) (by decide) (by decide +kernel) (by decide +kernel)
  have t0 := treeNumbers (alphaSection 3) 100 1 ds' h5 256 alphaOut0 (by decide +kernel) (by decide +kernel) (by decide +kernel) (by decide +kernel) (by decide +kernel)
  rw [show 100 + (alphaOut0.flatMap fun o => treeWord o.2).length = 357 by decide +kernel] at t0
  have t1 := treeNumbers (alphaSection 4) 13 1 ds' h5 8 alphaOut1 (by decide +kernel) (by decide +kernel) (by decide +kernel) (by decide +kernel) (by decide +kernel)
  have d1 : DecAt decLFDequant (alphaSection 0) 0 1 [1 / 4096, 1 / 512, 1 / 256] := ⟨by decide +kernel, by decide +kernel⟩
  have d2 : DecAt decQuantizer (alphaSection 0) 1 16 (2049, 16) := ⟨by decide +kernel, by decide +kernel⟩
  have d3 : DecAt decHFContext (alphaSection 0) 16 17 ⟨[[], [], []], defaultContexts, 15, [], 1⟩ := ⟨by decide +kernel, by decide +kernel⟩
  have d4 : DecAt decLFCorrelation (alphaSection 0) 17 18 ⟨84, 0, 1, 128, 128⟩ := ⟨by decide +kernel, by decide +kernel⟩
  have d5 : DecAt (decBits 2) (alphaSection 1) 0 2 0 := ⟨by decide +kernel, by decide +kernel⟩
  have d6 : DecAt (decBits (Nat.clog 2 (lfRows alphaFrame 0 * lfCols alphaFrame 0))) (alphaSection 1) 106 112 32 := ⟨by decide +kernel, by decide +kernel⟩
  have d7 : DecAt decHFParams (alphaSection 2) 0 1 defaultParams := by
    have e : decBool (bitsFrom (alphaSection 2) 0) = some (true, bitsFrom (alphaSection 2) 1) := by decide +kernel
    refine ⟨by decide +kernel, ?_⟩
    unfold decHFParams
    rw [Dec.bind_eq, e]
    rfl
  have d8 : DecAt (decBits (Nat.clog 2 (varGroups alphaFrame))) (alphaSection 2) 1 2 0 := ⟨by decide +kernel, by decide +kernel⟩
  have d9 : ∀ i : Fin 5, DecAt (decBits (Nat.clog 2 1)) (alphaSection i) 0 0 0 := by
    intro i
    refine ⟨Nat.zero_le _, ?_⟩
    revert i
    decide +kernel
  refine ⟨ES.mk' ((treeCodes 1).map.map Int.ofNat) ds' none, ES.mk' ((treeCodes 7425).map.map Int.ofNat) dc none, ⟨105, ?_, ?_⟩, ?_, ?_, ?_, ?_, ?_⟩
  · refine ⟨1, 16, 17, 18, d1, d2, d3, d4,
      ⟨by decide +kernel, by decide +kernel⟩, ⟨_, 61, 66, leafOut, h1, leafTree_serial, h3, h4⟩, by decide⟩
  · show StreamAt _ _ _ _ _ _ _ _ _ _ _
    exact ⟨109, 109, leafTree, _, [], ⟨by decide +kernel, by rw [alpha_header]; decide +kernel⟩, ⟨rfl, rfl⟩, .nil _ _, (by intro c hc; cases hc), rfl, t9⟩
  · intro c hc
    rw [alpha_rest, List.mem_singleton] at hc
    subst hc
    exact ⟨⟨tab_rect _ _ _, by decide, by decide, by decide, by decide, by decide, by decide⟩, by decide⟩
  · intro c y x hc hy hx
    show |if x = 5 ∨ x = 257 then (1 : Int) else 0| < 2 ^ 24
    split <;> decide
  · intro i hi
    obtain rfl : i = 0 := by
      have : i < 1 := hi
      omega
    refine ⟨2, 106, 112, ⟨true, defaultWP, []⟩, ⟨true, defaultWP, []⟩, 0, 0, wideLF, wideMeta, d5,
      ⟨6, 6, leafTree, _, wideLFOut, ⟨by decide +kernel, by decide +kernel⟩, ⟨rfl, rfl⟩, .nil _ _, ?_, by decide +kernel, h6⟩, d6,
      ⟨116, 116, leafTree, _, wideMetaOut, ⟨by decide +kernel, by decide +kernel⟩, ⟨rfl, rfl⟩, .nil _ _, ?_, by decide +kernel, h7⟩⟩
    · rw [List.take_length]
      intro c hc
      unfold wideLF at hc
      simp only [List.mem_cons, List.not_mem_nil, or_false] at hc
      rcases hc with rfl | rfl | rfl <;> refine tiny_shaped fun y x _ _ => ?_ <;> split <;> decide
    · rw [List.take_length]
      intro c hc
      unfold wideMeta at hc
      simp only [List.mem_cons, List.not_mem_nil, or_false] at hc
      rcases hc with rfl | rfl | rfl | rfl
      · exact tiny_shaped fun y x _ _ => by decide
      · exact tiny_shaped fun y x _ _ => by decide
      · exact tiny_shaped fun y x hy hx => by
          have : ∀ y : Fin 2, ∀ x : Fin 33, -2 ^ 26 ≤ blockRows (rowBlocks 33).reverse y x ∧ blockRows (rowBlocks 33).reverse y x ≤ 2 ^ 26 := by decide +kernel
          exact this ⟨y, hy⟩ ⟨x, hx⟩
      · exact tiny_shaped fun y x _ _ => by split <;> decide
  · refine ⟨1, 2, d7, d8, 0, 4, 4, ⟨by decide +kernel, by decide +kernel⟩,
      ⟨classOrder, fun _ _ => 0, fun _ _ => [], ⟨fun b size h => classOrder_natural h, ?_, ?_⟩, .inl ⟨rfl, rfl⟩⟩, h8⟩
    · intro b c _ _ h
      rw [Nat.zero_testBit] at h
      cases h
    · show naturalOrders = _
      unfold naturalOrders
      refine List.map_congr_left fun b _ => List.map_congr_left fun c _ => ?_
      rw [Nat.zero_testBit]
      rfl
  · intro g hg
    rcases (by have : g < 2 := hg; omega : g = 0 ∨ g = 1) with rfl | rfl
    · refine ⟨96, ⟨0, d9 3, ?_⟩, .inr ⟨by rw [alpha_rest]; simp, alphaTiles 0, alphaTiles 0, ⟨true, defaultWP, []⟩, 0, ?_, fun t ht => (List.not_mem_nil ht).elim, ?_⟩⟩
      swap
      · rw [alpha_rest]
        exact alpha_tile 0 (by decide)
      swap
      · exact ⟨100, 100, leafTree, _, alphaOut0, ⟨by decide +kernel, by decide +kernel⟩, ⟨rfl, rfl⟩, .nil _ _, alpha_small 0, by decide +kernel, t0⟩
      have e : ((alphaCoded (ES.mk' ((treeCodes 1).map.map Int.ofNat) ds' none) (ES.mk' ((treeCodes 7425).map.map Int.ofNat) dc none)).groupBlocks alphaFrame 0).map
        ((alphaCoded (ES.mk' ((treeCodes 1).map.map Int.ofNat) ds' none) (ES.mk' ((treeCodes 7425).map.map Int.ofNat) dc none)).hfBlock alphaFrame 0) = wideHF0 := rfl
      have h10 := treeNumbers (alphaSection 3) 0 7425 dc h9 0 wideSymbols0 (by decide) (by decide) (by decide) (by decide +kernel) (by decide +kernel)
      rw [e]
      rw [show 0 + (wideSymbols0.flatMap fun o => treeWord o.2).length = 96 by decide +kernel, ← wide_symbols (q := wideCoefficients 0) (l := wideHF0) (out := wideSymbols0) (by decide) (by decide +kernel)] at h10
      exact h10
    · refine ⟨9, ⟨0, d9 4, ?_⟩, .inr ⟨by rw [alpha_rest]; simp, alphaTiles 1, alphaTiles 1, ⟨true, defaultWP, []⟩, 0, ?_, fun t ht => (List.not_mem_nil ht).elim, ?_⟩⟩
      swap
      · rw [alpha_rest]
        exact alpha_tile 1 (by decide)
      swap
      · exact ⟨13, 13, leafTree, _, alphaOut1, ⟨by decide +kernel, by decide +kernel⟩, ⟨rfl, rfl⟩, .nil _ _, alpha_small 1, by decide +kernel, t1⟩
      have e : ((alphaCoded (ES.mk' ((treeCodes 1).map.map Int.ofNat) ds' none) (ES.mk' ((treeCodes 7425).map.map Int.ofNat) dc none)).groupBlocks alphaFrame 1).map
        ((alphaCoded (ES.mk' ((treeCodes 1).map.map Int.ofNat) ds' none) (ES.mk' ((treeCodes 7425).map.map Int.ofNat) dc none)).hfBlock alphaFrame 1) = wideHF1 := rfl
      have h10 := treeNumbers (alphaSection 4) 0 7425 dc h9 0 wideSymbols1 (by decide) (by decide) (by decide) (by decide +kernel) (by decide +kernel)
      rw [e]
      rw [show 0 + (wideSymbols1.flatMap fun o => treeWord o.2).length = 9 by decide +kernel, ← wide_symbols (q := wideCoefficients 1) (l := wideHF1) (out := wideSymbols1) (by decide) (by decide +kernel)] at h10
      exact h10

theorem alpha_ok (tree codes : ES) : (alphaCoded tree codes).Ok alphaFrame where
  blocks := (wide_ok tree codes).blocks
  quantizer := (wide_ok tree codes).quantizer
  corr := (wide_ok tree codes).corr
  presets := (wide_ok tree codes).presets
  range := (wide_ok tree codes).range
  sharpness := fun h => absurd h (by decide)
  support := (wide_ok tree codes).support

/-- The hypotheses of `C90_frame_partial` are met by the example: the frame decodes, and the fourth plane is the alpha channel. -/
theorem alpha_decodes (P : FrameParts) (I : FloatImpl) : ∃ out s', decodeFrame (P.withVarDCT inferInstance zeroParts I []) I alphaImage alphaFrame ⟨2, 1, 2, 1⟩ ⟨none, [14, 29, 6, 45, 3]⟩ (BR.new alphaData) = (.ok out, s') ∧
    (∃ b, out[3]? = some b ∧ sample b.ints 0 5 = some 1 ∧ sample b.ints 0 6 = some 0 ∧ sample b.ints 0 257 = some 1) ∧ AtBit s' (8 * 97) ∧ s'.data = alphaData := by
  obtain ⟨tree, codes, h⟩ := alpha_at
  obtain ⟨weights, hw⟩ := flat_weights
  have hsec : ∀ i : Fin 5, alphaSection i = storedSection (alphaData.drop 0) [14, 29, 6, 45, 3] i ++ [0, 0, 0, 0] := by decide +kernel
  have h' : VarDCTAt alphaImage (alphaCoded tree codes) alphaFrame (fun i => storedSection (alphaData.drop 0) [14, 29, 6, 45, 3] i ++ [0, 0, 0, 0]) (fun _ => 0) alphaStop := by
    refine ⟨?_, h.channels, h.range, ?_, ?_, ?_⟩
    · have := h.global
      rwa [show alphaSection 0 = _ from hsec 0] at this
    · intro i hi
      obtain rfl : i = 0 := by
        have : i < 1 := hi
        omega
      have := h.lf 0 hi
      rwa [show alphaSection (1 + 0) = _ from hsec 1] at this
    · have := h.hf
      rwa [show alphaSection (1 + varLFGroups alphaFrame) = _ from hsec 2] at this
    · intro g hg
      have hg2 : g < 2 := hg
      have := h.groups g hg
      rcases (by omega : g = 0 ∨ g = 1) with rfl | rfl
      · rwa [show alphaSection (2 + varLFGroups alphaFrame + 0) = _ from hsec 3] at this
      · rwa [show alphaSection (2 + varLFGroups alphaFrame + 1) = _ from hsec 4] at this
  obtain ⟨out, s', h1, h2, h3, h4⟩ := C90_frame_partial inferInstance zeroParts P I [] alphaFrame_plain (by decide) zeroParts_ok (alpha_ok tree codes) hw (l := ⟨2, 1, 2, 1⟩) (toc := ⟨none, [14, 29, 6, 45, 3]⟩) rfl
    (by decide) (data := alphaData) (k := 0) (by decide) (by decide) h' (AtBit.new _) rfl
  obtain ⟨b, b1, -, b2⟩ := h2.2.2.2.2 0 (by decide)
  exact ⟨out, s', h1, ⟨b, b1, b2 0 5 (by decide) (by decide), b2 0 6 (by decide) (by decide), b2 0 257 (by decide) (by decide)⟩, h3, h4⟩

end Jxl
