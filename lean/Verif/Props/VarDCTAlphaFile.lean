import Verif.Props.VarDCTAlpha
import Verif.Props.VarDCTFileWitness

/-! # C94: an example of a file with a VarDCT frame and an alpha channel -/
namespace Jxl
open Spec

/-- A bare codestream: an image of 264 by 1 pixels in XYB with an alpha channel of 8 bits, and one frame with the sections of `alphaData`. -/
def alphaFile : List UInt8 := [255, 10, 0, 0, 14, 130, 157, 224, 27, 76, 128, 0, 0, 56, 64, 7, 24, 64, 11, 12, 0] ++ alphaData

def alphaHeader : ImageHeader := { wideHeader with size := ⟨264, 1⟩, orientedSize := ⟨264, 1⟩, extra := [⟨[], 0, 1, 0, [0, 0, 0, 0], BitDepth.dflt, false⟩], alphaIndices := [0] }

def alphaLast : FrameHeader := { alphaFrame with ecUpsampling := [1], ecBlending := [⟨0, 0, false, 0⟩], haveCrop := false, width := 0, height := 0 }

theorem alphaLast_layer (tree codes : ES) : VarLayer alphaHeader alphaLast (alphaCoded tree codes) where
  plain :=
    { alphaFrame_plain with
      framed := ⟨⟨1, by decide, rfl⟩, rfl, (by show ∀ v ∈ [0, 0, 0], v ≤ 1; decide), (by show ∀ v ∈ [0, 0, 0], v ≤ 1; decide), ⟨by decide, by decide⟩, ⟨by decide, by decide⟩⟩
      extra := by
        intro e he
        rw [List.mem_singleton.mp he]
        exact ⟨rfl, rfl⟩
      opsin := by intro l hl; cases hl }
  colours := .inl rfl
  depths := by
    intro e he
    rw [List.mem_singleton.mp he]
    decide
  coded :=
    { blocks := (alpha_ok tree codes).blocks
      quantizer := (alpha_ok tree codes).quantizer
      corr := (alpha_ok tree codes).corr
      presets := (alpha_ok tree codes).presets
      range := (alpha_ok tree codes).range
      support := (alpha_ok tree codes).support
      sharpness := fun h => absurd h (by decide) }
  regular := .inl rfl
  size := by decide
  unscaled := ⟨rfl, by decide⟩
  replace := ⟨rfl, by decide⟩
  place := .inl ⟨by decide, by decide⟩
  meets := by decide
  groups := by decide
  streams := by decide

theorem alphaFile_coded : ∃ tree codes, VarFrameCodes alphaHeader alphaFile 7 118 alphaLast (alphaCoded tree codes) := by
  obtain ⟨tree, codes, h⟩ := alpha_at
  have hsec : ∀ i : Fin 5, alphaSection i = storedSection (alphaFile.drop 21) [14, 29, 6, 45, 3] i ++ [0, 0, 0, 0] := by decide +kernel
  have h' : VarDCTAt alphaImage (alphaCoded tree codes) alphaFrame (fun i => storedSection (alphaFile.drop 21) [14, 29, 6, 45, 3] i ++ [0, 0, 0, 0]) (fun _ => 0) alphaStop := by
    refine ⟨?_, h.channels, h.range, ?_, ?_, ?_⟩
    · have := h.global
      rwa [show alphaSection 0 = _ from hsec 0] at this
    · intro i hi
      obtain rfl : i = 0 := by
        have : i < 1 := hi
        omega
      have := h.lf 0 hi
      rwa [show alphaSection (1 + 0) = _ from hsec 1] at this
    · have := h.hf
      rwa [show alphaSection (1 + varLFGroups alphaFrame) = _ from hsec 2] at this
    · intro g hg
      have hg2 : g < 2 := hg
      have := h.groups g hg
      rcases (by omega : g = 0 ∨ g = 1) with rfl | rfl
      · rwa [show alphaSection (2 + varLFGroups alphaFrame + 0) = _ from hsec 3] at this
      · rwa [show alphaSection (2 + varLFGroups alphaFrame + 1) = _ from hsec 4] at this
  refine ⟨tree, codes, 98, 164, [14, 29, 6, 45, 3], ⟨by decide, by decide +kernel⟩, ⟨by decide, by decide +kernel⟩, ⟨by decide, by decide +kernel⟩, ⟨by decide, by decide +kernel⟩, ?_⟩
  unfold VarSectionsCode
  rw [if_neg (by decide)]
  exact ⟨alphaStop, ⟨h'.global, h'.channels, h'.range, h'.lf, h'.hf, h'.groups⟩, by decide, by decide, by decide⟩

theorem alphaFile_file : ∃ tree codes, VarDCTFile alphaFile alphaHeader [(alphaLast, alphaCoded tree codes)] := by
  obtain ⟨tree, codes, h⟩ := alphaFile_coded
  refine ⟨tree, codes, ⟨0, 7, 5, none, .inl ⟨rfl, rfl, by decide, by decide⟩, ⟨56, 56, ⟨by decide, by decide +kernel⟩, rfl, rfl, rfl⟩, ⟨118, h, rfl, trivial⟩, ?_⟩, rfl, by decide, by decide, by simp, ?_⟩
  · intro hx
    cases hx
  · intro x hx
    rw [List.mem_singleton.mp hx]
    exact alphaLast_layer tree codes

theorem unit_one : unit 8 1 = F32.round (1 / 255) := by decide +kernel

theorem unit_zero : unit 8 0 = .fin 0 := by decide +kernel

/-- The hypotheses of `C94_image_partial` are met by the example. The fourth channel of the image is alpha; sample 5 is 1 / 255, sample 6 is 0. -/
theorem alphaFile_decodes (D : DecodeParts) (P : FrameParts) : ∃ img s', decodeFile { D with frames := fun _ => P.withVarDCT inferInstance zeroParts D.impl.toFloatImpl [] } false 1 (BR.new alphaFile) = (.ok (some img), s') ∧
    img.buffers.length = 4 ∧ ∃ b, img.buffers[3]? = some b ∧ b.FloatPicture 1 264 ∧ sample b.floats 0 5 = some (F32.round (1 / 255)) ∧ sample b.floats 0 6 = some (.fin 0) := by
  obtain ⟨tree, codes, h⟩ := alphaFile_file
  obtain ⟨weights, hw⟩ := flat_weights
  obtain ⟨o, ho⟩ := wideHeader_matrix D.cbrt
  obtain ⟨img, s', pics, h1, hp, -, rs, cs, h2, h3, h4⟩ := C94_image_partial (D := { D with frames := fun _ => P.withVarDCT inferInstance zeroParts D.impl.toFloatImpl [] })
    (A := inferInstance) (V := zeroParts) (fun b => ⟨P, [], rfl⟩) zeroParts_ok h (by
      intro x hx
      rw [List.mem_singleton.mp hx]
      exact ⟨weights, hw⟩) (matrix := some o) ho (fuel := 1) (Nat.le_refl 1) 1
  obtain ⟨b, h5, h6, h7⟩ := h4 3 (by decide)
  cases h2
  obtain ⟨p, u', ⟨hf, hs⟩, hnil, rfl⟩ := List.forall₂_cons_left_iff.1 hp
  rw [List.forall₂_nil_left_iff] at hnil
  subst hnil
  obtain ⟨_, _, _, _, _, _, _, hx⟩ := hs
  have h8 := h7 0 5 (by decide) (by decide)
  have h9 := h7 0 6 (by decide) (by decide)
  have hput : ∀ x, x < 264 → layeredFloats [p] 3 0 x = p.2 3 0 x := by
    intro x hx
    unfold layeredFloats
    rw [List.foldl_cons, List.foldl_nil]
    unfold putFloatsOn
    rw [hf, if_pos (by
      refine ⟨show (0 : Int) ≤ 0 by decide, show (0 : Int) < 0 + 1 by decide, ?_, ?_⟩
      · show (0 : Int) ≤ x
        omega
      · show (x : Int) < 0 + 264
        omega)]
    show p.2 3 ((0 : Int) - 0).toNat ((x : Int) - 0).toNat = _
    congr 1
  refine ⟨img, s', h1, h3, b, h5, h6, ?_, ?_⟩
  · rw [hput 5 (by decide), show p.2 3 0 5 = _ from hx 0 _ 0 5 rfl (show 0 < 1 by decide) (show 5 < 264 by decide)] at h8
    rw [← unit_one]
    exact h8
  · rw [hput 6 (by decide), show p.2 3 0 6 = _ from hx 0 _ 0 6 rfl (show 0 < 1 by decide) (show 6 < 264 by decide)] at h9
    rw [← unit_zero]
    exact h9

/-- The hypotheses of `C94_pixels_partial` are met by the example. The Go image has four planes. -/
example (D : DecodeParts) (P : FrameParts) (curve : Nat → F32 → F32) (procs : Int) :
    ∃ px, readerDecode { D with frames := fun _ => P.withVarDCT inferInstance zeroParts D.impl.toFloatImpl [] } curve 1 procs ⟨alphaFile, true, false⟩ = .ok px ∧
      px.gray = false ∧ px.width = 264 ∧ px.height = 1 ∧ ∃ planes, px.pix = pixBytes planes 1 264 ∧ planes.length = 4 := by
  obtain ⟨tree, codes, h⟩ := alphaFile_file
  obtain ⟨weights, hw⟩ := flat_weights
  obtain ⟨o, ho⟩ := wideHeader_matrix D.cbrt
  obtain ⟨px, pics, h1, -, planes, h2, h3, h4, h5, h6, -⟩ := C94_pixels_partial (D := { D with frames := fun _ => P.withVarDCT inferInstance zeroParts D.impl.toFloatImpl [] }) curve
    (A := inferInstance) (V := zeroParts) (fun b => ⟨P, [], rfl⟩) zeroParts_ok h (by
      intro x hx
      rw [List.mem_singleton.mp hx]
      exact ⟨weights, hw⟩) (matrix := some o) ho (fuel := 1) (Nat.le_refl 1) procs
    ⟨rfl, by unfold Ordinary; decide, .inl rfl, .inr ⟨rfl, fun e he => by cases he; rfl⟩⟩ false
  rw [h3, h4] at h5
  exact ⟨px, h1, h2, h3, h4, planes, h5, h6⟩

end Jxl
