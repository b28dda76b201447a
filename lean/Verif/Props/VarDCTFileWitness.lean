import Verif.Props.VarDCTFile
import Verif.Props.VarDCTWitness

/-! # C94: an example of a file with a VarDCT frame -/
namespace Jxl
open Spec

/-- A bare codestream: an image of 264 by 8 pixels in XYB with default metadata, and one frame with the sections of `wideData`. -/
def wideFile : List UInt8 := [255, 10, 56, 0, 14, 14, 224, 27, 19, 8, 0, 56, 64, 7, 24, 0, 3, 8, 0] ++ wideData

def wideHeader : ImageHeader :=
  ⟨⟨264, 8⟩, 1, ⟨264, 8⟩, none, none, BitDepth.dflt, true, [], [], true, ColourEncoding.dflt, ToneMapping.dflt, Extensions.none, none, none, none, none⟩

def wideLast : FrameHeader := { wideFrame with ecUpsampling := [], haveCrop := false, width := 0, height := 0 }

theorem wideLast_layer (tree codes : ES) : VarLayer wideHeader wideLast (wideCoded tree codes) where
  plain :=
    { wideFrame_plain with
      framed := ⟨⟨1, by decide, rfl⟩, rfl, (by show ∀ v ∈ [0, 0, 0], v ≤ 1; decide), (by show ∀ v ∈ [0, 0, 0], v ≤ 1; decide), ⟨by decide, by decide⟩, ⟨by decide, by decide⟩⟩
      extra := by intro e he; cases he
      opsin := by intro l hl; cases hl }
  colours := .inl rfl
  depths := by intro e he; cases he
  coded :=
    { blocks := (wide_ok tree codes).blocks
      quantizer := (wide_ok tree codes).quantizer
      corr := (wide_ok tree codes).corr
      presets := (wide_ok tree codes).presets
      range := (wide_ok tree codes).range
      support := (wide_ok tree codes).support
      sharpness := fun h => absurd h (by decide) }
  regular := .inl rfl
  size := by decide
  unscaled := ⟨rfl, by intro u hu; cases hu⟩
  replace := ⟨rfl, by intro b hb; cases hb⟩
  place := .inl ⟨by decide, by decide⟩
  meets := by decide
  groups := by decide
  streams := by decide

theorem wideFile_coded : ∃ tree codes, VarFrameCodes wideHeader wideFile 6 82 wideLast (wideCoded tree codes) := by
  obtain ⟨tree, codes, h⟩ := wide_at
  have hsec : ∀ i : Fin 5, wideSection i = storedSection (wideFile.drop 19) [14, 29, 6, 12, 2] i ++ [0, 0, 0, 0] := by decide
  have h' : VarDCTAt tinyImage (wideCoded tree codes) wideFrame (fun i => storedSection (wideFile.drop 19) [14, 29, 6, 12, 2] i ++ [0, 0, 0, 0]) (fun _ => 0) wideStop := by
    refine ⟨?_, h.channels, h.range, ?_, ?_, ?_⟩
    · have := h.global
      rwa [show wideSection 0 = _ from hsec 0] at this
    · intro i hi
      obtain rfl : i = 0 := by
        have : i < 1 := hi
        omega
      have := h.lf 0 hi
      rwa [show wideSection (1 + 0) = _ from hsec 1] at this
    · have := h.hf
      rwa [show wideSection (1 + varLFGroups wideFrame) = _ from hsec 2] at this
    · intro g hg
      have hg2 : g < 2 := hg
      have := h.groups g hg
      rcases (by omega : g = 0 ∨ g = 1) with rfl | rfl
      · rwa [show wideSection (2 + varLFGroups wideFrame + 0) = _ from hsec 3] at this
      · rwa [show wideSection (2 + varLFGroups wideFrame + 1) = _ from hsec 4] at this
  refine ⟨tree, codes, 86, 148, [14, 29, 6, 12, 2], ⟨by decide, by decide +kernel⟩, ⟨by decide, by decide +kernel⟩, ⟨by decide, by decide +kernel⟩, ⟨by decide, by decide +kernel⟩, ?_⟩
  unfold VarSectionsCode
  rw [if_neg (by decide)]
  exact ⟨wideStop, ⟨h'.global, h'.channels, h'.range, h'.lf, h'.hf, h'.groups⟩, by decide, by decide, by decide⟩

theorem wideFile_file : ∃ tree codes, VarDCTFile wideFile wideHeader [(wideLast, wideCoded tree codes)] := by
  obtain ⟨tree, codes, h⟩ := wideFile_coded
  refine ⟨tree, codes, ⟨0, 6, 5, none, .inl ⟨rfl, rfl, by decide, by decide⟩, ⟨44, 44, ⟨by decide, by decide +kernel⟩, rfl, rfl, rfl⟩, ⟨82, h, rfl, trivial⟩, ?_⟩, rfl, by decide, by decide, by simp, ?_⟩
  · intro hx
    cases hx
  · intro x hx
    rw [List.mem_singleton.mp hx]
    exact wideLast_layer tree codes

/-- The image has a matrix: that of XYB itself. -/
theorem wideHeader_matrix (cbrt : F32 → F32) : ∃ o, imageMatrix cbrt wideHeader = .ok (some o) := by
  have hc : conversionMatrix wideHeader.colour.primXY.primaries wideHeader.colour.whiteXY.xy priSRGB.primaries wpD65.xy = .ok (some (matrixIdentity 3)) := if_pos (by decide +kernel)
  have h1 : Is3 opsinMatrixDefault := ⟨_, _, _, _, _, _, _, _, _, rfl⟩
  obtain ⟨m, e, -⟩ := mulOpt_shape (l := some (matrixIdentity 3)) (by intro m hm; cases hm; exact identity_shape) h1
  refine ⟨⟨m, opsinBiasDefault, opsinBiasDefault.map cbrt, wideHeader.colour.primXY.primaries, wideHeader.colour.whiteXY.xy⟩, ?_⟩
  unfold imageMatrix
  rw [if_pos (by rfl : wideHeader.xyb = true)]
  show (Opsin.forColours cbrt ⟨opsinMatrixDefault, opsinBiasDefault, opsinBiasDefault.map cbrt, priSRGB.primaries, wpD65.xy⟩ wideHeader.colour.primXY.primaries wideHeader.colour.whiteXY.xy >>=
    fun m => Res.ok (some m)) = _
  unfold Opsin.forColours
  dsimp only
  rw [hc, Res.bind_ok, matrixMultiply, e, Res.bind_ok]
  rfl

/-- The hypotheses of `C94_image_partial` are met by the example. -/
example (D : DecodeParts) (P : FrameParts) : ∃ img s', decodeFile { D with frames := fun _ => P.withVarDCT inferInstance zeroParts D.impl.toFloatImpl [] } false 1 (BR.new wideFile) = (.ok (some img), s') ∧
    img.buffers.length = 3 ∧ ∀ b ∈ img.buffers, b.FloatPicture 8 264 := by
  obtain ⟨tree, codes, h⟩ := wideFile_file
  obtain ⟨weights, hw⟩ := flat_weights
  obtain ⟨o, ho⟩ := wideHeader_matrix D.cbrt
  obtain ⟨img, s', pics, h1, -, -, rs, cs, h2, h3, h4⟩ := C94_image_partial (D := { D with frames := fun _ => P.withVarDCT inferInstance zeroParts D.impl.toFloatImpl [] })
    (A := inferInstance) (V := zeroParts) (fun b => ⟨P, [], rfl⟩) zeroParts_ok h (by
      intro x hx
      rw [List.mem_singleton.mp hx]
      exact ⟨weights, hw⟩) ho (fuel := 1) (Nat.le_refl 1) 1
  refine ⟨img, s', h1, h3, fun b hb => ?_⟩
  obtain ⟨c, hc, rfl⟩ := List.getElem_of_mem hb
  obtain ⟨b', h5, h6, -⟩ := h4 c (by rw [← h3]; exact hc)
  rw [List.getElem?_eq_getElem hc] at h5
  cases h2
  exact Option.some.inj h5 ▸ h6

end Jxl
