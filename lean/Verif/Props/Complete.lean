import Verif.Proofs.ModularComplete
import Verif.Props.VarDCTWitness

/-!
# C91: frames that decode are complete
-/
namespace Jxl

/-- **C91** for modular frames: for every frame and every bit stream, if decoding succeeds, then the frame was complete. Its global section has been read, every LF group, and every group of every pass that
decodes a channel of the frame. -/
theorem C91_modular (P : FrameParts) (I : FloatImpl) {h : ImageHeader} {f : FrameHeader} (hf : f.encoding ≠ 0) {l : Layout} {toc : TOC} {s s' : BR} {out : List ImageBuffer}
    (e : decodeFrame P I h f l toc s = (.ok out, s')) :
    ∃ padded readers s1 g s2 shs,
      paddedFrameSize f = .ok padded ∧ setupBitReaders toc s = (.ok readers, s1) ∧ onSection toc readers 0 (readModGlobal h f) s1 = (.ok g, s2) ∧
      (∀ i, i < l.numLFGroups → ∃ a t t', readLFGroup h f l toc readers padded g i t = (.ok a, t')) ∧
      passShifts f.passes f.passes.numPasses 0 3 = .ok shs ∧ ∀ pass (hp : pass < shs.length), (∃ c ∈ g.stream.rest, inPass shs[pass] c = true) →
        ∀ group, group < l.numGroups → ∃ a t t', readPassGroup h f l toc readers g shs[pass] pass group t = (.ok a, t') := by
  unfold decodeFrame at e
  rw [if_neg hf] at e
  unfold decodeModularFrame at e
  obtain ⟨readers, s1, e2, e⟩ := Rd.of_bind e
  obtain ⟨g, s2, e3, e⟩ := Rd.of_bind e
  obtain ⟨padded, e4, e⟩ := Rd.of_lift_bind e
  obtain ⟨bufs, e5, e⟩ := Rd.of_lift_bind e
  obtain ⟨r, s3, e6, e⟩ := Rd.of_bind e
  obtain ⟨h1, shs, h2, h3⟩ := decodeModularGroups_all e6
  exact ⟨padded, readers, s1, g, s2, shs, e4, e2, e3, h1, h2, h3⟩

/-- A frame with two groups. -/
example (P : FrameParts) (I : FloatImpl) : ∃ padded readers g a t t',
    readLFGroup grayImage (modularFrame 129 1 onePass) ⟨2, 1, 2, 1⟩ ⟨none, [14, 0, 0, 17, 1]⟩ readers padded g 0 t = (.ok a, t') := by
  obtain ⟨out, s', e, -⟩ := ramp_decodes P I
  obtain ⟨padded, readers, s1, g, s2, shs, -, -, -, h, -⟩ := C91_modular P I (by decide) e
  obtain ⟨a, t, t', e⟩ := h 0 (by decide)
  exact ⟨padded, readers, g, a, t, t', e⟩

/-- **C91** for VarDCT frames: for every VarDCT frame and every bit stream, if decoding succeeds, then the frame was complete. Its global section has been read, every LF group, and every group of every pass: a part
that cannot be read is never left out of the picture. -/
theorem C91_vardct (A : Arith F32) (V : VarParts F32) (P : FrameParts) (I : FloatImpl) (lfBuffer : List (List (List F32))) {h : ImageHeader} {f : FrameHeader} (hf : f.encoding = 0)
    {l0 : Layout} {toc : TOC} {s s' : BR} {out : List ImageBuffer} (e : decodeFrame (P.withVarDCT A V I lfBuffer) I h f l0 toc s = (.ok out, s')) :
    ∃ l padded readers s1 g s2 lfs presets passes,
      frameLayout f = .ok l ∧ paddedFrameSize f = .ok padded ∧ setupBitReaders toc s = (.ok readers, s1) ∧ onSection toc readers 0 (readVarGlobal h f) s1 = (.ok g, s2) ∧
      lfs.length = l.numLFGroups ∧
      (∀ i (hi : i < lfs.length), ∃ t t', @readVarLFGroup F32 A h f l toc readers padded g lfBuffer i t = (.ok lfs[i], t')) ∧
      ∀ pass, pass < f.passes.numPasses → ∀ group, group < l.numGroups → ∃ sh a t t', readVarGroup h f l toc readers g lfs presets passes sh pass group t = (.ok a, t') := by
  unfold decodeFrame FrameParts.withVarDCT at e
  rw [hf, if_pos rfl] at e
  dsimp only at e
  obtain ⟨l, e1, e⟩ := Rd.of_lift_bind e
  unfold decodeVarDCTFrame at e
  obtain ⟨readers, s1, e2, e⟩ := Rd.of_bind e
  obtain ⟨g, s2, e3, e⟩ := Rd.of_bind e
  obtain ⟨padded, e4, e⟩ := Rd.of_lift_bind e
  obtain ⟨bufs, e5, e⟩ := Rd.of_lift_bind e
  obtain ⟨r, s3, e6, e⟩ := Rd.of_bind e
  obtain ⟨lfs, presets, passes, h1, h2, h3⟩ := decodeVarGroups_all e6
  exact ⟨l, padded, readers, s1, g, s2, lfs, presets, passes, e1, e4, e2, e3, h1, h2, h3⟩

/-- The frame with two groups: both have been read. -/
example (P : FrameParts) (I : FloatImpl) : ∃ readers g lfs presets passes sh a t t',
    readVarGroup tinyImage wideFrame ⟨2, 1, 2, 1⟩ ⟨none, [14, 29, 6, 12, 2]⟩ readers g lfs presets passes sh 0 1 t = (.ok (a : VarGroup F32), t') := by
  obtain ⟨F, weights, out, s', e, -⟩ := wide_decodes P I
  obtain ⟨l, padded, readers, s1, g, s2, lfs, presets, passes, h1, -, -, -, -, -, h3⟩ := C91_vardct inferInstance zeroParts P I [] rfl e
  obtain rfl : l = ⟨2, 1, 2, 1⟩ := by
    have : frameLayout wideFrame = .ok ⟨2, 1, 2, 1⟩ := by decide
    exact (Res.ok.inj (this.symm.trans h1)).symm
  obtain ⟨sh, a, t, t', e⟩ := h3 0 (by decide) 1 (by decide)
  exact ⟨readers, g, lfs, presets, passes, sh, a, t, t', e⟩

end Jxl
