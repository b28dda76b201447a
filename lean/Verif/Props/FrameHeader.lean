import Verif.Proofs.FrameHeaderSafe
/-!
# Frame headers (C46, C47, C58, C59)
-/
namespace Jxl
open Spec

/-! ## C46: every pass has its parameters -/

/-- C46 is false of the code: every header that is all default (its first bit is 1) is accepted as the header of a VarDCT frame, and
looking up the coefficient shift of its only pass crashes. Its pass also takes no modular channel, whatever its shift. -/
theorem C46_default_crashes (xyb : Bool) (nec : Nat) (image : Dim) (s s1 : BR) (hd : readBool s = (.ok true, s1)) :
    ∃ h, readFrameHeader xyb nec image s = (.ok h, s1) ∧ h.encoding = 0 ∧ h.passes.numPasses = 1 ∧ hfShift h.passes 0 = .panic ∧
      ∃ l, passShifts h.passes h.passes.numPasses 0 3 = .ok l ∧ ∀ x ∈ l, ∀ m, passTakes x m = false := by
  have hside : ∀ d, ∃ v, scaledSide d 1 0 = .ok v := by
    intro d
    unfold scaledSide ceilDiv
    exact ⟨_, rfl⟩
  have hpad : ∀ d, ∃ v, paddedSide d 0 = .ok v := by
    intro d
    unfold paddedSide ceilDiv
    exact ⟨_, rfl⟩
  obtain ⟨h1, e1⟩ := hside image.height
  obtain ⟨w1, e2⟩ := hside image.width
  obtain ⟨h2, e3⟩ := hpad h1
  obtain ⟨w2, e4⟩ := hpad w1
  refine ⟨?h, ?_, ?_⟩
  rotate_left
  · unfold readFrameHeader
    rw [Rd.bind_ok hd]
    refine Rd.bind_ok (a := (0, 0, 0)) (s' := s1) rfl |>.trans ?_
    refine Rd.bind_ok (a := false) (s' := s1) rfl |>.trans ?_
    refine Rd.bind_ok (a := [(0, 0), (0, 0), (0, 0)]) (s' := s1) rfl |>.trans ?_
    refine Rd.bind_ok (a := (1, List.replicate nec 1)) (s' := s1) rfl |>.trans ?_
    refine Rd.bind_ok (a := 1) (s' := s1) rfl |>.trans ?_
    refine Rd.bind_ok (a := if xyb && (0 : Nat) == 0 then (3, 2) else (2, 2)) (s' := s1) ?_ |>.trans ?_
    · cases xyb <;> rfl
    refine Rd.bind_ok (a := Passes.dflt) (s' := s1) rfl |>.trans ?_
    refine Rd.bind_ok (a := 0) (s' := s1) rfl |>.trans ?_
    refine Rd.bind_ok (a := false) (s' := s1) rfl |>.trans ?_
    refine Rd.bind_ok (a := (0, 0)) (s' := s1) rfl |>.trans ?_
    refine Rd.bind_ok (a := image) (s' := s1) rfl |>.trans ?_
    refine Rd.bind_ok (a := h1) (s' := s1) (by rw [show (1, List.replicate nec 1).1 = 1 from rfl, e1]; rfl) |>.trans ?_
    refine Rd.bind_ok (a := w1) (s' := s1) (by rw [show (1, List.replicate nec 1).1 = 1 from rfl, e2]; rfl) |>.trans ?_
    refine Rd.bind_ok (a := (Blending.dflt, List.replicate nec Blending.dflt)) (s' := s1) rfl |>.trans ?_
    refine Rd.bind_ok (a := true) (s' := s1) rfl |>.trans ?_
    refine Rd.bind_ok (a := 0) (s' := s1) rfl |>.trans ?_
    refine Rd.bind_ok (a := false) (s' := s1) rfl |>.trans ?_
    refine Rd.bind_ok (a := []) (s' := s1) rfl |>.trans ?_
    refine Rd.bind_ok (a := Restoration.dflt) (s' := s1) rfl |>.trans ?_
    refine Rd.bind_ok (a := Extensions.none) (s' := s1) rfl |>.trans ?_
    refine Rd.bind_ok (a := h2) (s' := s1) (by rw [show maxList _ = 0 from rfl, e3]; rfl) |>.trans ?_
    refine Rd.bind_ok (a := w2) (s' := s1) (by rw [show maxList _ = 0 from rfl, e4]; rfl) |>.trans ?_
    rfl
  · refine ⟨rfl, rfl, rfl, [(3, 3)], rfl, ?_⟩
    intro x hx m
    cases hx with
    | head =>
      unfold passTakes
      rw [Bool.and_eq_false_iff, decide_eq_false_iff_not, decide_eq_false_iff_not]
      dsimp only
      omega
    | tail _ h => cases h

/-- Such a stream. -/
example : readBool (BR.new [0x01]) = (.ok true, ⟨[0x01], 1, 1, 1, 1⟩) := by decide

/-- C46 is false of the code for every frame that is only a reference: it too has no shift for its pass, and its pass takes no channel. -/
theorem C46_reference_only (xyb : Bool) (nec : Nat) (image : Dim) (s s' : BR) (h : FrameHeader) (hr : readFrameHeader xyb nec image s = (.ok h, s'))
    (ht : h.frameType = 2) : h.passes.numPasses = 1 ∧ hfShift h.passes 0 = .panic ∧ passShifts h.passes h.passes.numPasses 0 3 = .ok [(3, 3)] := by
  rw [(safe_frameHeader xyb nec image).of_ok hr ht]
  exact ⟨rfl, rfl, rfl⟩

/-- C46, in part. When the header states the passes, every pass has a shift, of at most 3. -/
theorem C46_stated_partial (s s' : BR) (p : Nat) (hs : AtBit s p) (ps : Passes) (h : readPasses s = (.ok ps, s')) :
    0 < ps.numPasses ∧ ∀ i < ps.numPasses, ∃ v ≤ 3, hfShift ps i = .ok v := by
  obtain ⟨p', h1, _, _⟩ := implements_passes.of_ok hs h
  obtain ⟨L, sh, rfl, hsh, _⟩ := decPasses_shape h1
  refine ⟨Nat.succ_pos _, fun i hi => ?_⟩
  unfold hfShift
  dsimp only at hi ⊢
  by_cases hlt : i < sh.length
  · refine ⟨sh[i], ?_, idx_some _ _ _ ?_⟩
    · have := hsh _ (List.getElem_mem hlt)
      omega
    · rw [List.getElem?_append_left hlt, List.getElem?_eq_getElem hlt]
  · refine ⟨0, Nat.zero_le _, idx_some _ _ _ ?_⟩
    rw [List.getElem?_append_right (by omega), show i - sh.length = 0 by omega]
    rfl

/-- Three passes with shifts 2, 1 and 0, completing the factors 4 and 2 in the passes 0 and 1. -/
example : (readPasses (BR.new [0x6A, 0x46])).1 = .ok ⟨3, 2, [2, 1, 0], [4, 2, 1], [0, 1, 2]⟩ := by decide +kernel

/-! ## C58: the passes partition the modular channels -/

/-- Passes as the format defines them, with no factor for the last pass. -/
theorem passes_partition {bits r : List Bool} {ps : Passes} (h1 : decPasses bits = some (ps, r)) (hv : ps.Valid (ps.numPasses - 1)) :
    ∃ l, passShifts ps ps.numPasses 0 3 = .ok l ∧ l.length = ps.numPasses ∧ ∀ m < 3,
      (∀ i < ps.numPasses, passTakes (l.getD i (0, 0)) m = decide (i ∈ passesOf ps m)) ∧
      (List.range ps.numPasses).filter (fun i => passTakes (l.getD i (0, 0)) m) = passesOf ps m ∧ (passesOf ps m).length = 1 := by
  obtain ⟨L, sh, e, _, hd⟩ := decPasses_shape h1
  have e' : ps = mkPasses L sh := e
  subst e'
  have hst : (mkPasses L sh).stated = L := stated_shape L _ _ _
  obtain ⟨hL, hb⟩ := hv
  rw [hst] at hL hb
  have hb' : ∀ x ∈ L, x.1 < sh.length := hb
  have hps := passShifts_eq L sh hL hb' hd (sh.length + 1) 0 (by omega)
  rw [if_pos rfl] at hps
  refine ⟨_, hps, by simp [mkPasses], fun m hm => ?_⟩
  have key : ∀ i < (mkPasses L sh).numPasses, passTakes (((List.range' 0 (sh.length + 1)).map (fun i => (finestShift (mkPasses L sh) i, if i = 0 then 3 else finestShift (mkPasses L sh) (i - 1)))).getD i (0, 0)) m =
      decide (finestShift (mkPasses L sh) i ≤ m ∧ m < (if i = 0 then 3 else finestShift (mkPasses L sh) (i - 1))) := by
    intro i hi
    have hi' : i < sh.length + 1 := hi
    rw [List.getD_eq_getElem?_getD, List.getElem?_map, List.getElem?_range' hi']
    show passTakes (finestShift (mkPasses L sh) (0 + 1 * i), if 0 + 1 * i = 0 then 3 else finestShift (mkPasses L sh) (0 + 1 * i - 1)) m = _
    rw [show 0 + 1 * i = i by omega]
    unfold passTakes
    rw [← Bool.decide_and]
  refine ⟨fun i hi => ?_, ?_, passesOf_length L sh hL hd m hm⟩
  · rw [key i hi]
    unfold passesOf
    rw [decide_eq_decide, List.mem_filter, List.mem_range, decide_eq_true_iff]
    exact ⟨fun h => ⟨hi, h⟩, fun h => h.2⟩
  · unfold passesOf
    refine List.filter_congr (fun i hi => ?_)
    rw [List.mem_range] at hi
    exact key i hi

/-- C58, in part. When the passes are stated, and no factor is stated for the last pass, every channel of shift below 3 is decoded in exactly
one pass, the one the format defines. -/
theorem C58_partition_partial (s s' : BR) (p : Nat) (hs : AtBit s p) (ps : Passes) (h : readPasses s = (.ok ps, s')) (hv : ps.Valid (ps.numPasses - 1)) :
    ∃ l, passShifts ps ps.numPasses 0 3 = .ok l ∧ l.length = ps.numPasses ∧ ∀ m < 3,
      (List.range ps.numPasses).filter (fun i => passTakes (l.getD i (0, 0)) m) = passesOf ps m ∧ (passesOf ps m).length = 1 := by
  obtain ⟨p', h1, _, _⟩ := implements_passes.of_ok hs h
  obtain ⟨l, e1, e2, e3⟩ := passes_partition h1 hv
  exact ⟨l, e1, e2, fun m hm => (e3 m hm).2⟩

/-- The passes of the example above: shift 2 is decoded in pass 0, shift 1 in pass 1, shift 0 in pass 2. -/
example : (⟨3, 2, [2, 1, 0], [4, 2, 1], [0, 1, 2]⟩ : Passes).Valid 2 ∧
    (List.range 3).map (passesOf ⟨3, 2, [2, 1, 0], [4, 2, 1], [0, 1, 2]⟩) = [[2], [1], [0]] := by decide

/-- C58 is false of the code when a factor is stated for the last pass: two passes, the second of which completes factor 2. It should
decode the channels of shift 2, 1 and 0, but does not decode those of shift 0. -/
theorem C58_violated : (readPasses (BR.new [0x65, 0x01])).1 = .ok ⟨2, 1, [2, 0], [2, 1], [1, 1]⟩ ∧ (⟨2, 1, [2, 0], [2, 1], [1, 1]⟩ : Passes).Valid 2 ∧
    passesOf ⟨2, 1, [2, 0], [2, 1], [1, 1]⟩ 0 = [1] ∧ passShifts ⟨2, 1, [2, 0], [2, 1], [1, 1]⟩ 2 0 3 = .ok [(3, 3), (1, 3)] ∧
    ∀ x ∈ [(3, 3), (1, 3)], passTakes x 0 = false := by
  refine ⟨?_, ?_, ?_, ?_, ?_⟩ <;> decide +kernel

/-! ## C47: restoration filters -/

/-- C47, in part. A filter bundle that is all default or has no iterations is read as the format defines, to its last bit. -/
theorem C47_restoration_partial (encoding : Nat) : Follows (readRestoration encoding) (decRestoration 0 encoding) := follows_restoration encoding

/-- C47, in part. All bundles are read as the format defines, to the last bit, but that there is no bit for custom weights. -/
theorem C47_without_weights_partial (encoding : Nat) : Follows (readRestoration encoding) (decRestorationW false 3 encoding) := follows_restoration_all encoding

/-- A bundle of two iterations with custom sigmas 1/2, 1, 1/2, 1. -/
example : (decRestorationW false 3 0 (bitsFrom [0x28, 0x00, 0x0E, 0x00, 0x0F, 0x00, 0x0E, 0x00, 0x0F] 0)).map
    (fun x => (x.1.iterations, x.1.sigmaCustom, x.1.quantMul, x.1.pass0, x.1.pass2)) = some (2, true, 1 / 2, 1, 1 / 2) := by decide +kernel

/-- A bundle with custom Gaborish weights 1/2 and 1 and no iterations. -/
example : (decRestoration 0 0 (bitsFrom [0x06, 0xC0, 0x01, 0xE0, 0x01, 0xC0, 0x01, 0xE0, 0x01, 0xC0, 0x01, 0xE0, 0x01] 0)).map (fun x => (x.1.gab1, x.1.gab2, x.1.iterations)) =
    some ([1 / 2, 1 / 2, 1 / 2], [1, 1, 1], 0) := by decide +kernel

/-- C47 is false of the code: no bundle is ever read with custom weights. -/
theorem C47_weights_never_read (encoding : Nat) (s s' : BR) (r : Restoration) (h : readRestoration encoding s = (.ok r, s')) :
    r.weightCustom = false ∧ r.channelScale = [40, 5, 7 / 2] := (safe_restoration encoding).of_ok h

/-- For a bundle of one iteration with custom weights 1, 1, 1, the format reads them; the code takes them for something else. -/
theorem C47_violated :
    (decRestoration 3 0 (bitsFrom [0x24, 0x00, 0x0F, 0x00, 0x0F, 0x00, 0x0F, 0x00, 0x00, 0x00, 0x00, 0x00] 0)).map
      (fun x => (x.1.weightCustom, x.1.channelScale, x.1.sigmaCustom, x.2.length)) = some (true, [1, 1, 1], false, 7) ∧
    (readRestoration 0 (BR.new [0x24, 0x00, 0x0F, 0x00, 0x0F, 0x00, 0x0F, 0x00, 0x00, 0x00, 0x00, 0x00])).1.givesThat
      (fun r => !r.weightCustom && r.sigmaCustom && decide (r.quantMul = 1)) = true := by
  refine ⟨?_, ?_⟩ <;> decide +kernel

/-! ## C59: the whole header -/

/-- C59, in part. Every frame header is read as the format defines, to its last bit, for images of positive size up to 2^30 in each
direction. Excluded (`decFrameHeader 0 false`): iterations of the edge-preserving filter (C47), multiplicative blending without extra
channels, animations, extensions with payload, empty crops. The passes of a header that states none are empty lists (C46), which
`completed` replaces by the format's. -/
theorem C59_header_partial (xyb : Bool) (nec : Nat) (image : Dim) (hw : 0 < image.width) (hw' : image.width ≤ 2 ^ 30) (hh : 0 < image.height)
    (hh' : image.height ≤ 2 ^ 30) :
    Follows (do let h ← readFrameHeader xyb nec image; pure h.completed) (decFrameHeader 0 false xyb nec image) :=
  follows_frameHeader xyb nec image hw hh hw' hh'

/-- A frame of 100 by 50 pixels with upsampling 2. -/
example : (decFrameHeader 0 false true 0 ⟨1920, 1080⟩ (bitsFrom [0x40, 0x25, 0x01, 0x00, 0x00, 0x32, 0x64, 0x38, 0x01] 0)).map
    (fun x => [x.1.upsampling, x.1.xqm, x.1.bqm, x.1.size.width, x.1.size.height, x.1.blending.source, x.2.length]) = some [2, 5, 4, 50, 25, 3, 5] := by
  decide +kernel

/-- C59. No frame header crashes the parser, whatever the stream and the image header. -/
theorem C59_no_crash (xyb : Bool) (nec : Nat) (image : Dim) (s : BR) : (readFrameHeader xyb nec image s).1 ≠ .panic :=
  (safe_frameHeader xyb nec image).noPanic s

/-- C59 is false of the code for multiplicative blending without extra channels: the clamp flag is not read, so that everything after it is
shifted by a bit. Here the frame blends with reference 2; the code takes reference 1. -/
theorem C59_blending_violated : (decBlending false false (bitsFrom [0x57] 0)).map (·.1) = some ⟨4, 0, true, 2⟩ ∧
    (readBlending false true (BR.new [0x57])).1 = .ok ⟨4, 0, false, 1⟩ := by
  refine ⟨?_, ?_⟩ <;> decide +kernel

/-- C59 is false of the code for crops without pixels: they are accepted, and with upsampling 2 the frame becomes 2^31 pixels wide. -/
theorem C59_empty_crop_violated : decFrameHeader 3 true true 0 ⟨1920, 1080⟩ (bitsFrom [0x40, 0x25, 0x01, 0x00, 0x00, 0x00, 0x64, 0x38, 0x01] 0) = none ∧
    (readFrameHeader true 0 ⟨1920, 1080⟩ (BR.new [0x40, 0x25, 0x01, 0x00, 0x00, 0x00, 0x64, 0x38, 0x01])).1.givesThat
      (fun h => decide (h.width = 0 ∧ h.size = ⟨2 ^ 31, 25⟩)) = true := by
  refine ⟨?_, ?_⟩ <;> decide +kernel

end Jxl
