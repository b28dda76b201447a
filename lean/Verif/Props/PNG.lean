import Verif.Proofs.PNGSize

/-! # PNG output (C34) -/
namespace Jxl

theorem shows_of_renders (I : FloatImpl) {B d h w : Nat} (hB : B = 8 ∨ B = 16) {f : F32 → F32} {b b1 b2 : ImageBuffer} (hd : b.bufferType = 0 → 1 ≤ d)
    (hr : Recoloured f b b1) (hs : Settled B h w b2) (hv : Renders I B d b1 b2) : Shows I B d f b (natPlane b2.ints) := by
  have hB2 : (2 : Int) ^ B - 1 < 2 ^ 20 := two_pow_lt20 (by omega)
  have hB1 : (1 : Int) ≤ 2 ^ B - 1 := by have := two_pow_ge_two (n := B) (by omega); omega
  intro y x o ho
  rw [sample_natPlane] at ho
  obtain ⟨o2, ho2, rfl⟩ := Option.map_eq_some_iff.mp ho
  obtain ⟨r0, r1⟩ := hs.2 y x o2 ho2
  have hcast : ((o2.toNat : Nat) : Int) = o2 := by omega
  obtain ⟨hi, hf⟩ := hv y x o2 ho2
  refine ⟨?_, fun ht v hvv h0 h1 => ?_, fun ht v hvv => ?_⟩
  · have h2 : ((2 ^ B : Nat) : Int) = 2 ^ B := by push_cast; rfl
    omega
  · have hd1 := hd ht
    have hm1 : (1 : Int) ≤ 2 ^ d - 1 := by have := two_pow_ge_two hd1; omega
    have hcq : ((o2.toNat : Nat) : ℚ) = (o2 : ℚ) := by
      rw [← Int.cast_natCast, hcast]
    have hq : ((2 : ℚ) ^ d - 1) = (((2 ^ d - 1 : Int)) : ℚ) := by push_cast; rfl
    have hqB : ((2 : ℚ) ^ B - 1) = (((2 ^ B - 1 : Int)) : ℚ) := by push_cast; rfl
    have hpos : (0 : ℚ) < (((2 ^ d - 1 : Int)) : ℚ) := by exact_mod_cast (by omega : (0 : Int) < 2 ^ d - 1)
    have hr := hi (hr.1.trans ht) v (by rw [hr.2.2.2.1]; exact hvv)
    rcases hr with ⟨hdB, hn⟩ | hfl
    · subst hdB
      have hov : o2 = v := by rw [hn]; exact (C36_nearest (2 ^ d - 1) v (by omega)).2.2.1 h0 (by omega)
      refine ⟨fun _ => by rw [hcast, hov], fun _ => ?_⟩
      rw [hcq, hov, hq, mul_div_assoc, div_self (ne_of_gt hpos), mul_one, sub_self, abs_zero]
      norm_num
    · refine ⟨fun hdB => ?_, fun hd20 => ?_⟩
      · subst hdB
        rw [hcast, hfl]
        exact sample_roundtrip I v (2 ^ d - 1) h0 (by omega) hm1 hB2
      · have := C36_rescale I v (2 ^ d - 1) (2 ^ B - 1) h0 (by omega) hm1 (two_pow_lt20 hd20) hB1 hB2
        rw [hcq, hq, hqB, hfl]
        refine le_trans this ?_
        have : (((2 ^ B - 1 : Int)) : ℚ) ≤ 65535 := by
          rcases hB with h | h <;> rw [h] <;> norm_num
        linarith
  · rw [hcast]
    refine hf (hr.1.trans ht) (f v) ?_
    rw [hr.2.2.2.2, hvv]
    rfl

/-- The depth of the output. -/
def outDepth (hd : ImageHeader) : Nat := if 8 < hd.bitDepth.bits then 16 else 8

/-- The PNG colour type of an image: gray, RGB, or RGB with alpha. -/
def outMode (hd : ImageHeader) : Nat := if hd.colour.space = 1 then 0 else if hd.alphaIndices = [] then 2 else 6

/-- Every image of ordinary range whose samples have at least 8 bits, without alpha or with three colours and an alpha channel that is
the first extra channel, is not premultiplied and has 8 bits if and only if the colours have, is written as a well-formed
PNG file that announces the size, depth and channels of the image and shows its samples.
Not covered by the statement, because the code is wrong there (see the theorems below): fewer than 8 bits, gray with
alpha, alpha of another depth or position, premultiplied alpha, pictures of high dynamic range, transfer functions other than sRGB
without a colour profile. -/
theorem C34_png_partial (I : FloatImpl) (Z : Zlib) (curve : Nat → F32 → F32) (hd : ImageHeader) (enc : Option (List UInt8)) (buffers : List ImageBuffer)
    (img : JXLImage) (h w : Nat) (f : F32 → F32) (hnew : newJXLImage buffers hd enc = .ok img)
    (hl : buffers.length = hd.colourCount + hd.extra.length) (hsz : hd.orientedSize = ⟨w, h⟩) (hw : w < 2 ^ 31) (hh : h < 2 ^ 31)
    (hp : ∀ b ∈ buffers, b.IntPicture h w ∨ b.FloatPicture h w)
    (hdep : ∀ (c : Nat) (b : ImageBuffer), buffers[c]? = some b → b.bufferType = 0 → 1 ≤ hd.depth c ∧ hd.depth c ≤ 31)
    (ho : Ordinary hd.colour) (hc : ColourPath curve img hd f) (hbits : 8 ≤ hd.bitDepth.bits)
    (hal : hd.alphaIndices = [] ∨ (hd.colour.space ≠ 1 ∧ hd.alphaIndices.head? = some 0 ∧ (hd.depth 3 = 8 ↔ hd.bitDepth.bits = 8) ∧
      ∀ e, hd.extra[0]? = some e → e.alphaAssociated = false))
    (hz : ∀ l, l.length = PNG.announced w h (outDepth hd) (outMode hd) → (Z.deflate 0 l).length < 2 ^ 31)
    (hzi : ∀ p, img.icc = some p → (Z.deflate 1 (p.map UInt8.ofNat)).length < 2 ^ 30) :
    ∃ file img' type data, ∃ p : PNG.Picture, writePNG I Z curve false img = .ok (file, img') ∧ PNG.IsFile Z file type data p ∧
      p.width = w ∧ p.height = h ∧ p.depth = outDepth hd ∧ p.mode = outMode hd ∧
      (∀ (c : Nat) (m : List (List Nat)), p.planes[c]? = some m → ∃ b, buffers[c]? = some b ∧
        Shows I (outDepth hd) (hd.depth c) (if c < hd.colourCount then f else id) b m) ∧
      ((img.icc.getD [] = [] ∧ type = PNG.name 's' 'R' 'G' 'B' ∧ data = [UInt8.ofNat hd.colour.intent]) ∨
        (img.icc.getD [] ≠ [] ∧ type = PNG.name 'i' 'C' 'C' 'P' ∧ ∃ z, data = PFM.text ['j', 'x', 'l', 'a', 't', 't', 'e'] ++ [0, 0] ++ z ∧
          Z.inflate z = some ((img.icc.getD []).map UInt8.ofNat))) := by
  have hm := newJXLImage_made hnew hl
  have hBv : outDepth hd = 8 ∨ outDepth hd = 16 := by unfold outDepth; split <;> omega
  have hB8 : outDepth hd = 8 ↔ hd.bitDepth.bits = 8 := by unfold outDepth; split <;> omega
  have hB1 : 1 ≤ outDepth hd := by omega
  have hB32 : outDepth hd < 32 := by omega
  have hhdr := ordinary_not_hdr hm ho
  have hpre : img.premultiplied = false := by
    rcases hal with h1 | ⟨_, h2, _, h4⟩
    · exact (hm.noAlpha h1).2
    · cases hai : hd.alphaIndices with
      | nil => rw [hai] at h2; cases h2
      | cons a as =>
        rw [hai] at h2
        injection h2 with h2
        subst h2
        obtain ⟨_, e, he, hpe⟩ := hm.alpha 0 as hai
        rw [hpe]
        exact h4 e he
  have hocc : ∀ s, hd.alphaIndices = s → hd.hasAlpha = decide (0 < s.length) := by intro s hs; unfold ImageHeader.hasAlpha; rw [hs]
  obtain ⟨bs1, e1, l1, p1, s1⟩ := outputColours_ok hm ho hl (by rw [hsz]) (by rw [hsz]) hp hc
  obtain ⟨bs2, e2, l2, s2⟩ := outputSamples_ok I { img with buffers := bs1 } (h := h) (w := w) hB1 hB32 hpre (by simp only; rw [l1]; exact hm.depths) p1
    (fun c b d hb hdd ht => by
      have hcl : c < buffers.length := by rw [← l1]; exact getElem?_lt hb
      have hd2 := hm.depth c hcl
      simp only at hdd
      rw [hdd] at hd2
      injection hd2 with hd2
      rw [hd2]
      have hcb := List.getElem?_eq_getElem hcl
      obtain ⟨b1, hb1, hr⟩ := s1 c _ hcb
      simp only at hb
      rw [hb] at hb1
      injection hb1 with hb1
      subst hb1
      exact hdep c _ hcb (by rw [← hr.1]; exact ht))
  simp only at e2 l2 s2
  -- the settled image
  have hset : ∀ b ∈ bs2, Settled (outDepth hd) h w b := by
    intro b hb
    obtain ⟨c, hcl, hcb⟩ := List.getElem_of_mem hb
    obtain ⟨b', d, h1, h2, h3, _⟩ := s2 c _ (List.getElem?_eq_getElem (show c < bs1.length by omega))
    rw [List.getElem?_eq_getElem hcl, hcb] at h1
    injection h1 with h1
    subst h1
    exact h3
  obtain ⟨n, hn⟩ : ∃ n, n = hd.colourCount + (if hd.hasAlpha then 1 else 0) := ⟨_, rfl⟩
  have hext : hd.alphaIndices ≠ [] → 0 < hd.extra.length := by
    intro hne
    rcases hal with h1 | ⟨_, h2, _, _⟩
    · exact absurd h1 hne
    · cases hai : hd.alphaIndices with
      | nil => rw [hai] at h2; cases h2
      | cons a as =>
        rw [hai] at h2
        injection h2 with h2
        subst h2
        obtain ⟨_, e, he, _⟩ := hm.alpha 0 as hai
        exact getElem?_lt he
  have haemp : hd.hasAlpha = true ↔ hd.alphaIndices ≠ [] := by
    unfold ImageHeader.hasAlpha
    cases hd.alphaIndices <;> simp
  have hacol : hd.hasAlpha = true → hd.colourCount = 3 := by
    intro h
    rcases hal with h1 | ⟨h1, _⟩
    · exact absurd h1 (haemp.mp h)
    · unfold ImageHeader.colourCount; rw [if_neg h1]
  have hnb : n ≤ buffers.length := by
    rw [hn, hl]
    by_cases ha : hd.hasAlpha = true
    · have := hext (haemp.mp ha); rw [if_pos ha]; omega
    · rw [if_neg ha]; omega
  have hlen2 : bs2.length = buffers.length := by rw [l2, l1]
  have hidat := writeIDAT_ok I Z { img with buffers := bs2 } (B := outDepth hd) (h := h) (w := w) n
    (by simp only; rw [hm.header]; rfl) (by simp only; rw [hm.height, hsz]) (by simp only; rw [hm.width, hsz]) (by simp only; rw [hm.header]; exact hn)
    (by simp only; rw [hm.header]; exact hacol) (by simp only; omega) (by simp only; rw [hm.depths, hlen2]) hset
    (fun c hcn => by
      simp only
      refine ⟨_, hm.depth c (by omega), ?_⟩
      rw [hB8]
      by_cases hcc : c < hd.colourCount
      · unfold ImageHeader.depth; rw [if_pos hcc]
      · have ha : hd.hasAlpha = true := by
          by_contra hna
          rw [if_neg hna] at hn
          omega
        have h3 := hacol ha
        rw [if_pos ha] at hn
        have : c = 3 := by omega
        subst this
        rcases hal with h1 | ⟨_, _, h2, _⟩
        · exact absurd h1 (haemp.mp ha)
        · exact h2)
    (outMode hd)
  obtain ⟨p, hpdef⟩ : ∃ p : PNG.Picture, p = ⟨w, h, outDepth hd, outMode hd, (bs2.take n).map (fun b => natPlane b.ints)⟩ := ⟨_, rfl⟩
  rw [← hpdef] at hidat
  have hplen : p.planes.length = PNG.channels p.mode := by
    rw [hpdef]
    simp only [List.length_map, List.length_take]
    rw [Nat.min_eq_left (by omega), hn]
    unfold outMode
    by_cases hg : hd.colour.space = 1
    · have : hd.hasAlpha = false := by
        by_contra hc'
        have hc'' := hacol (by simpa using hc')
        unfold ImageHeader.colourCount at hc''
        rw [if_pos hg] at hc''
        cases hc''
      rw [if_pos hg, this]
      unfold ImageHeader.colourCount
      rw [if_pos hg]
      rfl
    · rw [if_neg hg]
      unfold ImageHeader.colourCount
      rw [if_neg hg]
      by_cases ha : hd.alphaIndices = []
      · rw [if_pos ha, hocc _ ha]; rfl
      · rw [if_neg ha, haemp.mpr ha]; rfl
  have hpok : p.Ok := by
    refine ⟨by rw [hpdef]; exact hBv, hplen, by rw [hpdef]; exact hw, by rw [hpdef]; exact hh, ?_⟩
    intro m hmm
    rw [hpdef] at hmm ⊢
    simp only [List.mem_map] at hmm
    obtain ⟨b, hb, rfl⟩ := hmm
    have hs := hset b (List.mem_of_mem_take hb)
    refine ⟨table_natPlane hs.1.2.2.2, fun y x v hv => ?_⟩
    rw [sample_natPlane] at hv
    obtain ⟨u, hu, rfl⟩ := Option.map_eq_some_iff.mp hv
    have := hs.2 y x u hu
    have h2 : ((2 ^ outDepth hd : Nat) : Int) = 2 ^ outDepth hd := by push_cast; rfl
    simp only
    omega
  have hplanes : ∀ (c : Nat) (m : List (List Nat)), p.planes[c]? = some m → ∃ b, buffers[c]? = some b ∧
        Shows I (outDepth hd) (hd.depth c) (if c < hd.colourCount then f else id) b m := by
    intro c m hcm
    rw [hpdef] at hcm
    simp only [List.getElem?_map, List.getElem?_take] at hcm
    split at hcm
    · obtain ⟨b2, hb2, rfl⟩ := Option.map_eq_some_iff.mp hcm
      have hcl : c < buffers.length := by rw [← hlen2]; exact getElem?_lt hb2
      have hcb := List.getElem?_eq_getElem hcl
      generalize buffers[c] = b at hcb
      obtain ⟨b1, hb1, hr⟩ := s1 c b hcb
      obtain ⟨b2', d, h1, h2, h3, h4⟩ := s2 c b1 hb1
      rw [hb2] at h1
      injection h1 with h1
      subst h1
      have hdd := hm.depth c hcl
      rw [h2] at hdd
      injection hdd with hdd
      subst hdd
      exact ⟨b, hcb, shows_of_renders I hBv (fun ht => (hdep c b hcb ht).1) hr h3 h4⟩
    · cases hcm
  have hscan : (Z.deflate 0 (PNG.scanlines p)).length < 2 ^ 31 := by
    apply hz
    rw [scanlines_length p hpok.1 hplen, hpdef]
  have hmode : (if decide (img.colourEncoding = 1) = true then (if 0 ≤ img.alphaIndex then 4 else 0) else (if 0 ≤ img.alphaIndex then 6 else 2)) = outMode hd := by
    rw [hm.space]
    unfold outMode
    rcases hal with h1 | ⟨h1, h2, _⟩
    · rw [(hm.noAlpha h1).1, h1]
      by_cases hg : hd.colour.space = 1 <;> simp [hg]
    · cases hai : hd.alphaIndices with
      | nil => rw [hai] at h2; cases h2
      | cons a as =>
        obtain ⟨h5, _⟩ := hm.alpha a as hai
        rw [h5]
        simp [h1]
  have hrun : ∀ chunk, (if (false || decide ((img.icc.getD []).length ≠ 0) || false) = true then writeICCP Z (img.icc.getD []) else writeSRGB hd.colour.intent) = chunk →
      writePNG I Z curve false img = .ok (PNG.signature ++ PNG.header w h (outDepth hd) (outMode hd) ++ chunk ++
        PNG.chunk (PNG.name 'I' 'D' 'A' 'T') (Z.deflate 0 (PNG.scanlines p)) ++ PNG.chunk (PNG.name 'I' 'E' 'N' 'D') [], { img with buffers := bs2 }) := by
    intro chunk hchunk
    unfold writePNG
    dsimp only
    rw [hhdr, e1, Res.bind_ok]
    simp only [Bool.false_eq_true, if_false]
    rw [show (if 8 < img.header.bitDepth.bits then 16 else 8) = outDepth hd by rw [hm.header]; rfl, e2, Res.bind_ok]
    simp only
    rw [hidat, Res.bind_ok]
    simp only
    rw [hm.header, hchunk, hmode, hm.width, hm.height, hsz, ihdr_ok, emitChunk_ok _ _ _ _ _ hscan, ← iend_ok]
    unfold PNG.signature
    simp only [List.append_assoc]
  by_cases hicc : img.icc.getD [] = []
  · refine ⟨_, _, PNG.name 's' 'R' 'G' 'B', [UInt8.ofNat hd.colour.intent], p, hrun _ rfl, ⟨hpok, by simp, Z.deflate 0 (PNG.scanlines p), hscan,
      Z.undoes _ _, ?_⟩, by rw [hpdef], by rw [hpdef], by rw [hpdef], by rw [hpdef], hplanes, Or.inl ⟨hicc, rfl, rfl⟩⟩
    rw [hicc, if_neg (by simp), srgb_ok, hpdef]
  · have hlen : (img.icc.getD []).length ≠ 0 := by simpa using hicc
    have hzl : (Z.deflate 1 ((img.icc.getD []).map UInt8.ofNat)).length < 2 ^ 30 := by
      cases hi : img.icc with
      | none => rw [hi] at hicc; exact absurd rfl hicc
      | some q => exact hzi q hi
    refine ⟨_, _, PNG.name 'i' 'C' 'C' 'P', PFM.text ['j', 'x', 'l', 'a', 't', 't', 'e'] ++ [0, 0] ++ Z.deflate 1 ((img.icc.getD []).map UInt8.ofNat), p,
      hrun _ rfl, ⟨hpok, ?_, Z.deflate 0 (PNG.scanlines p), hscan, Z.undoes _ _, ?_⟩, by rw [hpdef], by rw [hpdef], by rw [hpdef], by rw [hpdef], hplanes,
      Or.inr ⟨hicc, rfl, _, rfl, Z.undoes _ _⟩⟩
    · simp only [List.length_append, PFM.text, List.length_map, List.length_cons, List.length_nil]
      omega
    · rw [if_pos (by simpa using hlen)]
      have : writeICCP Z (img.icc.getD []) = PNG.chunk (PNG.name 'i' 'C' 'C' 'P') (PFM.text ['j', 'x', 'l', 'a', 't', 't', 'e'] ++ [0, 0] ++
          Z.deflate 1 ((img.icc.getD []).map UInt8.ofNat)) := by
        rw [← emitChunk_ok _ _ _ _ _ (by
          simp only [List.length_append, PFM.text, List.length_map, List.length_cons, List.length_nil]
          omega)]
        unfold writeICCP
        simp only [bytesOf_text, List.append_assoc]
        rfl
      rw [this, hpdef]

/-- The depth that the header announces. -/
def announcedDepth (img : JXLImage) : Nat := if img.isHDR then 16 else if 8 < img.header.bitDepth.bits then 16 else 8

/-- The colour type that the header announces. -/
def announcedMode (img : JXLImage) : Nat :=
  if img.colourEncoding = 1 then (if 0 ≤ img.alphaIndex then 4 else 0) else (if 0 ≤ img.alphaIndex then 6 else 2)

/-- Whatever the image, a file that is written has a header that announces `announcedDepth` and `announcedMode`, and as many
bytes of rows as `pixelSize` says. -/
theorem C34_every_file (I : FloatImpl) (Z : Zlib) (curve : Nat → F32 → F32) (s : Bool) (img : JXLImage) (file : List UInt8) (img' : JXLImage)
    (h : writePNG I Z curve s img = .ok (file, img')) :
    img.premultiplied = false ∧ (img.header.hasAlpha = true → 3 < img.buffers.length) ∧ ∃ rows : List UInt8,
      rows.length = img.height * (1 + img.width * pixelSize img) ∧
      file = PNG.signature ++ PNG.header img.width img.height (announcedDepth img) (announcedMode img) ++
        (if img.isHDR || decide (img.icc.getD [] ≠ []) || s then writeICCP Z (img.icc.getD []) else writeSRGB img.header.colour.intent) ++
        emitChunk (PNG.name 'I' 'D' 'A' 'T' ++ Z.deflate 0 rows) ++ PNG.chunk (PNG.name 'I' 'E' 'N' 'D') [] := by
  unfold writePNG at h
  obtain ⟨i1, h1, h⟩ := Res.of_bind h
  obtain ⟨i2, h2, h⟩ := Res.of_bind h
  obtain ⟨⟨d, i3⟩, h3, h⟩ := Res.of_bind h
  injection h with h
  injection h with hf _
  have s1 := toOutputColours_same h1
  obtain ⟨s2, hp⟩ := toOutputSamples_same h2
  have s12 := s1.trans s2
  obtain ⟨ha, rows, hr, hd⟩ := writeIDAT_any h3
  refine ⟨?_, fun hal => ?_, rows, ?_, ?_⟩
  · rw [s1.2] at hp; exact hp
  · rw [s12.1] at ha
    rw [s12.2] at ha
    exact ha hal
  · rw [hr]
    unfold pixelSize
    rw [s12.2]
  · rw [← hf, ← iend_ok, ← ihdr_ok]
    dsimp only
    rw [hd]
    have e1 : i1.alphaIndex = img.alphaIndex := by rw [s1.2]
    have e2 : i2.icc = img.icc := by rw [s12.2]
    have e3 : i2.header = img.header := by rw [s12.2]
    have e4 : i2.width = img.width := by rw [s12.2]
    have e5 : i2.height = img.height := by rw [s12.2]
    have e6 : decide ((img.icc.getD []).length ≠ 0) = decide (img.icc.getD [] ≠ []) := by
      congr 1; simp
    rw [e1, e2, e3, e4, e5, e6]
    unfold announcedDepth announcedMode PNG.signature
    simp only [List.append_assoc, decide_eq_true_eq, bytesOf_text, PNG.name]

/-- Images with premultiplied alpha are never written. -/
theorem C34_premultiplied_never_written (I : FloatImpl) (Z : Zlib) (curve : Nat → F32 → F32) (s : Bool) (img : JXLImage) (r : List UInt8 × JXLImage)
    (hp : img.premultiplied = true) : writePNG I Z curve s img ≠ .ok r := by
  intro h
  have := (C34_every_file I Z curve s img r.1 r.2 h).1
  rw [hp] at this
  cases this

/-- Gray images with an alpha channel (two channels) are never written. -/
theorem C34_gray_alpha_never_written (I : FloatImpl) (Z : Zlib) (curve : Nat → F32 → F32) (s : Bool) (img : JXLImage) (r : List UInt8 × JXLImage)
    (ha : img.header.hasAlpha = true) (hb : img.buffers.length ≤ 3) : writePNG I Z curve s img ≠ .ok r := by
  intro h
  have := (C34_every_file I Z curve s img r.1 r.2 h).2.1 ha
  omega

theorem row_size_inj {h w a b : Nat} (h0 : 0 < h) (w0 : 0 < w) (hab : a ≠ b) : h * (1 + w * a) ≠ h * (1 + w * b) := by
  intro e
  have := Nat.eq_of_mul_eq_mul_left h0 e
  exact hab (Nat.eq_of_mul_eq_mul_left w0 (by omega))

theorem plain_pixelSize {img : JXLImage} {buffers : List ImageBuffer} {hd : ImageHeader} (hm : Made img buffers hd)
    (hl : buffers.length = hd.colourCount + hd.extra.length) (ha : hd.alphaIndices = []) :
    pixelSize img = hd.colourCount * sampleSize hd.bitDepth.bits ∧ PNG.channels (announcedMode img) = hd.colourCount := by
  have hna : hd.hasAlpha = false := by unfold ImageHeader.hasAlpha; rw [ha]; rfl
  constructor
  · unfold pixelSize
    rw [hm.header, hna, if_neg (by decide), Nat.add_zero, ← sum_const]
    congr 1
    refine List.map_congr_left fun c hc => ?_
    have hc := List.mem_range.mp hc
    rw [List.getD_eq_getElem?_getD, hm.depth c (by omega)]
    unfold ImageHeader.depth
    rw [if_pos hc]
    rfl
  · unfold announcedMode
    rw [hm.space, (hm.noAlpha ha).1]
    unfold ImageHeader.colourCount
    by_cases hg : hd.colour.space = 1 <;> simp [hg, PNG.channels]

/-- If the samples have fewer than 8 bits, the rows have two bytes for each sample but the header announces one: the file is not a PNG
file of any picture. -/
theorem C34_low_depth_wrong_size (I : FloatImpl) (Z : Zlib) (curve : Nat → F32 → F32) (s : Bool) (hd : ImageHeader) (enc : Option (List UInt8))
    (buffers : List ImageBuffer) (img : JXLImage) (hnew : newJXLImage buffers hd enc = .ok img) (hl : buffers.length = hd.colourCount + hd.extra.length)
    (ha : hd.alphaIndices = []) (hh : 0 < img.height) (hw : 0 < img.width) (hbits : hd.bitDepth.bits < 8) (hhdr : img.isHDR = false)
    (file : List UInt8) (img' : JXLImage) (h : writePNG I Z curve s img = .ok (file, img')) :
    ∃ pre post rows, file = pre ++ emitChunk (PNG.name 'I' 'D' 'A' 'T' ++ Z.deflate 0 rows) ++ post ∧
      pre.take 33 = PNG.signature ++ PNG.header img.width img.height 8 (announcedMode img) ∧
      rows.length ≠ PNG.announced img.width img.height 8 (announcedMode img) := by
  have hm := newJXLImage_made hnew hl
  obtain ⟨hp, hc⟩ := plain_pixelSize hm hl ha
  obtain ⟨_, _, rows, hr, hf⟩ := C34_every_file I Z curve s img file img' h
  have hd8 : announcedDepth img = 8 := by
    unfold announcedDepth
    rw [hhdr, hm.header, if_neg (by decide), if_neg (by omega)]
  rw [hd8] at hf
  refine ⟨_, _, rows, hf, ?_, ?_⟩
  · rw [List.take_append_of_le_length (by simp [PNG.signature, PNG.header, PNG.chunk, PFM.bigEndian, PNG.name, PFM.text])]
    exact List.take_of_length_le (by simp [PNG.signature, PNG.header, PNG.chunk, PFM.bigEndian, PNG.name, PFM.text])
  · rw [hr]
    unfold PNG.announced
    refine row_size_inj hh hw ?_
    rw [hp, hc]
    unfold sampleSize
    rw [if_neg (by omega)]
    unfold ImageHeader.colourCount
    split <;> decide

/-- A picture of high dynamic range with 8 bits: the header announces 16 bits but the rows have one byte for each sample. -/
theorem C34_hdr_wrong_size (I : FloatImpl) (Z : Zlib) (curve : Nat → F32 → F32) (s : Bool) (hd : ImageHeader) (enc : Option (List UInt8))
    (buffers : List ImageBuffer) (img : JXLImage) (hnew : newJXLImage buffers hd enc = .ok img) (hl : buffers.length = hd.colourCount + hd.extra.length)
    (ha : hd.alphaIndices = []) (hh : 0 < img.height) (hw : 0 < img.width) (hbits : hd.bitDepth.bits = 8) (hhdr : img.isHDR = true)
    (file : List UInt8) (img' : JXLImage) (h : writePNG I Z curve s img = .ok (file, img')) :
    ∃ pre post rows, file = pre ++ emitChunk (PNG.name 'I' 'D' 'A' 'T' ++ Z.deflate 0 rows) ++ post ∧
      pre.take 33 = PNG.signature ++ PNG.header img.width img.height 16 (announcedMode img) ∧
      rows.length ≠ PNG.announced img.width img.height 16 (announcedMode img) := by
  have hm := newJXLImage_made hnew hl
  obtain ⟨hp, hc⟩ := plain_pixelSize hm hl ha
  obtain ⟨_, _, rows, hr, hf⟩ := C34_every_file I Z curve s img file img' h
  have hd8 : announcedDepth img = 16 := by
    unfold announcedDepth
    rw [hhdr, if_pos rfl]
  rw [hd8] at hf
  refine ⟨_, _, rows, hf, ?_, ?_⟩
  · rw [List.take_append_of_le_length (by simp [PNG.signature, PNG.header, PNG.chunk, PFM.bigEndian, PNG.name, PFM.text])]
    exact List.take_of_length_le (by simp [PNG.signature, PNG.header, PNG.chunk, PFM.bigEndian, PNG.name, PFM.text])
  · rw [hr]
    unfold PNG.announced
    refine row_size_inj hh hw ?_
    rw [hp, hc]
    unfold sampleSize
    rw [if_pos hbits]
    unfold ImageHeader.colourCount
    split <;> decide

/-- A picture of high dynamic range without a profile is written with an empty profile. -/
theorem C34_hdr_empty_profile (I : FloatImpl) (Z : Zlib) (curve : Nat → F32 → F32) (s : Bool) (img : JXLImage)
    (hhdr : img.isHDR = true) (hicc : img.icc = none) (file : List UInt8) (img' : JXLImage) (h : writePNG I Z curve s img = .ok (file, img')) :
    ∃ pre post, file = pre ++ emitChunk (PNG.name 'i' 'C' 'C' 'P' ++ PFM.text ['j', 'x', 'l', 'a', 't', 't', 'e'] ++ [0, 0] ++ Z.deflate 1 []) ++ post := by
  obtain ⟨_, _, rows, hr, hf⟩ := C34_every_file I Z curve s img file img' h
  rw [hhdr, hicc] at hf
  refine ⟨PNG.signature ++ PNG.header img.width img.height (announcedDepth img) (announcedMode img),
    emitChunk (PNG.name 'I' 'D' 'A' 'T' ++ Z.deflate 0 rows) ++ PNG.chunk (PNG.name 'I' 'E' 'N' 'D') [], hf.trans ?_⟩
  simp [writeICCP, bytesOf_text, PNG.name]

theorem srgb_not_p3 : priSRGB.matches priP3 = false := by decide +kernel
theorem srgb_not_bt2100 : priBT2100.matches priSRGB = false ∧ priBT2100.matches priP3 = false := by decide +kernel

/-- Not XYB-encoded and without a profile, of ordinary range, with a transfer function other than sRGB (BT.709, DCI or a gamma), or with the
primaries of P3: the writer crashes. -/
theorem C34_other_colours_crash (I : FloatImpl) (Z : Zlib) (curve : Nat → F32 → F32) (s : Bool) (hd : ImageHeader)
    (buffers : List ImageBuffer) (img : JXLImage) (hnew : newJXLImage buffers hd none = .ok img) (hl : buffers.length = hd.colourCount + hd.extra.length)
    (hx : hd.xyb = false) (ho : Ordinary hd.colour) (hc : hd.colour.tf ≠ tfSRGB ∨ hd.colour.primaries = 11) : writePNG I Z curve s img = .panic := by
  have hm := newJXLImage_made hnew hl
  have hhdr := ordinary_not_hdr hm ho
  have htr := hm.notXyb hx
  have hlin : linearize img = .panic := by
    unfold linearize
    rw [if_neg (by rw [htr]; exact ho.2.2.1)]
  have hicc : img.icc = none := by
    unfold newJXLImage at hnew
    dsimp only at hnew
    have key : ∀ alpha : Int, ((do
        let p ← imageProfile hd none
        let pre ← imagePremultiplied hd alpha
        let ds ← channelDepths hd (if hd.colour.space = 1 then 1 else 3) 0 buffers.length
        Res.ok (⟨buffers, p.2, ds, hd.colour.primXY, hd.colour.whiteXY, hd, hd.orientedSize.width, hd.orientedSize.height, hd.colour.space, alpha,
          hd.colour.primaries, hd.colour.whitePoint, p.1, hd.colour.tf, pre⟩ : JXLImage)) : Res JXLImage) = .ok img → img.icc = none := by
      intro alpha h
      obtain ⟨p, hp, h⟩ := Res.of_bind h
      obtain ⟨_, _, h⟩ := Res.of_bind h
      obtain ⟨_, _, h⟩ := Res.of_bind h
      injection h with h
      rw [← h]
      unfold imageProfile at hp
      rw [hx] at hp
      simp only [Bool.false_eq_true, if_false] at hp
      injection hp with hp
      rw [← hp]
    split at hnew
    · obtain ⟨a, _, hnew⟩ := Res.of_bind hnew
      exact key _ hnew
    · exact key _ hnew
  have hcol : toOutputColours curve img = .panic := by
    unfold toOutputColours
    rw [hicc, hhdr]
    simp only [Bool.false_eq_true, if_false]
    unfold transform
    split
    · next hmm =>
      unfold transferImage
      rw [if_neg, hlin]
      · rfl
      · rw [htr]
        rcases hc with hc | hc
        · exact fun h => hc h.symm
        · exfalso
          rw [hm.prim] at hmm
          have : hd.colour.primXY = priP3 := by unfold ColourEncoding.primXY; rw [hc]; rfl
          rw [this, srgb_not_p3] at hmm
          cases hmm
    · rw [hlin]; rfl
  unfold writePNG
  dsimp only
  rw [hcol]
  rfl

/-- A compressor that does not compress. -/
def Zlib.plain : Zlib := ⟨fun _ l => l, some, fun _ _ => rfl⟩

/-- An RGB header with the given depth and extra channels. -/
def pngHeader (bits : Nat) (extra : List ExtraChannel) (alpha : List Nat) : ImageHeader :=
  ⟨⟨1, 1⟩, 1, ⟨1, 1⟩, none, none, { BitDepth.dflt with bits := bits }, true, extra, alpha, false, ColourEncoding.dflt, ToneMapping.dflt, Extensions.none,
    none, none, none, none⟩

/-- An alpha channel. -/
def pngAlpha (bits : Nat) : ExtraChannel := ⟨[], 0, 0, 0, [], { BitDepth.dflt with bits := bits }, false⟩
/-- A depth channel. -/
def pngDepth : ExtraChannel := ⟨[], 1, 0, 0, [], BitDepth.dflt, false⟩
/-- A channel of one sample. -/
def onePixel (v : Int) : ImageBuffer := ⟨1, 1, 0, [], [[v]]⟩
/-- A processor. -/
def anyFloats : FloatImpl := ⟨false, fun _ => 0⟩

/-- The hypotheses of `C34_png_partial` are met by an RGB picture with alpha. -/
example : ∃ img, newJXLImage [onePixel 10, onePixel 20, onePixel 30, onePixel 40] (pngHeader 8 [pngAlpha 8] [0]) none = .ok img ∧
    (∀ b ∈ img.buffers, b.IntPicture 1 1) ∧ Ordinary (pngHeader 8 [pngAlpha 8] [0]).colour ∧
    ColourPath (fun _ v => v) img (pngHeader 8 [pngAlpha 8] [0]) id ∧
    ((pngHeader 8 [pngAlpha 8] [0]).colour.space ≠ 1 ∧ (pngHeader 8 [pngAlpha 8] [0]).alphaIndices.head? = some 0 ∧
      ((pngHeader 8 [pngAlpha 8] [0]).depth 3 = 8 ↔ (pngHeader 8 [pngAlpha 8] [0]).bitDepth.bits = 8) ∧
      ∀ e, (pngHeader 8 [pngAlpha 8] [0]).extra[0]? = some e → e.alphaAssociated = false) := by
  refine ⟨_, rfl, ?_, by unfold Ordinary; decide, .srgb rfl rfl rfl rfl rfl, by decide, rfl, by decide, ?_⟩
  · intro b hb
    simp only [List.mem_cons, List.not_mem_nil, or_false] at hb
    rcases hb with rfl | rfl | rfl | rfl <;> exact ⟨rfl, rfl, rfl, rfl, by simp [onePixel]⟩
  · intro e he
    injection he with he
    rw [← he]
    rfl

/-- The bytes `from, …, from + n - 1` of the file written for the given channels and header. -/
def pngBytes (buffers : List ImageBuffer) (hd : ImageHeader) (start n : Nat) : Res (List UInt8) := do
  let img ← newJXLImage buffers hd none
  let r ← writePNG anyFloats Zlib.plain (fun _ v => v) false img
  .ok ((r.1.drop start).take n)

/-- Its rows. -/
example : pngBytes [onePixel 10, onePixel 20, onePixel 30, onePixel 40] (pngHeader 8 [pngAlpha 8] [0]) 46 17 =
    .ok (PNG.chunk (PNG.name 'I' 'D' 'A' 'T') [0, 10, 20, 30, 40]) := by decide +kernel

/-- The alpha channel (40) is the second extra channel, but the first (a depth channel, 99) is written in its place. -/
theorem C34_alpha_elsewhere : pngBytes [onePixel 10, onePixel 20, onePixel 30, onePixel 99, onePixel 40] (pngHeader 8 [pngDepth, pngAlpha 8] [1]) 46 17 =
    .ok (PNG.chunk (PNG.name 'I' 'D' 'A' 'T') [0, 10, 20, 30, 99]) := by decide +kernel

/-- 8-bit colours with a 16-bit alpha channel: the row has two bytes for alpha, the header announces one. -/
theorem C34_alpha_depth_wrong_size :
    pngBytes [onePixel 10, onePixel 20, onePixel 30, onePixel 65535] (pngHeader 8 [pngAlpha 16] [0]) 0 33 = .ok (PNG.signature ++ PNG.header 1 1 8 6) ∧
    pngBytes [onePixel 10, onePixel 20, onePixel 30, onePixel 65535] (pngHeader 8 [pngAlpha 16] [0]) 46 18 =
      .ok (PNG.chunk (PNG.name 'I' 'D' 'A' 'T') [0, 10, 20, 30, 0, 255]) ∧ 6 ≠ PNG.announced 1 1 8 6 := by decide +kernel

/-- Four bits per sample: a case of `C34_low_depth_wrong_size`. -/
example : pngBytes [onePixel 1, onePixel 2, onePixel 15] (pngHeader 4 [] []) 46 19 =
    .ok (PNG.chunk (PNG.name 'I' 'D' 'A' 'T') [0, 0, 17, 0, 34, 0, 255]) := by decide +kernel

/-- Linear light: a case of `C34_hdr_wrong_size` and `C34_hdr_empty_profile`. -/
example : pngBytes [⟨1, 1, 1, [[.fin 0]], []⟩, ⟨1, 1, 1, [[.fin 0]], []⟩, ⟨1, 1, 1, [[.fin 1]], []⟩]
      { pngHeader 8 [] [] with colour := { ColourEncoding.dflt with tf := tfLinear, primaries := 9 } } 0 33 =
    .ok (PNG.signature ++ PNG.header 1 1 16 2) := by decide +kernel

/-- A BT.709 picture: a case of `C34_other_colours_crash`. -/
example : ∃ img, newJXLImage [onePixel 1, onePixel 2, onePixel 15] { pngHeader 8 [] [] with colour := { ColourEncoding.dflt with tf := 1 + 2 ^ 24 } } none = .ok img ∧
    Ordinary { ColourEncoding.dflt with tf := 1 + 2 ^ 24 } ∧ (1 + 2 ^ 24 : Nat) ≠ tfSRGB := ⟨_, rfl, by unfold Ordinary; decide, by decide⟩

/-- Cases of `C34_premultiplied_never_written` and `C34_gray_alpha_never_written`. -/
example : (∃ img, newJXLImage [onePixel 1, onePixel 2, onePixel 15, onePixel 8] (pngHeader 8 [{ pngAlpha 8 with alphaAssociated := true }] [0]) none = .ok img ∧
      img.premultiplied = true) ∧
    (∃ img, newJXLImage [onePixel 1, onePixel 2] { pngHeader 8 [pngAlpha 8] [0] with colour := { ColourEncoding.dflt with space := 1 } } none = .ok img ∧
      img.header.hasAlpha = true ∧ img.buffers.length ≤ 3) := ⟨⟨_, rfl, rfl⟩, ⟨_, rfl, rfl, by decide⟩⟩

end Jxl
