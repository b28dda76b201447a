import Verif.Proofs.Output
import Verif.Props.PFM

/-! # The fields of a decoded image and the chunks of a PNG file -/
namespace Jxl

theorem channelDepths_ok (h : ImageHeader) (n : Nat) : ∀ c, c + n ≤ h.colourCount + h.extra.length →
    ∃ ds, channelDepths h h.colourCount c n = .ok ds ∧ ds.length = n ∧ ∀ i, i < n → ds[i]? = some (h.depth (c + i)) := by
  induction n with
  | zero => intro c _; exact ⟨[], rfl, rfl, fun i hi => by omega⟩
  | succ n ih =>
    intro c hc
    obtain ⟨ds, e, l, s⟩ := ih (c + 1) (by omega)
    refine ⟨h.depth c :: ds, ?_, by simp [l], ?_⟩
    · unfold channelDepths ImageHeader.depth
      by_cases hcc : c < h.colourCount
      · simp only [hcc, if_true, Res.bind_ok, e]
      · have hi : idx h.extra ((c : Int) - h.colourCount) = .ok (h.extra[c - h.colourCount]'(by omega)) := by
          rw [show (c : Int) - h.colourCount = ((c - h.colourCount : Nat) : Int) by omega]
          exact idx_some (List.getElem?_eq_getElem _)
        simp only [hcc, if_false, hi, Res.bind_ok, e, List.getElem?_eq_getElem (show c - h.colourCount < h.extra.length by omega), Option.map_some,
          Option.getD_some]
    · intro i hi
      cases i with
      | zero => simp
      | succ i =>
        have := s i (by omega)
        simp only [List.getElem?_cons_succ, this]
        congr 2
        omega

/-- The fields of the image made of a header and channels. -/
structure Made (img : JXLImage) (buffers : List ImageBuffer) (h : ImageHeader) : Prop where
  bufs : img.buffers = buffers
  header : img.header = h
  width : img.width = h.orientedSize.width
  height : img.height = h.orientedSize.height
  space : img.colourEncoding = h.colour.space
  tagged : img.taggedTransfer = h.colour.tf
  prim : img.prim = h.colour.primXY
  white : img.white = h.colour.whiteXY
  depths : img.bitDepths.length = buffers.length
  depth : ∀ c, c < buffers.length → img.bitDepths[c]? = some (h.depth c)
  xyb : h.xyb = true → img.transfer = tfLinear ∧ img.icc = none
  notXyb : h.xyb = false → img.transfer = h.colour.tf
  noAlpha : h.alphaIndices = [] → img.alphaIndex = -1 ∧ img.premultiplied = false
  alpha : ∀ a as, h.alphaIndices = a :: as → img.alphaIndex = a ∧ ∃ e, h.extra[a]? = some e ∧ img.premultiplied = e.alphaAssociated

theorem newJXLImage_made {buffers : List ImageBuffer} {h : ImageHeader} {enc : Option (List UInt8)} {img : JXLImage}
    (hn : newJXLImage buffers h enc = .ok img) (hl : buffers.length = h.colourCount + h.extra.length) : Made img buffers h := by
  have hcol : (if h.colour.space = 1 then 1 else 3) = h.colourCount := rfl
  obtain ⟨ds, ed, ld, sd⟩ := channelDepths_ok h buffers.length 0 (by omega)
  unfold newJXLImage at hn
  rw [hcol, ed] at hn
  have hfin : ∀ (alpha : Int) (p : Nat × Option (List Nat)) (pre : Bool), imageProfile h enc = .ok p →
      img = ⟨buffers, p.2, ds, h.colour.primXY, h.colour.whiteXY, h, h.orientedSize.width, h.orientedSize.height, h.colour.space, alpha,
        h.colour.primaries, h.colour.whitePoint, p.1, h.colour.tf, pre⟩ →
      (h.alphaIndices = [] → alpha = -1 ∧ pre = false) →
      (∀ a as, h.alphaIndices = a :: as → alpha = a ∧ ∃ e, h.extra[a]? = some e ∧ pre = e.alphaAssociated) → Made img buffers h := by
    intro alpha p pre hp hi ha1 ha2
    subst hi
    refine ⟨rfl, rfl, rfl, rfl, rfl, rfl, rfl, rfl, ld, fun c hc => by simpa using sd c hc, fun hx => ?_, fun hx => ?_, ha1, ha2⟩
    · unfold imageProfile at hp
      rw [if_pos hx] at hp
      injection hp with hp
      rw [← hp]
      exact ⟨rfl, rfl⟩
    · unfold imageProfile at hp
      rw [if_neg (by simp [hx])] at hp
      cases enc with
      | none => injection hp with hp; rw [← hp]
      | some e =>
        simp only at hp
        cases hg : getDecodedICC e with
        | ok q => rw [hg, Res.bind_ok] at hp; injection hp with hp; rw [← hp]
        | err => rw [hg] at hp; simp at hp
        | panic => rw [hg] at hp; simp at hp
  cases hal : h.alphaIndices with
  | nil =>
    have hha : h.hasAlpha = false := by unfold ImageHeader.hasAlpha; rw [hal]; rfl
    rw [hha, if_neg (by decide), Res.bind_ok] at hn
    cases hp : imageProfile h enc with
    | err => rw [hp] at hn; simp at hn
    | panic => rw [hp] at hn; simp at hn
    | ok p =>
      have hpm : ∀ a, imagePremultiplied h a = .ok false := by
        intro a
        unfold imagePremultiplied
        rw [hha, if_neg (by decide)]
      simp only [hp, Res.bind_ok, hpm] at hn
      injection hn with hn
      exact hfin (-1) p false hp hn.symm (fun _ => ⟨rfl, rfl⟩) (fun a as h => by rw [hal] at h; cases h)
  | cons a as =>
    have hha : h.hasAlpha = true := by unfold ImageHeader.hasAlpha; rw [hal]; simp
    have hi0 : idx h.alphaIndices 0 = .ok a := by rw [hal]; rfl
    rw [hha, if_pos rfl, hi0, Res.bind_ok, Res.bind_ok] at hn
    cases hp : imageProfile h enc with
    | err => rw [hp] at hn; simp at hn
    | panic => rw [hp] at hn; simp at hn
    | ok p =>
      simp only [hp, Res.bind_ok] at hn
      unfold imagePremultiplied at hn
      rw [hha, if_pos rfl] at hn
      cases he : h.extra[a]? with
      | none =>
        have : idx h.extra (a : Int) = .panic := by
          unfold idx
          rw [if_neg (by omega), Int.toNat_natCast, he]
        rw [this] at hn
        simp at hn
      | some e =>
        simp only [idx_some he, Res.bind_ok] at hn
        injection hn with hn
        refine hfin a p e.alphaAssociated hp hn.symm (fun h => by rw [hal] at h; cases h) (fun a' as' h => ?_)
        rw [hal] at h
        injection h with h1 h2
        subst h1
        exact ⟨rfl, e, he, rfl⟩

theorem sub_self_fin (q : ℚ) : F32.sub (.fin q) (.fin q) = .fin 0 := by
  unfold F32.sub F32.neg F32.add
  simp only
  rw [show q + -q = 0 by ring, F32.round_fin 0 (by norm_num), F32.near_zero]

theorem matches_self {a : CIEXY} {p q : ℚ} (hx : a.x = .fin p) (hy : a.y = .fin q) : a.matches a = true := by
  unfold CIEXY.matches F32.dist
  rw [hx, hy, sub_self_fin, sub_self_fin]
  simp

theorem cieXY_self {x y : ℚ} (hx : |x| ≤ 1) (hy : |y| ≤ 1) : (cieXY x y).matches (cieXY x y) = true := by
  have h : (1 : ℚ) ≤ 2 ^ 100 := by norm_num
  exact matches_self (F32.round_fin x (le_trans hx h)) (F32.round_fin y (le_trans hy h))

theorem srgb_self : priSRGB.matches priSRGB = true := by
  unfold CIEPrimaries.matches priSRGB
  simp only [Bool.and_eq_true]
  refine ⟨⟨?_, ?_⟩, ?_⟩ <;> apply cieXY_self <;> norm_num [abs_le]

theorem p3_self : priP3.matches priP3 = true := by
  unfold CIEPrimaries.matches priP3
  simp only [Bool.and_eq_true]
  refine ⟨⟨?_, ?_⟩, ?_⟩ <;> apply cieXY_self <;> norm_num [abs_le]

theorem d65_self : wpD65.matches wpD65 = true := by
  apply cieXY_self <;> norm_num [abs_le]

theorem ordinary_not_hdr {img : JXLImage} {buffers : List ImageBuffer} {h : ImageHeader} (hm : Made img buffers h) (ho : Ordinary h.colour) :
    img.isHDR = false := by
  obtain ⟨h1, h2, h3, h4⟩ := ho
  unfold JXLImage.isHDR
  rw [hm.tagged, if_neg (by simp [h1, h2, h3]), hm.header]
  unfold ColourEncoding.primXY
  rcases h4 with h4 | h4
  · rw [h4, if_neg (by decide), if_neg (by decide), if_neg (by decide), srgb_self]
    rfl
  · rw [h4, if_neg (by decide), if_neg (by decide), if_pos rfl, p3_self]
    simp

theorem Recoloured.picture {f : F32 → F32} {b b' : ImageBuffer} {h w : Nat} (hp : b.IntPicture h w) (hr : Recoloured f b b') : b'.IntPicture h w := by
  obtain ⟨h1, h2, h3, h4, _⟩ := hr
  exact ⟨h1.trans hp.1, h3.trans hp.2.1, h2.trans hp.2.2.1, by rw [h4]; exact hp.2.2.2⟩

theorem outputColours_ok {curve : Nat → F32 → F32} {img : JXLImage} {buffers : List ImageBuffer} {hd : ImageHeader} {h w : Nat} {f : F32 → F32}
    (hm : Made img buffers hd) (ho : Ordinary hd.colour) (hl : buffers.length = hd.colourCount + hd.extra.length)
    (hh : hd.orientedSize.height = h) (hw : hd.orientedSize.width = w) (hp : ∀ b ∈ buffers, b.Picture h w) (hc : ColourPath curve img hd f) :
    ∃ bs, toOutputColours curve img = .ok { img with buffers := bs } ∧ bs.length = buffers.length ∧ (∀ b ∈ bs, b.Picture h w) ∧
      ∀ (c : Nat) (b : ImageBuffer), buffers[c]? = some b → ∃ b', bs[c]? = some b' ∧ Recoloured (if c < hd.colourCount then f else id) b b' := by
  have hid : toOutputColours curve img = .ok img → f = id →
    ∃ bs, toOutputColours curve img = .ok { img with buffers := bs } ∧ bs.length = buffers.length ∧ (∀ b ∈ bs, b.Picture h w) ∧
      ∀ (c : Nat) (b : ImageBuffer), buffers[c]? = some b → ∃ b', bs[c]? = some b' ∧ Recoloured (if c < hd.colourCount then f else id) b b' := by
    intro he hf
    refine ⟨buffers, by rw [he, ← hm.bufs], rfl, hp, fun c b hb => ⟨b, hb, ?_⟩⟩
    rw [hf, ite_self]
    exact Recoloured.refl b
  cases hc with
  | profile p hi =>
    refine hid ?_ rfl
    unfold toOutputColours
    rw [hi]
  | srgb hi hx ht hpr hwp =>
    refine hid ?_ rfl
    unfold toOutputColours
    rw [hi]
    simp only [ordinary_not_hdr hm ho, Bool.false_eq_true, if_false]
    unfold transform transferImage
    have hpe : img.prim = priSRGB := by rw [hm.prim]; unfold ColourEncoding.primXY; rw [hpr]; rfl
    have hwe : img.white = wpD65 := by rw [hm.white]; unfold ColourEncoding.whiteXY; rw [hwp]; rfl
    rw [hpe, hwe, srgb_self, d65_self, Bool.and_self, if_pos rfl, hm.notXyb hx, ht, if_pos rfl]
  | xyb hx hfl =>
    obtain ⟨htr, hicc⟩ := hm.xyb hx
    have hcount : hd.colourCount = if img.colourEncoding = 1 then 1 else 3 := by rw [hm.space]; rfl
    have hbuf := hm.bufs
    obtain ⟨bs, e, l, s⟩ := transferInPlace_ok (curve tfSRGB) img hd.colourCount hcount (by rw [hbuf]; omega) (by rw [hm.depths, hbuf])
      (fun c b hc hb => by
        have ht := hfl c b hc hb
        rw [hbuf] at hb
        rcases hp b (List.mem_of_getElem? hb) with hq | hq
        · rw [hq.1] at ht; cases ht
        · rw [hm.height, hm.width, hh, hw]; exact hq)
    have htf : transferImage curve img tfSRGB = transferInPlace (curve tfSRGB) img := by
      unfold transferImage
      rw [htr, if_neg (by decide)]
      unfold linearize
      rw [if_pos htr, Res.bind_ok]
      unfold peakScale
      rw [if_neg (by rw [hm.tagged]; simp [ho.1]), Res.bind_ok]
      rfl
    refine ⟨bs, ?_, by rw [l, hbuf], ?_, ?_⟩
    · unfold toOutputColours
      rw [hicc]
      simp only [ordinary_not_hdr hm ho, Bool.false_eq_true, if_false]
      unfold transform
      split
      · rw [htf, e, hicc]
      · unfold linearize
        rw [if_pos htr, Res.bind_ok, htf, e, hicc]
    · intro b hb
      obtain ⟨c, hcl, hcb⟩ := List.getElem_of_mem hb
      have hcl' : c < img.buffers.length := by omega
      obtain ⟨b', hb1, hb2, hb3⟩ := s c _ (List.getElem?_eq_getElem hcl')
      rw [List.getElem?_eq_getElem hcl, hcb] at hb1
      injection hb1 with hb1
      subst hb1
      by_cases hlt : c < hd.colourCount
      · have := (hb2 hlt).1
        rw [hm.height, hm.width, hh, hw] at this
        exact Or.inr this
      · rw [hb3 (by omega)]
        apply hp
        rw [← hbuf]
        exact List.getElem_mem hcl'
    · intro c b hb
      rw [← hbuf] at hb
      obtain ⟨b', hb1, hb2, hb3⟩ := s c b hb
      refine ⟨b', hb1, ?_⟩
      by_cases hlt : c < hd.colourCount
      · rw [if_pos hlt]; exact (hb2 hlt).2
      · rw [if_neg hlt, hb3 (by omega)]
        exact Recoloured.refl b

/-! ## Chunks -/

theorem bytesOf_text (l : List Char) : bytesOf l = PFM.text l := rfl

theorem emitChunk_ok (a b c d : Char) (data : List UInt8) (h : data.length < 2 ^ 31) :
    emitChunk (bytesOf [a, b, c, d] ++ data) = PNG.chunk (PNG.name a b c d) data := by
  have e : u32 (u32 (bytesOf [a, b, c, d] ++ data).length + 4294967296 - 4) = data.length := by
    unfold u32 bytesOf
    simp only [List.length_append, List.length_map, List.length_cons, List.length_nil]
    omega
  unfold emitChunk PNG.chunk PNG.name
  rw [e, putU32_bigEndian, putU32_bigEndian]
  simp only [bytesOf_text, List.append_assoc]

theorem ihdr_ok (w h B md : Nat) : writeIHDR w h B md = PNG.header w h B md := by
  unfold writeIHDR PNG.header PNG.chunk PNG.name
  simp only [putU32_bigEndian, bytesOf_text, List.append_assoc]
  rfl

theorem srgb_ok (i : Nat) : writeSRGB i = PNG.chunk (PNG.name 's' 'R' 'G' 'B') [UInt8.ofNat i] := by
  unfold writeSRGB PNG.chunk PNG.name
  simp only [putU32_bigEndian, bytesOf_text, List.append_assoc]
  rfl

theorem iend_ok : [0, 0, 0, 0] ++ [0x49, 0x45, 0x4E, 0x44] ++ [0xAE, 0x42, 0x60, 0x82] = PNG.chunk (PNG.name 'I' 'E' 'N' 'D') [] := by
  decide +kernel

theorem scanlines_length (p : PNG.Picture) (hd : p.depth = 8 ∨ p.depth = 16) (hc : p.planes.length = PNG.channels p.mode) :
    (PNG.scanlines p).length = PNG.announced p.width p.height p.depth p.mode := by
  have flat : ∀ {α : Type} (l : List α) (f : α → List UInt8) (m : Nat), (∀ a, (f a).length = m) → (l.flatMap f).length = l.length * m := by
    intro α l f m hf
    induction l with
    | nil => simp
    | cons a l ih => simp [ih, hf, Nat.add_mul, Nat.add_comm]
  have hb : ∀ v, (PNG.bytes p.depth v).length = p.depth / 8 := by
    intro v
    unfold PNG.bytes
    rcases hd with h | h <;> rw [h] <;> rfl
  unfold PNG.scanlines PNG.announced
  rw [flat _ _ (1 + p.width * (PNG.channels p.mode * (p.depth / 8))) (fun y => by
    rw [List.length_cons, flat _ _ (PNG.channels p.mode * (p.depth / 8)) (fun x => by
      rw [flat _ _ (p.depth / 8) (fun m => hb _), hc])]
    simp [Nat.add_comm])]
  simp

end Jxl
