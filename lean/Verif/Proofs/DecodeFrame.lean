import Verif.Proofs.Decode

/-! # Decoding of files: frames -/
namespace Jxl
open Spec

/-- What every value that is found satisfies. -/
def Yields {α : Type} (d : Dec α) (P : α → Prop) : Prop := ∀ l a r, d l = some (a, r) → P a

theorem Yields.bind {α β : Type} {m : Dec α} {f : α → Dec β} {P : α → Prop} {Q : β → Prop} (h : Yields m P) (hf : ∀ a, P a → Yields (f a) Q) : Yields (m >>= f) Q := by
  intro l b r e
  obtain ⟨a, l', e1, e2⟩ := Dec.of_bind e
  exact hf a (h _ _ _ e1) _ _ _ e2

theorem Yields.any {α : Type} (d : Dec α) : Yields d (fun _ => True) := fun _ _ _ _ => trivial

theorem Yields.skip {α β : Type} {m : Dec α} {f : α → Dec β} {Q : β → Prop} (hf : ∀ a, Yields (f a) Q) : Yields (m >>= f) Q :=
  Yields.bind (Yields.any m) (fun a _ => hf a)

theorem Yields.pure {α : Type} {a : α} {P : α → Prop} (h : P a) : Yields (Pure.pure a : Dec α) P := by
  intro l b r e
  rw [Dec.pure_eq] at e
  cases e
  exact h

theorem Yields.if {α : Type} {c : Bool} {m : Dec α} {d : α} {P : α → Prop} (h : c = true → Yields m P) (hd : c = false → P d) : Yields (decIf c m d) P := by
  cases c with
  | false => exact Yields.pure (hd rfl)
  | true => exact h rfl

theorem Yields.check {α : Type} {c : Bool} {a : α} {P : α → Prop} (h : c = true → P a) : Yields (decCheck c a) P := by
  cases c with
  | false => intro l b r e; cases e
  | true => exact Yields.pure (h rfl)

theorem Yields.bits (n : Nat) : Yields (decBits n) (fun v => v < 2 ^ n) := fun _ _ _ e => decBits_lt e

theorem Yields.list {α : Type} {m : Dec α} {P : α → Prop} (h : Yields m P) : ∀ n, Yields (decList m n) (fun l => l.length = n ∧ ∀ a ∈ l, P a)
  | 0 => Yields.pure ⟨rfl, by simp⟩
  | n + 1 => Yields.bind h (fun a ha => Yields.bind (h.list n) (fun l hl => Yields.pure ⟨by simp [hl.1], by simpa using ⟨ha, hl.2⟩⟩))

/-- What blending information satisfies. -/
def StatedBlending (b : Blending) : Prop := b.mode ≤ 4 ∧ (b.mode ≠ 2 ∧ b.mode ≠ 3 → b.alpha = 0) ∧ b.source < 4

theorem yields_blending (extra part : Bool) : Yields (decBlending extra part) StatedBlending := by
  unfold decBlending
  refine Yields.skip (fun mode => Yields.bind (P := fun m => m ≤ 4) (Yields.check (fun hm => by simpa using hm)) (fun mode hmode => ?_))
  refine Yields.bind (P := fun a => mode ≠ 2 ∧ mode ≠ 3 → a = 0) (Yields.if (fun hc => ?_) (fun _ _ => rfl)) (fun alpha ha => Yields.skip (fun clamp => ?_))
  · intro l a r _ hm
    simp at hc
    omega
  · refine Yields.bind (P := fun v => v < 4) (Yields.if (fun _ => Yields.bits 2) (fun _ => by decide)) (fun source hs => Yields.pure ?_)
    exact ⟨hmode, ha, hs⟩

/-- What the header of a regular modular frame satisfies. -/
structure RegularHeader (nec : Nat) (f : FrameHeader) : Prop where
  passes : ∃ bits r, decPasses bits = some (f.passes, r)
  lfLevel : f.lfLevel = 0
  save : f.saveAsReference < 4
  blending : StatedBlending f.blending
  ecBlending : f.ecBlending.length = nec ∧ ∀ b ∈ f.ecBlending, StatedBlending b
  ecUpsampling : f.ecUpsampling.length = nec

theorem yields_frameHeader (most : Nat) (mulBare xyb : Bool) (nec : Nat) (image : Dim) :
    Yields (decFrameHeader most mulBare xyb nec image) (fun f => f.encoding = 1 → f.frameType = 0 ∨ f.frameType = 3 → RegularHeader nec f) := by
  unfold decFrameHeader
  refine Yields.skip (fun allDefault => ?_)
  dsimp only
  refine Yields.skip (fun frameType => ?_)
  refine Yields.bind (P := fun e => allDefault = true → e = 0) (Yields.if (fun hc _ => ?_) (fun _ _ => rfl)) (fun encoding he => ?_)
  · intro a r _ h
    rw [h] at hc
    cases hc
  refine Yields.skip (fun flags => Yields.skip (fun ycbcr => ?_))
  refine Yields.skip (fun modes => Yields.skip (fun upsampling => ?_))
  refine Yields.bind (P := fun l => l.length = nec) (Yields.if (fun _ => fun _ _ _ e => decList_length e) (fun _ => List.length_replicate)) (fun ecUps hu => ?_)
  refine Yields.skip (fun gss => ?_)
  refine Yields.skip (fun xqm => Yields.skip (fun bqm => ?_))
  refine Yields.bind (P := fun p => encoding = 1 → frameType ≠ 2 → ∃ bits r, decPasses bits = some (p, r)) (Yields.if (fun _ => fun l a r e _ _ => ⟨l, r, e⟩) ?_) (fun passes hp => ?_)
  · intro hc h1 h2
    exfalso
    cases allDefault with
    | true => rw [he rfl] at h1; cases h1
    | false => simp [h2] at hc
  refine Yields.bind (P := fun v => frameType ≠ 1 → v = 0) (Yields.if (fun hc l a r _ h => ?_) (fun _ _ => rfl)) (fun lfLevel hl => ?_)
  · simp [h] at hc
  refine Yields.skip (fun crop => Yields.skip (fun x0 => Yields.skip (fun y0 => Yields.skip (fun size => ?_))))
  refine Yields.bind (P := StatedBlending) (Yields.if (fun _ => Yields.bind (yields_blending _ _) (fun b hb => Yields.check (fun _ => hb))) (fun _ => ⟨by decide, fun _ => rfl, by decide⟩)) (fun blending hb => ?_)
  refine Yields.bind (P := fun l => l.length = nec ∧ ∀ b ∈ l, StatedBlending b) (Yields.if (fun _ => Yields.list (yields_blending _ _) nec) (fun _ => ⟨List.length_replicate, fun b hb => ?_⟩))
    (fun ecBlending heb => ?_)
  · rw [List.eq_of_mem_replicate hb]
    exact ⟨by decide, fun _ => rfl, by decide⟩
  refine Yields.skip (fun isLast => ?_)
  refine Yields.bind (P := fun v => v < 4) (Yields.if (fun _ => Yields.bits 2) (fun _ => by decide)) (fun save hs => ?_)
  refine Yields.skip (fun before => Yields.skip (fun name => Yields.skip (fun filters => Yields.skip (fun ext => Yields.pure ?_))))
  intro h1 h2
  dsimp only at h1 h2 ⊢
  exact ⟨hp h1 (by omega), hl (by omega), hs, hb, heb, hu⟩

theorem OnOk.skip {α β : Type} {m : Rd α} {f : α → Rd β} {Q : β → Prop} (hf : ∀ a, OnOk (f a) Q) : OnOk (m >>= f) Q :=
  OnOk.bind (OnOk.trivial m) (fun a _ => hf a)

theorem OnOk.if {α : Type} {c : Bool} {m : Rd α} {d : α} {P : α → Prop} (h : c = true → OnOk m P) (hd : c = false → P d) : OnOk (readIf c m d) P := by
  cases c with
  | false => exact OnOk.pure (hd rfl)
  | true => exact h rfl

theorem onOk_passes : OnOk readPasses (fun p => p ≠ Passes.dflt) := by
  unfold readPasses
  refine OnOk.skip (fun np => OnOk.skip (fun nds => OnOk.skip (fun sh => OnOk.skip (fun ds => OnOk.skip (fun lp => OnOk.pure ?_)))))
  intro h
  injection h with _ _ h _ _
  simp at h

theorem onOk_frameHeader (xyb : Bool) (nec : Nat) (image : Dim) :
    OnOk (readFrameHeader xyb nec image) (fun f => f.encoding = 1 → f.frameType ≠ 2 → f.passes ≠ Passes.dflt) := by
  unfold readFrameHeader
  refine OnOk.skip (fun allDefault => ?_)
  refine OnOk.bind (P := fun k => allDefault = true → k.2.1 = 0) (OnOk.if (fun hc s a s' _ h => ?_) (fun _ _ => rfl)) (fun k he => ?_)
  · rw [h] at hc
    cases hc
  dsimp only
  refine OnOk.skip (fun ycbcr => OnOk.skip (fun modes => OnOk.skip (fun ups => OnOk.skip (fun gss => OnOk.skip (fun qm => ?_)))))
  refine OnOk.bind (P := fun p => k.2.1 = 1 → k.1 ≠ 2 → p ≠ Passes.dflt) (OnOk.if (fun _ => fun s a s' e _ _ => onOk_passes s a s' e) ?_) (fun passes hp => ?_)
  · intro hc h1 h2
    exfalso
    cases allDefault with
    | true => rw [he rfl] at h1; cases h1
    | false => simp [h2] at hc
  refine OnOk.skip (fun lfLevel => OnOk.skip (fun crop => OnOk.skip (fun origin => OnOk.skip (fun size => OnOk.skip (fun h1 => OnOk.skip (fun w1 => ?_))))))
  refine OnOk.skip (fun bl => OnOk.skip (fun isLast => OnOk.skip (fun save => OnOk.skip (fun before => OnOk.skip (fun name => OnOk.skip (fun rf => OnOk.skip (fun ext => ?_)))))))
  refine OnOk.skip (fun h2 => OnOk.skip (fun w2 => OnOk.pure ?_))
  exact hp

/-- The header of a regular modular frame is read. -/
theorem frameHeader_ok {h : ImageHeader} {f : FrameHeader} {data : List UInt8} {p q : Nat} (hw : 0 < h.size.width ∧ h.size.width < 2 ^ 30)
    (hh : 0 < h.size.height ∧ h.size.height < 2 ^ 30) (hd : DecAt (decFrameHeader 0 false h.xyb h.extra.length h.size) data p q f) (he : f.encoding = 1)
    (ht : f.frameType ≠ 2) {s : BR} (hs : AtBit s p) (hdata : s.data = data) :
    ∃ s', readFrameHeader h.xyb h.extra.length h.size s = (.ok f, s') ∧ AtBit s' q ∧ s'.data = data := by
  obtain ⟨s', e, a, d⟩ := (C59_header_partial h.xyb h.extra.length h.size hw.1 (Nat.le_of_lt hw.2) hh.1 (Nat.le_of_lt hh.2)).at hd hs hdata
  refine ⟨s', ?_, a, d⟩
  obtain ⟨g, s1, e1, e2⟩ := Rd.of_bind e
  rw [Rd.pure_eq] at e2
  injection e2 with e2 e3
  injection e2 with e2
  subst e3
  have hg : g.encoding = 1 ∧ g.frameType ≠ 2 := by
    rw [← e2] at he ht
    unfold FrameHeader.completed at he ht
    split at he
    · rw [if_pos (by assumption)] at ht
      exact ⟨he, ht⟩
    · rw [if_neg (by assumption)] at ht
      exact ⟨he, ht⟩
  have hn := onOk_frameHeader _ _ _ _ _ _ e1 hg.1 hg.2
  unfold FrameHeader.completed at e2
  rw [if_neg (show ¬ g.passes = ⟨1, 0, [], [], []⟩ from hn)] at e2
  rw [e1, e2]

theorem sectionCount_toc {f : FrameHeader} (hs : 18 + 3 * numLFGroupsOf f + numGroupsOf f * f.passes.numPasses < 2 ^ 32) :
    tocEntries (numGroupsOf f) (numLFGroupsOf f) f.passes.numPasses = sectionCount f := by
  unfold tocEntries sectionCount
  split
  · rfl
  · unfold u32
    rw [Nat.mod_eq_of_lt (by omega), Nat.mul_comm]
    omega

theorem yields_lengths : ∀ n, Yields (decLengths n) (fun l => l.length = n)
  | 0 => Yields.pure rfl
  | n + 1 => Yields.skip (fun a => Yields.bind (yields_lengths n) (fun l hl => Yields.pure (by simp [hl])))

/-- The table of contents of a frame is read. -/
theorem toc_ok {f : FrameHeader} (hst : 18 + 3 * numLFGroupsOf f + numGroupsOf f * f.passes.numPasses < 2 ^ 32) {data : List UInt8} {p q : Nat} {lengths : List Nat}
    (hb : DecAt decBool data p (p + 1) false) (hl : DecAt (decLengths (sectionCount f)) data (8 * nextByte (p + 1)) q lengths) {s : BR} (hs : AtBit s p)
    (hdata : s.data = data) :
    ∃ s', readTOC (numGroupsOf f) (numLFGroupsOf f) f.passes.numPasses s = (.ok ⟨none, lengths⟩, s') ∧ AtBit s' (8 * nextByte q) ∧ s'.data = data := by
  subst hdata
  have hbit : [false] <+: bitsFrom s.data p := by
    have h2 := hb.2
    unfold decBool at h2
    split at h2
    · rename_i b r e
      injection h2 with h2
      injection h2 with h2 h3
      rw [e, h2]
      exact ⟨r, rfl⟩
    · cases h2
  have := C18_toc (numGroupsOf f) (numLFGroupsOf f) f.passes.numPasses s p hs hbit
  rw [sectionCount_toc hst, show 8 * ((p + 8) / 8) = 8 * nextByte (p + 1) from rfl, hl.2] at this
  obtain ⟨s', q', e, r, a, d⟩ := this
  have hle := a.le
  rw [d] at hle
  have hq : q = q' := bitsFrom_inj hl.1 (by omega) r
  subst hq
  exact ⟨s', e, a, d⟩

/-- A frame is decoded to the picture that it codes. -/
theorem frameData_ok (P : FrameParts) (I : FloatImpl) {h : ImageHeader} {f : FrameHeader} {v : Pic} (hL : CodedSheet h f v) (hr : RegularHeader h.extra.length f) {l : Layout}
    (hl : frameLayout f = .ok l) {lengths : List Nat} (hlen : lengths.length = sectionCount f) {data : List UInt8} {k k' : Nat} (hS : SectionsCode h f lengths data k k' v)
    {s : BR} (hs : AtBit s (8 * k)) (hdata : s.data = data) :
    ∃ out s' q, decodeFrame P I h f l ⟨none, lengths⟩ s = (.ok out, s') ∧ ShowsPicture (channelCount h) f.size v out ∧ AtBit s' q ∧ nextByte q = k' ∧ s'.data = data := by
  obtain ⟨deq, tree, hd, m, enc, hS⟩ := hS
  by_cases h1 : sectionCount f = 1
  · rw [if_pos h1] at hS
    obtain ⟨q, hG, hall, rfl⟩ := hS
    obtain ⟨out, s', e, e2, e3, e4⟩ := C84_single_partial P I hL.plain hL.samples hL.groups hl (Or.inr ⟨hr.passes, hL.passes⟩) (toc := ⟨none, lengths⟩) (by rw [← h1]; exact hlen) hG hall hs hdata
    exact ⟨out, s', q, e, e2, e3, rfl, e4⟩
  · rw [if_neg h1] at hS
    obtain ⟨hA, rfl, hk, hb⟩ := hS
    obtain ⟨out, s', e, e2, e3, e4⟩ := C84_frame_partial P I hL.plain hL.samples hL.groups hl hL.streams ⟨hr.passes, hL.passes⟩ (toc := ⟨none, lengths⟩) rfl (by
      show lengths.length = _
      rw [hlen]
      unfold sectionCount at h1 ⊢
      rw [if_neg (by intro hx; rw [if_pos hx] at h1; exact h1 rfl)]
      rfl) (k := k) hk hb hA hs hdata
    exact ⟨out, s', _, e, e2, e3, by unfold nextByte; dsimp only; omega, e4⟩

/-- The header and the table of contents of a frame are read, whatever the sections are. -/
theorem front_core {h : ImageHeader} (hw : 0 < h.size.width ∧ h.size.width < 2 ^ 30) (hh : 0 < h.size.height ∧ h.size.height < 2 ^ 30) {f : FrameHeader} (hfr : Framed f)
    (hmod : f.encoding = 1) (hreg : f.frameType = 0 ∨ f.frameType = 3) (hno : f.flags.testBit 5 = false) (hgr : numGroupsOf f < 2 ^ 31)
    (hst : 18 + 3 * numLFGroupsOf f + numGroupsOf f * f.passes.numPasses < 2 ^ 32) {data : List UInt8} {k p q : Nat} {lengths : List Nat}
    (h1 : DecAt (decFrameHeader 0 false h.xyb h.extra.length h.size) data (8 * k) p f) (h2 : DecAt decBool data p (p + 1) false)
    (h3 : DecAt (decLengths (sectionCount f)) data (8 * nextByte (p + 1)) q lengths) {lf : List (Option (List ImageBuffer))} (hlf : lf.length = 5) {s : BR} {p0 : Nat}
    (hs : AtBit s p0) (hp0 : nextByte p0 = k) (hdata : s.data = data) :
    RegularHeader h.extra.length f ∧ ∃ l b s', readFrameFront h lf s = (.ok (f, l, b, ⟨none, lengths⟩), s') ∧ frameLayout f = .ok l ∧
      lengths.length = sectionCount f ∧ AtBit s' (8 * nextByte q) ∧ s'.data = data := by
  have hr : RegularHeader h.extra.length f := yields_frameHeader 0 false h.xyb h.extra.length h.size _ _ _ h1.2 hmod hreg
  obtain ⟨s1, e1, a1, d1⟩ := zeroPad_spec s p0 hs
  rw [show 8 * ((p0 + 7) / 8) = 8 * k by rw [← hp0]; rfl] at a1
  obtain ⟨s2, e2, a2, d2⟩ := frameHeader_ok hw hh h1 hmod (by omega) a1 (d1.trans hdata)
  obtain ⟨l, hl, n1, n2⟩ : ∃ l, frameLayout f = .ok l ∧ l.numGroups = numGroupsOf f ∧ l.numLFGroups = numLFGroupsOf f :=
    ⟨_, layout_ok hfr hgr, rfl, rfl⟩
  obtain ⟨s3, e3, a3, d3⟩ := toc_ok hst h2 h3 a2 d2
  have hlen : lengths.length = sectionCount f := yields_lengths _ _ _ _ h3.2
  obtain ⟨b, hb⟩ : ∃ b, lf[0]? = some b := ⟨_, List.getElem?_eq_getElem (by omega)⟩
  refine ⟨hr, l, b, s3, ?_, hl, hlen, a3, d3⟩
  have es : readFrameStart h s = (.ok (f, l), s2) := by
    unfold readFrameStart
    rw [Rd.bind_ok e1, Rd.bind_ok e2, Rd.bind_ok (lift_ok hl s2)]
    rfl
  unfold readFrameFront
  rw [Rd.bind_ok es, Rd.bind_ok (lift_ok (show idx lf ((f.lfLevel : Nat) : Int) = .ok b by rw [hr.lfLevel]; exact idx_of_getElem? _ _ _ hb) s2)]
  dsimp only
  rw [hno, Bool.and_false, if_neg (by decide)]
  rw [n1, n2, Rd.bind_ok e3]
  rfl

/-- The header and the table of contents of a frame are read. -/
theorem frameFront_ok {h : ImageHeader} (hw : 0 < h.size.width ∧ h.size.width < 2 ^ 30) (hh : 0 < h.size.height ∧ h.size.height < 2 ^ 30) {f : FrameHeader} {v : Pic}
    (hL : CodedSheet h f v) {data : List UInt8} {k k' : Nat} (hF : FrameCodes h data k k' f v) {lf : List (Option (List ImageBuffer))} (hlf : lf.length = 5) {s : BR} {p0 : Nat}
    (hs : AtBit s p0) (hp0 : nextByte p0 = k) (hdata : s.data = data) :
    RegularHeader h.extra.length f ∧ ∃ l b lengths s' j, readFrameFront h lf s = (.ok (f, l, b, ⟨none, lengths⟩), s') ∧ frameLayout f = .ok l ∧
      lengths.length = sectionCount f ∧ SectionsCode h f lengths data j k' v ∧ AtBit s' (8 * j) ∧ s'.data = data := by
  obtain ⟨p, q, lengths, h1, h2, h3, h4⟩ := hF
  obtain ⟨hr, l, b, s3, e, hl, hlen, a3, d3⟩ := front_core hw hh hL.plain.framed hL.plain.modular hL.regular hL.noLF hL.groups hL.streams h1 h2 h3 hlf hs hp0 hdata
  exact ⟨hr, l, b, lengths, s3, nextByte q, e, hl, hlen, h4, a3, d3⟩

end Jxl
