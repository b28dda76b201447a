import Verif.Proofs.PNG

/-! # What the PNG writer writes for any image at all (C34) -/
namespace Jxl

theorem Res.of_bind {α β : Type} {r : Res α} {f : α → Res β} {b : β} (h : (r >>= f) = .ok b) : ∃ a, r = .ok a ∧ f a = .ok b := by
  cases r with
  | ok a => exact ⟨a, rfl, h⟩
  | err => cases h
  | panic => cases h

/-- The two images differ at most in the contents of their channels. -/
def Same (a b : JXLImage) : Prop := b.buffers.length = a.buffers.length ∧ b = { a with buffers := b.buffers }

theorem Same.refl (a : JXLImage) : Same a a := ⟨rfl, rfl⟩
theorem Same.trans {a b c : JXLImage} (h : Same a b) (g : Same b c) : Same a c := by
  refine ⟨g.1.trans h.1, ?_⟩
  obtain ⟨_, h⟩ := h
  obtain ⟨_, g⟩ := g
  rw [g, h]

theorem setAt_length {α : Type} {l l' : List α} {i : Int} {a : α} (h : setAt l i a = .ok l') : l'.length = l.length := by
  unfold setAt at h
  split at h
  · cases h
  · split at h
    · injection h with h
      rw [← h, List.length_set]
    · cases h

theorem idx_ok_some {α : Type} {l : List α} {i : Nat} {a : α} (h : idx l (i : Int) = .ok a) : l[i]? = some a := by
  unfold idx at h
  rw [if_neg (by omega)] at h
  simp only [Int.toNat_natCast] at h
  split at h
  · injection h with h; rw [← h]; assumption
  · cases h

theorem setAt_other {α : Type} {l l' : List α} {j : Nat} {v : α} (h : setAt l (j : Int) v = .ok l') : j < l.length ∧ l' = l.set j v := by
  unfold setAt at h
  rw [if_neg (by omega), Int.toNat_natCast] at h
  split at h
  · cases h; exact ⟨by assumption, rfl⟩
  · cases h

theorem eachChannel_same {f : Res Nat → ImageBuffer → Res ImageBuffer} : ∀ {n c : Nat} {img img' : JXLImage}, eachChannel f c n img = .ok img' → Same img img'
  | 0, _, img, img', h => by
    unfold eachChannel at h
    injection h with h
    rw [h]
    exact Same.refl _
  | n + 1, c, img, img', h => by
    unfold eachChannel at h
    obtain ⟨b, _, h⟩ := Res.of_bind h
    obtain ⟨b', _, h⟩ := Res.of_bind h
    obtain ⟨bs, hs, h⟩ := Res.of_bind h
    exact Same.trans (b := { img with buffers := bs }) ⟨setAt_length hs, rfl⟩ (eachChannel_same h)

theorem coerceSamples_same {img img' : JXLImage} {B : Nat} (h : coerceSamples img B = .ok img') : Same img img' := by
  have key : ∀ co : Bool, (if co then castChannels mask32 img.buffers.length img else Res.ok img) = .ok img' → Same img img' := by
    intro co h
    cases co with
    | true => exact eachChannel_same (by simpa [castChannels] using h)
    | false =>
      have : img = img' := by simpa using h
      rw [this]; exact Same.refl _
  unfold coerceSamples at h
  dsimp only at h
  split at h
  · exact key true h
  · obtain ⟨co, _, h⟩ := Res.of_bind h
    exact key co h

theorem toOutputSamples_same {I : FloatImpl} {img img' : JXLImage} {B : Nat} (h : toOutputSamples I img B = .ok img') : Same img img' ∧ img.premultiplied = false := by
  unfold toOutputSamples at h
  obtain ⟨i1, h1, h⟩ := Res.of_bind h
  have s1 := coerceSamples_same h1
  split at h
  · cases h
  · next hp =>
    refine ⟨s1.trans (eachChannel_same h), ?_⟩
    rw [s1.2] at hp
    simpa using hp

theorem transferWithOp_never {f : F32 → F32} {img img' : JXLImage} : transferWithOp f img ≠ .ok img' := by
  intro h
  unfold transferWithOp at h
  obtain ⟨i1, h1, h⟩ := Res.of_bind h
  obtain ⟨bs, h2, h⟩ := Res.of_bind h
  obtain ⟨k, hk⟩ : ∃ k, (if img.colourEncoding = 1 then 1 else 3) = k + 1 := by
    by_cases hg : img.colourEncoding = 1
    · exact ⟨0, by rw [if_pos hg]⟩
    · exact ⟨2, by rw [if_neg hg]⟩
  rw [hk] at h2
  unfold forFrom at h2
  obtain ⟨x, hx, _⟩ := Res.of_bind h2
  obtain ⟨b, hb, _⟩ := Res.of_bind hx
  simp [newFromImage, copyChannels, idx] at hb

theorem toOutputColours_same {curve : Nat → F32 → F32} {img img' : JXLImage} (h : toOutputColours curve img = .ok img') : Same img img' := by
  have hid : ∀ {a b : JXLImage}, (Res.ok a : Res JXLImage) = .ok b → Same a b := by
    intro a b hab
    injection hab with hab
    rw [hab]; exact Same.refl _
  have hlin : ∀ {a b : JXLImage}, linearize a = .ok b → Same a b := by
    intro a b hab
    unfold linearize at hab
    split at hab
    · exact hid hab
    · cases hab
  have hpeak : ∀ {a b : JXLImage} {tf : Nat}, peakScale a tf = .ok b → Same a b := by
    intro a b tf hab
    unfold peakScale at hab
    split at hab
    · obtain ⟨p, _, hab⟩ := Res.of_bind hab
      dsimp only at hab
      split at hab
      · exact absurd hab transferWithOp_never
      · exact hid hab
    · exact hid hab
  have htr : ∀ {a b : JXLImage} {tf : Nat}, transferImage curve a tf = .ok b → Same a b := by
    intro a b tf hab
    unfold transferImage at hab
    split at hab
    · exact hid hab
    · obtain ⟨i1, h1, hab⟩ := Res.of_bind hab
      obtain ⟨i2, h2, hab⟩ := Res.of_bind hab
      split at hab
      · unfold transferInPlace at hab
        obtain ⟨i3, h3, hab⟩ := Res.of_bind hab
        exact ((hlin h1).trans (hpeak h2)).trans ((eachChannel_same h3).trans (eachChannel_same hab))
      · cases hab
  unfold toOutputColours at h
  split at h
  · exact hid h
  · generalize (if img.isHDR = true then priBT2100 else priSRGB) = pr at h
    generalize (if img.isHDR = true then tfPQ else tfSRGB) = tf at h
    unfold transform at h
    split at h
    · exact htr h
    · obtain ⟨i1, h1, h⟩ := Res.of_bind h
      exact (hlin h1).trans (htr h)

theorem idatCast_same {I : FloatImpl} {mx : Int} {c : Nat} {img img' : JXLImage} (h : idatCast I mx c img = .ok img') : Same img img' ∧ c < img.buffers.length := by
  unfold idatCast at h
  obtain ⟨b, hb, h⟩ := Res.of_bind h
  obtain ⟨b', _, h⟩ := Res.of_bind h
  obtain ⟨bs, hs, h⟩ := Res.of_bind h
  injection h with h
  exact ⟨⟨by rw [← h]; exact setAt_length hs, by rw [← h]⟩, getElem?_lt (idx_ok_some hb)⟩

theorem idatCastIf_same {cond : Bool} {I : FloatImpl} {mx : Int} {c : Nat} {img img' : JXLImage} (h : idatCastIf cond I mx c img = .ok img') :
    Same img img' ∧ (cond = true → c < img.buffers.length) := by
  unfold idatCastIf at h
  cases cond with
  | true =>
    have := idatCast_same (by simpa using h)
    exact ⟨this.1, fun _ => this.2⟩
  | false =>
    have : img = img' := by simpa using h
    rw [this]; exact ⟨Same.refl _, fun h => by cases h⟩

/-- Bytes written for a sample of a channel of depth `d`. -/
def sampleSize (d : Nat) : Nat := if d = 8 then 1 else 2

theorem sampleBytes_length (d : Nat) (v : Int) : (sampleBytes d v).length = sampleSize d := by
  unfold sampleBytes sampleSize; split <;> rfl

/-- Bytes written for one pixel. -/
def pixelSize (img : JXLImage) : Nat :=
  ((List.range img.header.colourCount).map (fun c => sampleSize (img.bitDepths.getD c 0))).sum +
    (if img.header.hasAlpha then sampleSize (img.bitDepths.getD 3 0) else 0)

theorem forFrom_grows {β : Type} {f : Nat → List β → Res (List β)} {g : Nat → Nat} : ∀ {n i : Nat} {s s' : List β},
    (∀ k s s', f k s = .ok s' → s'.length = s.length + g k) → forFrom f n i s = .ok s' →
      s'.length = s.length + ((List.range n).map (fun k => g (i + k))).sum
  | 0, i, s, s', _, h => by
    unfold forFrom at h
    injection h with h
    rw [h]; simp
  | n + 1, i, s, s', hf, h => by
    unfold forFrom at h
    obtain ⟨s1, h1, h⟩ := Res.of_bind h
    rw [forFrom_grows hf h, hf _ _ _ h1, List.range_succ_eq_map]
    simp only [List.map_cons, List.sum_cons, List.map_map, Nat.add_zero, Nat.add_assoc]
    congr 3
    refine List.map_congr_left fun k _ => ?_
    simp only [Function.comp]
    congr 1
    omega

theorem sum_const (n k : Nat) : ((List.range n).map (fun _ => k)).sum = n * k := by simp

theorem idatRow_length {img : JXLImage} {y : Nat} {acc out : List UInt8} (h : idatRow img y acc = .ok out) :
    out.length = acc.length + img.width * pixelSize img := by
  unfold idatRow at h
  rw [forFrom_grows (g := fun _ => pixelSize img) ?_ h, sum_const]
  intro x s s' hs
  have hsamp : ∀ {c : Nat} {d : Nat}, idx img.bitDepths (c : Int) = .ok d → img.bitDepths.getD c 0 = d := by
    intro c d hd
    rw [List.getD_eq_getElem?_getD, idx_ok_some hd]; rfl
  obtain ⟨s1, h1, hs⟩ := Res.of_bind hs
  have hl1 := forFrom_grows (g := fun c => sampleSize (img.bitDepths.getD c 0)) (by
    intro c s s' hc
    obtain ⟨b, _, hc⟩ := Res.of_bind hc
    obtain ⟨v, _, hc⟩ := Res.of_bind hc
    obtain ⟨d, hd, hc⟩ := Res.of_bind hc
    injection hc with hc
    rw [← hc, List.length_append, sampleBytes_length, hsamp hd]) h1
  simp only [Nat.zero_add] at hl1
  unfold pixelSize
  split at hs
  · next ha =>
    obtain ⟨b, _, hs⟩ := Res.of_bind hs
    obtain ⟨v, _, hs⟩ := Res.of_bind hs
    obtain ⟨d, hd, hs⟩ := Res.of_bind hs
    injection hs with hs
    rw [← hs, List.length_append, sampleBytes_length, hl1, if_pos ha, hsamp (c := 3) hd]
    omega
  · next ha =>
    injection hs with hs
    rw [← hs, hl1, if_neg ha]
    omega

theorem idatRows_length {img : JXLImage} {rows : List UInt8} (h : idatRows img = .ok rows) : rows.length = img.height * (1 + img.width * pixelSize img) := by
  unfold idatRows at h
  rw [forFrom_grows (g := fun _ => 1 + img.width * pixelSize img) ?_ h, sum_const]
  · simp
  · intro y s s' hs
    rw [idatRow_length hs]
    simp only [List.length_append, List.length_cons, List.length_nil]
    omega

theorem writeIDAT_any {I : FloatImpl} {Z : Zlib} {img img' : JXLImage} {chunk : List UInt8} (h : writeIDAT I Z img = .ok (chunk, img')) :
    (img.header.hasAlpha = true → 3 < img.buffers.length) ∧ ∃ rows, rows.length = img.height * (1 + img.width * pixelSize img) ∧
      chunk = emitChunk (bytesOf ['I', 'D', 'A', 'T'] ++ Z.deflate 0 rows) := by
  unfold writeIDAT at h
  obtain ⟨i1, h1, h⟩ := Res.of_bind h
  obtain ⟨i2, h2, h⟩ := Res.of_bind h
  obtain ⟨i3, h3, h⟩ := Res.of_bind h
  obtain ⟨i4, h4, h⟩ := Res.of_bind h
  obtain ⟨i5, h5, h⟩ := Res.of_bind h
  obtain ⟨rows, h6, h⟩ := Res.of_bind h
  injection h with h
  injection h with hc hi
  have s3 := ((idatCast_same h1).1.trans (idatCastIf_same h2).1).trans (idatCastIf_same h3).1
  have s5 := (s3.trans (idatCastIf_same h4).1).trans (eachChannel_same h5)
  refine ⟨fun ha => ?_, rows, ?_, hc.symm⟩
  · have := (idatCastIf_same h4).2
    rw [s3.1] at this
    rw [s3.2] at this
    exact this ha
  · rw [idatRows_length h6]
    unfold pixelSize
    rw [s5.2]

end Jxl
