import Verif.Proofs.JXLImage
import Verif.Spec.PFM

/-! # PFM output (C35) -/
namespace Jxl

theorem putU32_bigEndian (n : Nat) : putU32 n = PFM.bigEndian n := by
  unfold putU32 PFM.bigEndian
  have : ∀ a : Nat, UInt8.ofNat (a % 256) = UInt8.ofNat a := by
    intro a
    apply UInt8.toNat_inj.mp
    simp
  simp only [this, Nat.reducePow]

theorem pfmCheck_floats : ∀ bs : List ImageBuffer, (∀ b ∈ bs, b.bufferType = 1) → pfmCheck bs = .ok ()
  | [], _ => rfl
  | b :: bs, h => by
    unfold pfmCheck ImageBuffer.isInt
    rw [h b (by simp), if_neg (by decide), pfmCheck_floats bs (fun b hb => h b (by simp [hb]))]

theorem reverse_range_flatMap {β : Type} (h : Nat) (g : Nat → List β) :
    (List.range h).flatMap (fun k => g (h - 1 - k)) = (List.range h).reverse.flatMap g := by
  have : (List.range h).reverse = (List.range h).map (fun k => h - 1 - k) := by
    apply List.ext_getElem
    · simp
    · intro i h1 h2
      simp
  rw [this, List.flatMap_map]

/-- Every float image whose channels have the size of the image is written as a PFM file with its samples: one channel for gray images,
three otherwise. -/
theorem C35_pfm (bits : F32 → Nat) (img : JXLImage) (n : Nat) (hn : n = if img.colourEncoding = 1 then 1 else 3) (hb : n ≤ img.buffers.length)
    (hp : ∀ b ∈ img.buffers, b.FloatPicture img.height img.width) :
    writePFM bits img = .ok (PFM.file bits ((img.buffers.take n).map (·.floats)) img.height img.width) := by
  have hlen : ((img.buffers.take n).map (·.floats)).length = n := by simp [hb]
  unfold writePFM
  dsimp only
  rw [pfmCheck_floats _ (fun b h => (hp b h).1), Res.bind_ok]
  have hcount : (if decide (img.colourEncoding = 1) = true then 1 else 3) = ((img.buffers.take n).map (·.floats)).length := by
    rw [hlen, hn]; simp
  rw [hcount]
  have hbody := forFrom_append0 (fun k acc => forFrom (fun x acc => forFrom (fun c acc => do
      let b ← idx img.buffers c
      let v ← at2 b.floats ((img.height : Int) - 1 - k) x
      .ok (acc ++ putU32 (bits v))) ((img.buffers.take n).map (·.floats)).length 0 acc) img.width 0 acc)
    (fun k => (List.range img.width).flatMap (fun x => ((img.buffers.take n).map (·.floats)).flatMap
      (fun p => PFM.bigEndian (bits ((sample p (img.height - 1 - k) x).getD .nan))))) img.height []
    (fun k acc hk => by
      apply forFrom_append0
      intro x acc hx
      apply forFrom_append_map
      intro c p acc hc
      simp only [List.getElem?_map, List.getElem?_take] at hc
      split at hc
      · obtain ⟨b, hb1, hb2⟩ := Option.map_eq_some_iff.mp hc
        subst hb2
        have hpic := hp b (List.mem_of_getElem? hb1)
        obtain ⟨v, hv⟩ := hpic.2.2.2.sample (show img.height - 1 - k < img.height by omega) hx
        rw [idx_some hb1, Res.bind_ok, show ((img.height : Int) - 1 - k) = ((img.height - 1 - k : Nat) : Int) by omega, at2_sample hv,
          Res.bind_ok, hv, putU32_bigEndian]
        rfl
      · cases hc)
  rw [hbody, Res.bind_ok]
  unfold PFM.file PFM.head
  rw [reverse_range_flatMap img.height (fun y => (List.range img.width).flatMap (fun x => ((img.buffers.take n).map (·.floats)).flatMap
      (fun p => PFM.bigEndian (bits ((sample p y x).getD .nan)))))]
  rw [hlen]
  unfold decimal bytesOf PFM.text
  simp only [List.map_append, List.append_assoc, List.nil_append]
  by_cases hg : img.colourEncoding = 1
  · rw [if_pos hg] at hn
    subst hn
    simp [hg]
  · rw [if_neg hg] at hn
    subst hn
    simp [hg]

/-- The file has four bytes for each sample after the header. -/
theorem C35_size (bits : F32 → Nat) (planes : List (List (List F32))) (h w : Nat) :
    (PFM.file bits planes h w).length = (PFM.head planes h w).length + h * w * planes.length * 4 := by
  unfold PFM.file
  rw [List.length_append]
  congr 1
  have flat : ∀ {α : Type} (l : List α) (f : α → List UInt8) (m : Nat), (∀ a, (f a).length = m) → (l.flatMap f).length = l.length * m := by
    intro α l f m hf
    induction l with
    | nil => simp
    | cons a l ih => simp [ih, hf, Nat.add_mul, Nat.add_comm]
  rw [flat _ _ (w * (planes.length * 4)) (fun y => by
    rw [flat _ _ (planes.length * 4) (fun x => by
      rw [flat _ _ 4 (fun p => rfl)])]
    simp)]
  simp [Nat.mul_assoc]

/-- Outside the property (it speaks of float images): a decoded image with an integer channel makes the writer crash. -/
theorem C35_integer_images_crash (bits : F32 → Nat) (img : JXLImage) (b : ImageBuffer) (hb : b ∈ img.buffers) (ht : b.bufferType = 0) :
    writePFM bits img = .panic := by
  have : ∀ bs : List ImageBuffer, b ∈ bs → pfmCheck bs = .panic := by
    intro bs
    induction bs with
    | nil => intro h; simp at h
    | cons a as ih =>
      intro h
      unfold pfmCheck
      rcases List.mem_cons.mp h with h | h
      · subst h; simp [ImageBuffer.isInt, ht]
      · rw [ih h]; simp
  unfold writePFM
  dsimp only
  rw [this _ hb]
  rfl

/-- A gray picture of two rows. -/
def pfmExample : JXLImage :=
  ⟨[⟨1, 2, 1, [[.fin 0], [.fin 1]], []⟩], none, [8], priSRGB, wpD65,
    ⟨⟨1, 2⟩, 1, ⟨1, 2⟩, none, none, BitDepth.dflt, true, [], [], true, { ColourEncoding.dflt with space := 1 }, ToneMapping.dflt, Extensions.none, none, none,
      none, none⟩, 1, 2, 1, -1, 1, 1, tfLinear, tfSRGB, false⟩

example : 1 ≤ pfmExample.buffers.length ∧ ∀ b ∈ pfmExample.buffers, b.FloatPicture pfmExample.height pfmExample.width := by
  refine ⟨by decide, ?_⟩
  intro b hb
  simp only [pfmExample, List.mem_singleton] at hb
  subst hb
  exact ⟨rfl, rfl, rfl, rfl, by simp [pfmExample]⟩

/-- Its file: the sample 1 of the bottom row comes first. -/
example : writePFM (fun v => if v = .fin 1 then 0x3F800000 else 0) pfmExample =
    .ok ([80, 102, 10, 49, 32, 50, 10, 49, 46, 48, 10] ++ [0x3F, 0x80, 0, 0, 0, 0, 0, 0]) := by decide +kernel

end Jxl
