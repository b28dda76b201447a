import Verif.Props.Complete
import Verif.Props.VarDCTFileWitness

/-!
# C95: an image is returned only if every frame was decoded with all that it uses
-/
namespace Jxl

/-- A frame of a file as it has been met: the reader in front of it, its header and the reader after it. -/
structure MetFrame where
  start : BR
  header : FrameHeader
  stop : BR

/-- The frame is the last one of the file. LF frames never are. -/
def MetFrame.Ends (x : MetFrame) : Prop := x.header.isLast = true ∧ x.header.frameType ≠ 1

/-- The frames follow each other, and the last one is the only one that ends the file. -/
inductive InTurn : BR → List MetFrame → BR → Prop
  | last {x : MetFrame} (h : x.Ends) : InTurn x.start [x] x.stop
  | more {x : MetFrame} {xs : List MetFrame} {s : BR} (h : ¬ x.Ends) (hs : InTurn x.stop xs s) : InTurn x.start (x :: xs) s

/-- The frame has none of the features that the decoder lacks: noise, patches, splines. -/
def MetFrame.Plain (x : MetFrame) : Prop := x.header.flags.testBit 0 = false ∧ x.header.flags.testBit 1 = false ∧ x.header.flags.testBit 4 = false

/-- The header has been read where the frame begins, then the table of contents, and then the frame has been decoded without an error. (So it was complete, by `C91_modular` and `C91_vardct`.) -/
def MetFrame.Read (D : DecodeParts) (h : ImageHeader) (x : MetFrame) : Prop :=
  ∃ (l : Layout) (toc : TOC) (b : Option (List ImageBuffer)) (bufs : List ImageBuffer) (s1 s2 : BR), readFrameStart h x.start = (.ok (x.header, l), s1) ∧
    readTOC l.numGroups l.numLFGroups x.header.passes.numPasses s1 = (.ok toc, s2) ∧ decodeFrame (D.frames b) D.impl.toFloatImpl h x.header l toc s2 = (.ok bufs, x.stop)

theorem onSection_some {α : Type} {toc : TOC} {readers : List SectionReader} {i : Nat} {m : Rd α} {s s' : BR} {a : α} (e : onSection toc readers i m s = (.ok a, s')) : ∃ t t', m t = (.ok a, t') := by
  unfold onSection at e
  obtain ⟨r, -, e⟩ := Rd.of_lift_bind e
  cases r with
  | shared => exact ⟨s, s', e⟩
  | own bytes =>
    dsimp only at e
    refine ⟨BR.new bytes, (m (BR.new bytes)).2, ?_⟩
    have : (m (BR.new bytes)).1 = .ok a := congrArg Prod.fst e
    rw [← this]

theorem not_refused {f : FrameHeader} (h : refusedFlags f.flags ≠ true) : f.flags.testBit 0 = false ∧ f.flags.testBit 1 = false ∧ f.flags.testBit 4 = false := by
  unfold refusedFlags at h
  cases h0 : f.flags.testBit 0 <;> cases h1 : f.flags.testBit 1 <;> cases h4 : f.flags.testBit 4 <;> simp_all

/-- A frame that decodes has no features that are not supported. -/
theorem decodeFrame_plain {D : DecodeParts} {A : Arith F32} {V : VarParts F32} (hD : ComputesIn D A V) {b : Option (List ImageBuffer)} {h : ImageHeader} {f : FrameHeader} {l : Layout} {toc : TOC} {s s' : BR}
    {bufs : List ImageBuffer} (e : decodeFrame (D.frames b) D.impl.toFloatImpl h f l toc s = (.ok bufs, s')) :
    f.flags.testBit 0 = false ∧ f.flags.testBit 1 = false ∧ f.flags.testBit 4 = false := by
  refine not_refused fun hr => ?_
  by_cases hf : f.encoding = 0
  · obtain ⟨P, lf, hb⟩ := hD b
    rw [hb] at e
    obtain ⟨_, _, _, _, g, _, _, _, _, -, -, -, e1, -⟩ := C91_vardct A V P D.impl.toFloatImpl lf hf e
    obtain ⟨t, t', e2⟩ := onSection_some e1
    unfold readVarGlobal at e2
    rw [if_pos hr] at e2
    cases congrArg Prod.fst e2
  · obtain ⟨_, _, _, g, _, _, -, -, e1, -⟩ := C91_modular (D.frames b) D.impl.toFloatImpl hf e
    obtain ⟨t, t', e2⟩ := onSection_some e1
    unfold readModGlobal at e2
    rw [if_pos hr] at e2
    cases congrArg Prod.fst e2

theorem decodeRound_met {D : DecodeParts} {A : Arith F32} {V : VarParts F32} (hD : ComputesIn D A V) {h : ImageHeader} {matrix : Option (Opsin F32)} {st st' : DecodeState} {fin : Bool} {s s' : BR}
    (e : decodeRound D h matrix st s = (.ok (st', fin), s')) :
    ∃ x : MetFrame, x.start = s ∧ x.stop = s' ∧ x.Read D h ∧ x.Plain ∧ (fin = true ↔ x.Ends) := by
  unfold decodeRound at e
  obtain ⟨r, s1, e1, eA⟩ := Rd.of_bind e
  clear e
  obtain ⟨bufs, s2, e2, eB⟩ := Rd.of_bind eA
  clear eA
  obtain ⟨lf, -, eC⟩ := Rd.of_lift_bind eB
  clear eB
  unfold readFrameFront at e1
  obtain ⟨⟨f, l⟩, s3, e3, e1⟩ := Rd.of_bind e1
  obtain ⟨b, -, e1⟩ := Rd.of_lift_bind e1
  split at e1
  · cases congrArg Prod.fst e1
  obtain ⟨toc, s4, e4, e1⟩ := Rd.of_bind e1
  rw [Rd.pure_eq] at e1
  obtain ⟨e5, e6⟩ := Prod.mk.inj e1
  have e5 := Res.ok.inj e5
  subst e5 e6
  have key : s2 = s' ∧ (fin = true ↔ f.isLast = true ∧ f.frameType ≠ 1) := by
    dsimp only at eC
    by_cases ht : f.frameType = 1
    · rw [if_pos ht, Rd.pure_eq] at eC
      obtain ⟨e5, e6⟩ := Prod.mk.inj eC
      have e5 := Res.ok.inj e5
      have e7 := (Prod.mk.inj e5).2
      refine ⟨e6, ?_⟩
      rw [← e7]
      simp [ht]
    · rw [if_neg ht] at eC
      obtain ⟨up, -, eD⟩ := Rd.of_lift_bind eC
      obtain ⟨c, -, eE⟩ := Rd.of_lift_bind eD
      rw [Rd.pure_eq] at eE
      obtain ⟨e5, e6⟩ := Prod.mk.inj eE
      have e5 := Res.ok.inj e5
      have e7 := (Prod.mk.inj e5).2
      refine ⟨e6, ?_⟩
      rw [← e7]
      simp [ht]
  obtain ⟨rfl, hfin⟩ := key
  exact ⟨⟨s, f, s2⟩, rfl, rfl, ⟨l, toc, b, bufs, s3, s4, e3, e4, e2⟩, decodeFrame_plain hD e2, hfin⟩

theorem decodeRounds_met {D : DecodeParts} {A : Arith F32} {V : VarParts F32} (hD : ComputesIn D A V) {h : ImageHeader} {matrix : Option (Opsin F32)} :
    ∀ (fuel : Nat) (st : DecodeState) (s s' : BR) (c : Store), decodeRounds D h matrix fuel st s = (.ok c, s') →
      ∃ xs, InTurn s xs s' ∧ ∀ x ∈ xs, x.Read D h ∧ x.Plain := by
  intro fuel
  induction fuel with
  | zero => intro st s s' c e; cases congrArg Prod.fst e
  | succ fuel ih =>
    intro st s s' c e
    unfold decodeRounds at e
    obtain ⟨⟨st1, fin⟩, s1, e1, e⟩ := Rd.of_bind e
    obtain ⟨x, rfl, rfl, h1, h2, h3⟩ := decodeRound_met hD e1
    dsimp only at e
    by_cases hf : fin = true
    · rw [if_pos hf, Rd.pure_eq] at e
      obtain ⟨-, rfl⟩ := Prod.mk.inj e
      refine ⟨[x], .last (h3.1 hf), ?_⟩
      intro y hy
      rw [List.mem_singleton.1 hy]
      exact ⟨h1, h2⟩
    · rw [if_neg hf] at e
      obtain ⟨xs, h4, h5⟩ := ih _ _ _ _ e
      refine ⟨x :: xs, .more (fun he => hf (h3.2 he)) h4, ?_⟩
      intro y hy
      rcases List.mem_cons.1 hy with rfl | hy
      · exact ⟨h1, h2⟩
      · exact h5 y hy

/-- **C95**. For every file: if decoding returns an image, then there is no preview, the image header was read, and from there on frames were read one after the other up to the one that is marked as the last.
Each of them was decoded without an error, and none of them uses noise, patches or splines, which the decoder cannot draw: such a frame is never shown without them. -/
theorem C95_frames {D : DecodeParts} {A : Arith F32} {V : VarParts F32} (hD : ComputesIn D A V) {file : List UInt8} {fuel : Nat} {img : JXLImage} {s' : BR}
    (e : decodeFile D false fuel (BR.new file) = (.ok (some img), s')) :
    ∃ (boxes : List BoxHeader × Nat) (box : BoxHeader) (h : ImageHeader) (profile : Option (List UInt8)) (s1 s2 s3 s4 : BR) (xs : List MetFrame),
      readBoxHeader (BR.new file) = (.ok boxes, s1) ∧ boxes.1[0]? = some box ∧ headerAt box.offset boxes.2 s1 = (.ok (some (h, profile)), s2) ∧ h.preview = none ∧
      seekFrames boxes.1 s2 = (.ok (), s3) ∧ InTurn (atEnd s3).2 xs s4 ∧ ∀ x ∈ xs, x.Read D h ∧ x.Plain := by
  unfold decodeFile at e
  obtain ⟨b, s1, e1, e⟩ := Rd.of_bind e
  obtain ⟨box, e2, e⟩ := Rd.of_lift_bind e
  obtain ⟨h, s2, e3, e⟩ := Rd.of_bind e
  cases h with
  | none => cases congrArg Prod.fst e
  | some h =>
    obtain ⟨h, profile⟩ := h
    dsimp only at e
    unfold decodeFrames at e
    by_cases hp : h.preview.isSome = true
    · rw [if_pos hp] at e
      cases congrArg Prod.fst e
    rw [if_neg hp] at e
    obtain ⟨matrix, -, e⟩ := Rd.of_lift_bind e
    obtain ⟨u, s3, e4, e⟩ := Rd.of_bind e
    have hb : b.1[0]? = some box := by
      unfold idx at e2
      cases hx : b.1 with
      | nil => rw [hx] at e2; cases e2
      | cons y ys =>
        rw [hx] at e2
        simpa [List.getElem?_cons_zero] using e2
    cases ha : atEnd s3 with
    | mk fin s5 =>
      rw [ha] at e
      cases fin with
      | true => cases congrArg Prod.fst e
      | false =>
        dsimp only at e
        rw [if_neg (by decide)] at e
        obtain ⟨c, s6, e5, e⟩ := Rd.of_bind e
        obtain ⟨xs, h1, h2⟩ := decodeRounds_met hD _ _ _ _ _ e5
        exact ⟨b, box, h, profile, s1, s2, s3, s6, xs, e1, hb, e3, by simpa using hp, e4, by rw [ha]; exact h1, h2⟩

/-- **C95**. For every file: if the header of the first frame asks for noise, patches or splines, then no image is returned, whatever follows. -/
theorem C95_refused {D : DecodeParts} {A : Arith F32} {V : VarParts F32} (hD : ComputesIn D A V) {file : List UInt8} {boxes : List BoxHeader × Nat} {box : BoxHeader} {h : ImageHeader}
    {profile : Option (List UInt8)} {s1 s2 s3 s4 : BR} {f : FrameHeader} {l : Layout} (e1 : readBoxHeader (BR.new file) = (.ok boxes, s1)) (e2 : boxes.1[0]? = some box)
    (e3 : headerAt box.offset boxes.2 s1 = (.ok (some (h, profile)), s2)) (e4 : seekFrames boxes.1 s2 = (.ok (), s3)) (e5 : readFrameStart h (atEnd s3).2 = (.ok (f, l), s4))
    (hf : f.flags.testBit 0 = true ∨ f.flags.testBit 1 = true ∨ f.flags.testBit 4 = true) (fuel : Nat) :
    ∀ img s', decodeFile D false fuel (BR.new file) ≠ (.ok (some img), s') := by
  intro img s' e
  obtain ⟨boxes', box', h', profile', t1, t2, t3, t4, xs, g1, g2, g3, -, g4, g5, g6⟩ := C95_frames hD e
  rw [e1] at g1
  obtain ⟨rfl, rfl⟩ : boxes = boxes' ∧ s1 = t1 := by simpa using g1
  rw [e2] at g2
  cases g2
  rw [e3] at g3
  obtain ⟨⟨rfl, rfl⟩, rfl⟩ : (h = h' ∧ profile = profile') ∧ s2 = t2 := by simpa using g3
  rw [e4] at g4
  obtain rfl : s3 = t3 := by simpa using g4
  have key : ∃ x, x ∈ xs ∧ x.start = (atEnd s3).2 := by
    generalize (atEnd s3).2 = s0 at g5
    cases g5 with
    | last _ => exact ⟨_, List.mem_singleton.2 rfl, rfl⟩
    | more _ _ => exact ⟨_, List.mem_cons_self, rfl⟩
  obtain ⟨x, hx, hs⟩ := key
  obtain ⟨⟨l', toc, b, bufs, u1, u2, i1, -, -⟩, p0, p1, p4⟩ := g6 x hx
  rw [hs, e5] at i1
  obtain ⟨⟨rfl, -⟩, -⟩ : (f = x.header ∧ l = l') ∧ s4 = u1 := by simpa using i1
  rw [p0, p1, p4] at hf
  simp at hf

/-- The hypotheses of `C95_frames` are met: a file with a frame of two groups is decoded. -/
example (D : DecodeParts) (P : FrameParts) : ∃ (D' : DecodeParts) (A : Arith F32) (V : VarParts F32) (img : JXLImage) (s' : BR), ComputesIn D' A V ∧ decodeFile D' false 1 (BR.new wideFile) = (.ok (some img), s') := by
  obtain ⟨tree, codes, h⟩ := wideFile_file
  obtain ⟨weights, hw⟩ := flat_weights
  obtain ⟨o, ho⟩ := wideHeader_matrix D.cbrt
  obtain ⟨img, s', pics, h1, -⟩ := C94_image_partial (D := { D with frames := fun _ => P.withVarDCT inferInstance zeroParts D.impl.toFloatImpl [] })
    (A := inferInstance) (V := zeroParts) (fun b => ⟨P, [], rfl⟩) zeroParts_ok h (by
      intro x hx
      rw [List.mem_singleton.mp hx]
      exact ⟨weights, hw⟩) ho (fuel := 1) (Nat.le_refl 1) 1
  exact ⟨_, inferInstance, zeroParts, img, s', fun b => ⟨P, [], rfl⟩, h1⟩

/-- The file of the example, with the flag for noise set in the header of its frame. -/
def noisyFile : List UInt8 := [255, 10, 56, 0, 14, 14, 32, 28, 19, 8, 0, 56, 64, 7, 24, 0, 3, 8, 0] ++ wideData

/-- The hypotheses of `C95_refused` are met. -/
example {D : DecodeParts} {A : Arith F32} {V : VarParts F32} (hD : ComputesIn D A V) (fuel : Nat) : ∀ img s', decodeFile D false fuel (BR.new noisyFile) ≠ (.ok (some img), s') := by
  have hb : (match readBoxHeader (BR.new noisyFile) with
      | (.ok boxes, s1) => match boxes.1[0]? with
        | some box => match headerAt box.offset boxes.2 s1 with
          | (.ok (some (h, _)), s2) => match seekFrames boxes.1 s2 with
            | (.ok (), s3) => match readFrameStart h (atEnd s3).2 with
              | (.ok (f, _), _) => f.flags.testBit 0
              | _ => false
            | _ => false
          | _ => false
        | none => false
      | _ => false) = true := by decide +kernel
  split at hb
  · rename_i boxes s1 e1
    split at hb
    · rename_i box e2
      split at hb
      · rename_i h profile s2 e3
        split at hb
        · rename_i s3 e4
          split at hb
          · rename_i f l s4 e5
            exact C95_refused hD e1 e2 e3 e4 e5 (.inl hb) fuel
          · cases hb
        · cases hb
      · cases hb
    · cases hb
  · cases hb

end Jxl
