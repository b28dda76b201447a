import Verif.Proofs.Modular
import Verif.Props.Entropy

/-!
# C50, C21: modular channels
-/
namespace Jxl

/-- What the decoder is set up with for a channel. -/
def envOf (c : Chan) (prev : List Chan) (wp : WPParams) (tree : MATree) (channelIndex streamIndex mult : Int) : ChanEnv :=
  ⟨c, prev, channelIndex, streamIndex, mult, wp, c.forceWP || (tree.compactify channelIndex streamIndex).useWP⟩

/-- The contexts and numbers that the encoder emits for an image. -/
def encodeChannel (c : Chan) (prev : List Chan) (wp : WPParams) (tree : MATree) (channelIndex streamIndex mult : Int)
    (img : List (List Int)) : Option (List (Int × Nat)) :=
  (encodeRows (envOf c prev wp tree channelIndex streamIndex mult) tree img c.height 0
    (initPlanes (c.forceWP || (tree.compactify channelIndex streamIndex).useWP) c.height c.width)).map Prod.fst

theorem zeroPlane_shape {h w : Nat} (hh : 0 < h) (hw : 0 < w) : (zeroPlane h w).length = h ∧ ∀ r ∈ zeroPlane h w, r.length = w := by
  unfold zeroPlane
  rw [if_neg (by omega)]
  refine ⟨by simp, ?_⟩
  intro r hr
  rw [List.eq_of_mem_replicate hr]; simp

/-- **C50**: for every image (samples up to 2^26 in magnitude), every tree and every set of weighted-prediction
parameters: if the entropy decoder delivers the numbers that the encoder emits, in the contexts it emits them for, then
the decoder returns exactly the image. -/
theorem C50_lossless (c : Chan) (prev : List Chan) (wp : WPParams) (tree : MATree) (streamIndex mult : Int)
    (img : List (List Int)) (hR : Rect c.height c.width img) (hS : Small img)
    (hprev : ∀ d ∈ prev, Rect d.height d.width d.buffer ∧ Small d.buffer) (hu : tree.Usable)
    (out : List (Int × Nat)) (henc : encodeChannel c prev wp tree prev.length streamIndex mult img = some out)
    (es es' : ES) (s s' : BR) (vals : List Int)
    (hseq : ES.readSeq mult (out.map Prod.fst) es s = (.ok (vals, es'), s')) (hvals : vals.map toU32 = out.map Prod.snd) :
    ∃ planes, decodeChannel c prev wp tree prev.length streamIndex mult es s = (.ok (img, planes, es'), s') := by
  unfold encodeChannel at henc
  obtain ⟨⟨out', pl'⟩, h1, h2⟩ := Option.map_eq_some_iff.1 henc
  dsimp only at h2
  subst h2
  unfold decodeChannel
  by_cases hz : c.height = 0 ∨ c.width = 0
  · have himg : img = [] := by unfold Rect at hR; rwa [if_pos hz] at hR
    have hzp : zeroPlane c.height c.width = [] := by unfold zeroPlane; rw [if_pos hz]
    have key : ∀ n y pl out' pl', encodeRows (envOf c prev wp tree prev.length streamIndex mult) tree img n y pl = some (out', pl') → n = 0 ∨ c.width = 0 →
        out' = [] ∧ decodeRows (envOf c prev wp tree prev.length streamIndex mult) (tree.compactify prev.length streamIndex) n y ⟨[], pl, es⟩ s = (.ok ⟨[], pl', es⟩, s) := by
      intro n
      induction n with
      | zero => intro y pl out' pl' h _; simp only [encodeRows] at h; cases h; exact ⟨rfl, rfl⟩
      | succ n ih =>
        intro y pl out' pl' h hw
        have hw' : c.width = 0 := by omega
        have hw2 : (envOf c prev wp tree prev.length streamIndex mult).chan.width = 0 := hw'
        rw [encodeRows, hw2] at h
        simp only [encodeRow, Option.bind_eq_bind, Option.bind_some] at h
        cases hr : encodeRows (envOf c prev wp tree prev.length streamIndex mult) tree img n (y + 1) pl with
        | none => rw [hr] at h; cases h
        | some r =>
          rw [hr] at h
          cases h
          obtain ⟨i1, i2⟩ := ih (y + 1) pl _ _ hr (Or.inr hw')
          refine ⟨by rw [i1]; rfl, ?_⟩
          rw [decodeRows, hw2]
          have : decodeRow (envOf c prev wp tree prev.length streamIndex mult) ((tree.compactify prev.length streamIndex).compactifyWithY prev.length streamIndex y) y 0 0 ⟨[], pl, es⟩ s =
            (.ok ⟨[], pl, es⟩, s) := rfl
          rw [show (envOf c prev wp tree (prev.length : Int) streamIndex mult).channelIndex = (prev.length : Int) from rfl,
            show (envOf c prev wp tree (prev.length : Int) streamIndex mult).streamIndex = streamIndex from rfl]
          rw [Rd.bind_ok this]
          exact i2
    obtain ⟨k1, k2⟩ := key c.height 0 _ _ _ h1 hz
    subst k1
    simp only [List.map_nil, ES.readSeq] at hseq
    rw [Rd.pure_eq] at hseq
    cases hseq
    rw [hzp, himg]
    refine ⟨pl', ?_⟩
    have k2' : decodeRows ⟨c, prev, prev.length, streamIndex, mult, wp, c.forceWP || (tree.compactify prev.length streamIndex).useWP⟩
      (tree.compactify prev.length streamIndex) c.height 0 ⟨[], initPlanes (c.forceWP || (tree.compactify prev.length streamIndex).useWP) c.height c.width, es⟩ s =
      (.ok ⟨[], pl', es⟩, s) := k2
    rw [Rd.bind_ok k2']
    rfl
  · obtain ⟨hs1, hs2⟩ := hR.shape (by omega) (by omega)
    obtain ⟨z1, z2⟩ := zeroPlane_shape (h := c.height) (w := c.width) (by omega) (by omega)
    have hwp : (envOf c prev wp tree prev.length streamIndex mult).useWP = false →
        (tree.compactify (envOf c prev wp tree prev.length streamIndex mult).channelIndex (envOf c prev wp tree prev.length streamIndex mult).streamIndex).useWP = false := by
      intro h
      have h' : (c.forceWP || (tree.compactify (prev.length : Int) streamIndex).useWP) = false := h
      rw [Bool.or_eq_false_iff] at h'
      exact h'.2
    obtain ⟨b', e1, e2⟩ := decodeRows_encoded (env := envOf c prev wp tree prev.length streamIndex mult) (tree := tree) ⟨rfl, hprev⟩ hs1 hs2 hS.bounded hu hwp
      c.height 0 _ _ (zeroPlane c.height c.width) _ es es' s s' vals (by show 0 + c.height = c.height; omega)
      ⟨z1, z2, fun j k h => by omega⟩ h1 hseq hvals
    have : b' = img := rows_ext e2.rows e2.cols hs1 hs2 (fun j k hj hk => e2.eq j k (Or.inl hj) hk hj)
    subst this
    refine ⟨pl', ?_⟩
    have e1' : decodeRows ⟨c, prev, prev.length, streamIndex, mult, wp, c.forceWP || (tree.compactify prev.length streamIndex).useWP⟩
      (tree.compactify prev.length streamIndex) c.height 0 ⟨zeroPlane c.height c.width, initPlanes (c.forceWP || (tree.compactify prev.length streamIndex).useWP) c.height c.width, es⟩ s =
      (.ok ⟨b', pl', es'⟩, s') := e1
    rw [Rd.bind_ok e1']
    rfl

/-- Leaves with which every sample can be coded: predictor in range, multiplier 1, moderate offset. -/
def MATree.Plain : MATree → Prop
  | .leaf l => 0 ≤ l.predictor ∧ l.predictor ≤ 13 ∧ l.multiplier = 1 ∧ -2 ^ 28 ≤ l.offset ∧ l.offset ≤ 2 ^ 28
  | .node p _ a b => 0 ≤ p ∧ a.Plain ∧ b.Plain

theorem MATree.Plain.usable {t : MATree} (h : t.Plain) : t.Usable := by
  induction t with
  | leaf l => exact ⟨h.1, h.2.1⟩
  | node p v a b iha ihb => exact ⟨h.1, iha h.2.1, ihb h.2.2⟩

theorem MATree.Plain.eval {t : MATree} (h : t.Plain) (g : Nat → Int) :
    (t.eval g).multiplier = 1 ∧ -268435456 ≤ (t.eval g).offset ∧ (t.eval g).offset ≤ 268435456 := by
  induction t with
  | leaf l => exact ⟨h.2.2.1, by have := h.2.2.2.1; simpa [MATree.eval] using this, by have := h.2.2.2.2; simpa [MATree.eval] using this⟩
  | node p v a b iha ihb =>
    rw [MATree.eval]
    split
    · exact iha h.2.1
    · exact ihb h.2.2

theorem predict_bound {i : Img} (hb : i.Bounded) (w x y k : Nat) : -134217728 ≤ i.predict w 0 x y k ∧ i.predict w 0 x y k ≤ 134217728 := by
  have bW := hb.W x y
  have bN := hb.N x y
  have bNW := hb.NW x y
  have bNE := hb.NE x y w
  have bNN := hb.NN x y
  have bWW := hb.WW x y
  have bNEE := hb.NEE x y w
  have t2 : ∀ z : Int, -134217728 ≤ z → z ≤ 134217728 → -134217728 ≤ z.tdiv 2 ∧ z.tdiv 2 ≤ 134217728 := by
    intro z h1 h2
    have := Int.mul_tdiv_add_tmod z 2
    have := Int.tmod_lt_of_pos z (show (0 : Int) < 2 by decide)
    have := Int.lt_tmod_of_pos z (show (0 : Int) < 2 by decide)
    omega
  have t16 : ∀ z : Int, -2147483648 ≤ z → z ≤ 2147483648 → -134217728 ≤ z.tdiv 16 ∧ z.tdiv 16 ≤ 134217728 := by
    intro z h1 h2
    have := Int.mul_tdiv_add_tmod z 16
    have := Int.tmod_lt_of_pos z (show (0 : Int) < 16 by decide)
    have := Int.lt_tmod_of_pos z (show (0 : Int) < 16 by decide)
    omega
  unfold Img.predict
  split
  · omega
  · omega
  · omega
  · exact t2 _ (by omega) (by omega)
  · split <;> omega
  · unfold limit; omega
  · omega
  · omega
  · omega
  · omega
  · exact t2 _ (by omega) (by omega)
  · exact t2 _ (by omega) (by omega)
  · exact t2 _ (by omega) (by omega)
  · exact t16 _ (by omega) (by omega)

/-- **C50**: without the weighted predictor the encoder never fails: every image and every tree with plain leaves has a
code, with one number below 2^32 per sample, in the contexts of the leaves. -/
theorem C50_encodable (c : Chan) (prev : List Chan) (wp : WPParams) (tree : MATree) (streamIndex mult : Int)
    (img : List (List Int)) (hS : Small img) (ht : tree.Plain)
    (hwp : c.forceWP = false ∧ (tree.compactify prev.length streamIndex).useWP = false) :
    ∃ out, encodeChannel c prev wp tree prev.length streamIndex mult img = some out ∧ out.length = c.height * c.width ∧
      ∀ o ∈ out, o.2 < 2 ^ 32 ∧ ∃ l ∈ tree.leaves, o.1 = l.context := by
  have hu : (c.forceWP || (tree.compactify prev.length streamIndex).useWP) = false := by rw [hwp.1, hwp.2]; rfl
  have hev : ∀ (t : MATree) (g : Nat → Int), t.eval g ∈ t.leaves := by
    intro t g
    induction t with
    | leaf l => exact List.mem_singleton.2 rfl
    | node p v a b iha ihb =>
      rw [MATree.eval, MATree.leaves, List.mem_append]
      split
      · exact Or.inl iha
      · exact Or.inr ihb
  have hsample : ∀ pl y x, ∃ o, encodeSample (envOf c prev wp tree prev.length streamIndex mult) tree img pl y x = some (o, pl) ∧
      o.2 < 2 ^ 32 ∧ ∃ l ∈ tree.leaves, o.1 = l.context := by
    intro pl y x
    have h1 : wpStep (envOf c prev wp tree prev.length streamIndex mult) img pl x y = .ok (⟨[], 0, 0⟩, pl) := by
      unfold wpStep; rw [if_neg (by show ¬ (_ = true); rw [show (envOf c prev wp tree (prev.length : Int) streamIndex mult).useWP = false from hu]; decide)]
    have h2 : ∀ v, wpUpdate (envOf c prev wp tree prev.length streamIndex mult) ⟨[], 0, 0⟩ v pl x y = .ok pl := by
      intro v
      unfold wpUpdate; rw [if_neg (by show ¬ (_ = true); rw [show (envOf c prev wp tree (prev.length : Int) streamIndex mult).useWP = false from hu]; decide)]
    unfold encodeSample
    rw [h1]
    dsimp only
    rw [h2]
    generalize hl : tree.eval _ = l
    have hlv : l ∈ tree.leaves := by rw [← hl]; exact hev _ _
    have hpl := ht.eval ((Img.ofRows img).prop (envOf c prev wp tree prev.length streamIndex mult).chan (envOf c prev wp tree prev.length streamIndex mult).prev
      (envOf c prev wp tree prev.length streamIndex mult).channelIndex (envOf c prev wp tree prev.length streamIndex mult).streamIndex 0 x y)
    rw [hl] at hpl
    have hb := predict_bound hS.bounded (envOf c prev wp tree prev.length streamIndex mult).chan.width x y l.predictor.toNat
    have hv := hS.bounded y x
    generalize (Img.ofRows img).predict _ 0 x y _ = p at hb ⊢
    generalize Img.ofRows img y x = v at hv ⊢
    have hres : residual v p l = some (packSigned (v - p - l.offset)) := by
      unfold residual
      dsimp only
      rw [hpl.1, Int.ediv_one, Int.emod_one, if_pos (by omega)]
    rw [hres]
    dsimp only
    rw [if_pos (by omega)]
    refine ⟨_, rfl, ?_, l, hlv, rfl⟩
    have := (unpack_pack (v - p - l.offset) (by omega) (by omega)).2
    simpa using this
  have hrow : ∀ (y n x : Nat) (pl : WPPlanes), ∃ o, encodeRow (envOf c prev wp tree prev.length streamIndex mult) tree img y n x pl = some (o, pl) ∧
      o.length = n ∧ ∀ p ∈ o, p.2 < 2 ^ 32 ∧ ∃ l ∈ tree.leaves, p.1 = l.context := by
    intro y n
    induction n with
    | zero => intro x pl; exact ⟨[], rfl, rfl, by intro p hp; cases hp⟩
    | succ n ih =>
      intro x pl
      obtain ⟨a, a1, a2⟩ := hsample pl y x
      obtain ⟨o, o1, o2, o3⟩ := ih (x + 1) pl
      refine ⟨a :: o, ?_, by simp [o2], ?_⟩
      · rw [encodeRow, a1]
        simp only [Option.bind_eq_bind, Option.bind_some, o1]
      · intro p hp
        rcases List.mem_cons.1 hp with rfl | hp
        · exact a2
        · exact o3 p hp
  have hrows : ∀ (n y : Nat) (pl : WPPlanes), ∃ o, encodeRows (envOf c prev wp tree prev.length streamIndex mult) tree img n y pl = some (o, pl) ∧
      o.length = n * c.width ∧ ∀ p ∈ o, p.2 < 2 ^ 32 ∧ ∃ l ∈ tree.leaves, p.1 = l.context := by
    intro n
    induction n with
    | zero => intro y pl; exact ⟨[], rfl, by simp, by intro p hp; cases hp⟩
    | succ n ih =>
      intro y pl
      obtain ⟨a, a1, a2, a3⟩ := hrow y c.width 0 pl
      obtain ⟨o, o1, o2, o3⟩ := ih (y + 1) pl
      refine ⟨a ++ o, ?_, ?_, ?_⟩
      · rw [encodeRows, show (envOf c prev wp tree (prev.length : Int) streamIndex mult).chan.width = c.width from rfl, a1]
        simp only [Option.bind_eq_bind, Option.bind_some, o1]
      · rw [List.length_append, a2, o2, Nat.succ_mul]; omega
      · intro p hp
        rcases List.mem_append.1 hp with hp | hp
        · exact a3 p hp
        · exact o3 p hp
  obtain ⟨o, o1, o2, o3⟩ := hrows c.height 0 (initPlanes (c.forceWP || (tree.compactify prev.length streamIndex).useWP) c.height c.width)
  exact ⟨o, by unfold encodeChannel; rw [o1]; rfl, o2, o3⟩

theorem toU32_i32 {u : Nat} (h : u < 2 ^ 32) : toU32 (i32 u) = u := by
  unfold toU32 i32
  omega

theorem map_toU32 (out : List (Int × Nat)) (hb : ∀ o ∈ out, o.2 < 2 ^ 32) : (out.map (fun o => i32 o.2)).map toU32 = out.map Prod.snd := by
  induction out with
  | nil => rfl
  | cons o out ih =>
    have h := toU32_i32 (hb o List.mem_cons_self)
    rw [List.map_cons, List.map_cons, List.map_cons, ih (fun p hp => hb p (List.mem_cons_of_mem _ hp)), h]

/-- **C50** down to the bits: let the encoder's numbers be written by an entropy encoder (ANS or prefix codes, with or
without LZ77) anywhere in any stream; decoding the channel there returns exactly the image, stops after the last coded
bit and leaves an accepted final state. -/
theorem C50_stream (c : Chan) (prev : List Chan) (wp : WPParams) (tree : MATree) (streamIndex mult : Int)
    (img : List (List Int)) (hR : Rect c.height c.width img) (hS : Small img)
    (hprev : ∀ d ∈ prev, Rect d.height d.width d.buffer ∧ Small d.buffer) (hu : tree.Usable)
    (out : List (Int × Nat)) (henc : encodeChannel c prev wp tree prev.length streamIndex mult img = some out) (hb : ∀ o ∈ out, o.2 < 2 ^ 32)
    (co : Coder) (cd : Codes) (cmds : List LZCmd) (hcmds : expandLZ cmds [] = out.map (fun o => i32 o.2)) (es : ES)
    (h0 : es.state = none) (h1 : es.numToCopy = 0) (h2 : es.numDecoded = 0) (hes : es.Uses cd (out.map Prod.fst))
    (hv : LZValid cd mult cmds (out.map Prod.fst) 0) (hlen : out.length < 2 ^ 31) (hok : ∀ i ∈ lzItems cd cmds (out.map Prod.fst), i.OK co)
    (s : BR) (p : Nat) (hs : AtBit s p) (hpre : streamBitsOf co (lzItems cd cmds (out.map Prod.fst)) <+: bitsFrom s.data p)
    (hpad : p + (streamBitsOf co (lzItems cd cmds (out.map Prod.fst))).length + co.pad ≤ 8 * s.data.length) :
    ∃ planes es' s', decodeChannel c prev wp tree prev.length streamIndex mult es s = (.ok (img, planes, es'), s') ∧
      AtBit s' (p + (streamBitsOf co (lzItems cd cmds (out.map Prod.fst))).length) ∧ es'.validateFinalState = true := by
  obtain ⟨es', s', e1, e2, e3, e4⟩ := C15_lz77_partial co cd mult cmds (out.map Prod.fst) es h0 h1 h2 hes hv (by rw [List.length_map]; exact hlen) hok s p hs hpre hpad
  rw [hcmds] at e1
  have hvals := map_toU32 out hb
  obtain ⟨pl, h⟩ := C50_lossless c prev wp tree streamIndex mult img hR hS hprev hu out henc es es' s s' _ e1 hvals
  exact ⟨pl, es', s', h, e2, e4⟩

/-- A tree that uses the gradient predictor above row 0 and the weighted predictor on it. -/
def exampleTree : MATree := .node 2 0 (.node 9 5 (.leaf ⟨0, 5, 0, 1⟩) (.leaf ⟨1, 13, 3, 1⟩)) (.leaf ⟨2, 6, 0, 1⟩)

def defaultWP : WPParams := ⟨16, 10, 7, 7, 7, 0, 0, [13, 12, 12, 12]⟩

/-- The hypotheses of the theorems above are met by this tree and image, with the weighted predictor in use. -/
example : Rect 2 3 [[5, 7, 200], [-3, 0, 9]] ∧ Small [[5, 7, 200], [-3, 0, 9]] ∧ exampleTree.Usable ∧
    encodeChannel ⟨3, 2, 0, 0, false, []⟩ [] defaultWP exampleTree 0 0 0 [[5, 7, 200], [-3, 0, 9]] =
      some [(2, 10), (2, 4), (2, 386), (1, 47), (1, 105), (0, 367)] := by
  refine ⟨?_, ?_, ?_, by decide +kernel⟩
  · unfold Rect; decide
  · unfold Small; decide
  · unfold exampleTree; simp only [MATree.Usable]; decide

/-- A second channel of the same shape, whose tree tests a property of the first one. -/
def exampleTree2 : MATree := .node 18 6 (.leaf ⟨0, 2, 0, 1⟩) (.node 16 4 (.leaf ⟨1, 1, 0, 1⟩) (.leaf ⟨2, 4, 1, 1⟩))

def examplePrev : Chan := ⟨3, 2, 0, 0, false, [[5, 7, 200], [-3, 0, 9]]⟩

example : Rect examplePrev.height examplePrev.width examplePrev.buffer ∧ Small examplePrev.buffer ∧ exampleTree2.Usable ∧
    exampleTree2.Plain ∧
    encodeChannel ⟨3, 2, 0, 0, false, []⟩ [examplePrev] defaultWP exampleTree2 1 0 0 [[1, 2, 3], [4, 5, 6]] =
      some [(1, 2), (1, 2), (0, 2), (0, 6), (2, 0), (0, 6)] := by
  refine ⟨?_, ?_, ?_, ?_, by decide +kernel⟩
  · unfold Rect; decide
  · unfold Small; decide
  · unfold exampleTree2; simp only [MATree.Usable]; decide
  · unfold exampleTree2; simp only [MATree.Plain]; decide

end Jxl
