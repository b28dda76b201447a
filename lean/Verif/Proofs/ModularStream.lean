import Verif.Proofs.Transforms
import Verif.Spec.ModularStream
import Verif.Props.Modular
import Verif.Props.Util
import Verif.Props.Transforms

namespace Jxl

/-! ## Undoing does not look at the predictions left by the decoder -/

/-- A result with the value changed by `f`. -/
def Res.mapTo {α β : Type} (f : α → β) : Res α → Res β
  | .ok a => .ok (f a)
  | .err => .err
  | .panic => .panic

theorem Res.bind_mapTo {α α' β β' : Type} {f : α → α'} {h : β → β'} {r : Res α} {g : α → Res β} {g' : α' → Res β'}
    (hg : ∀ a, g' (f a) = (g a).mapTo h) : (r.mapTo f >>= g') = (r >>= g).mapTo h := by
  cases r with
  | ok a => exact hg a
  | err => rfl
  | panic => rfl

theorem Res.bind_same {α β β' : Type} {h : β → β'} {r : Res α} {g : α → Res β} {g' : α → Res β'}
    (hg : ∀ a, g' a = (g a).mapTo h) : (r >>= g') = (r >>= g).mapTo h := by
  cases r with
  | ok a => exact hg a
  | err => rfl
  | panic => rfl

theorem idx_map {α β : Type} (f : α → β) (l : List α) (i : Int) : idx (l.map f) i = (idx l i).mapTo f := by
  unfold idx
  split
  · rfl
  · rw [List.getElem?_map]
    cases l[i.toNat]? <;> rfl

theorem setAt_map {α β : Type} (f : α → β) (l : List α) (i : Int) (a : α) : setAt (l.map f) i (f a) = (setAt l i a).mapTo (List.map f) := by
  unfold setAt
  split
  · rfl
  · rw [List.length_map]
    split
    · rw [Res.mapTo, List.map_set]
    · rfl

theorem removeAt_map {α β : Type} (f : α → β) (l : List α) (i : Int) : removeAt (l.map f) i = (removeAt l i).mapTo (List.map f) := by
  unfold removeAt
  rw [List.length_map]
  split
  · rfl
  · rw [Res.mapTo, List.map_append, List.map_take, List.map_drop]

theorem forFrom_map {σ τ : Type} {e : σ → τ} {f : Nat → σ → Res σ} {g : Nat → τ → Res τ} (hf : ∀ i s, g i (e s) = (f i s).mapTo e) :
    ∀ n i s, forFrom g n i (e s) = (forFrom f n i s).mapTo e
  | 0, i, s => rfl
  | n + 1, i, s => by
    rw [forFrom, forFrom, hf]
    exact Res.bind_mapTo (fun a => forFrom_map hf n (i + 1) a)

/-- A channel without the predictions. -/
def MChan.erase (c : MChan) : MChan := { c with pred := [] }

theorem unsqueeze_erase (h : Bool) (c r : MChan) : unsqueeze h c.erase r.erase = (unsqueeze h c r).mapTo MChan.erase := by
  have e : unsqueeze h c.erase r.erase = unsqueeze h c r := rfl
  rw [e]
  have keyH : ∀ n a b : MChan, n.pred = [] → (inverseHorizontalSqueeze n a b).mapTo MChan.erase = inverseHorizontalSqueeze n a b := by
    intro n a b hn
    unfold inverseHorizontalSqueeze
    split
    · rfl
    · dsimp only
      refine (Res.bind_same (h := MChan.erase) (fun b1 => Res.bind_same (h := MChan.erase) (fun b2 => ?_))).symm
      unfold MChan.allocate
      split
      · simp only [Res.mapTo, MChan.erase, hn]
      · simp only [Res.mapTo, MChan.erase, hn]
  have keyV : ∀ n a b : MChan, n.pred = [] → (inverseVerticalSqueeze n a b).mapTo MChan.erase = inverseVerticalSqueeze n a b := by
    intro n a b hn
    unfold inverseVerticalSqueeze
    split
    · rfl
    · dsimp only
      refine (Res.bind_same (h := MChan.erase) (fun b1 => Res.bind_same (h := MChan.erase) (fun b2 => ?_))).symm
      unfold MChan.allocate
      split
      · simp only [Res.mapTo, MChan.erase, hn]
      · simp only [Res.mapTo, MChan.erase, hn]
  unfold unsqueeze
  split
  · exact (keyH _ _ _ rfl).symm
  · exact (keyV _ _ _ rfl).symm

theorem undoSqueezeStep_erase (sp : SqueezeParam) (chs : List MChan) :
    undoSqueezeStep sp (chs.map MChan.erase) = (undoSqueezeStep sp chs).mapTo (List.map MChan.erase) := by
  unfold undoSqueezeStep undoSqueezeChannels
  rw [List.length_map, forFrom_map (e := List.map MChan.erase) (f := fun c chs' => do
    let ch ← idx chs' (c : Int)
    let residu ← idx chs' (squeezeOffset sp chs.length + c - sp.beginC)
    let o ← unsqueeze sp.horizontal ch residu
    setAt chs' (c : Int) o)]
  · apply Res.bind_mapTo
    intro l
    apply forFrom_map
    intro i s
    exact removeAt_map _ _ _
  · intro i s
    rw [idx_map]
    apply Res.bind_mapTo
    intro a
    rw [idx_map]
    apply Res.bind_mapTo
    intro b
    rw [unsqueeze_erase]
    apply Res.bind_mapTo
    intro o
    exact setAt_map _ _ _ _

theorem undoSqueeze_erase : ∀ (sps : List SqueezeParam) (chs : List MChan),
    undoSqueeze sps (chs.map MChan.erase) = (undoSqueeze sps chs).mapTo (List.map MChan.erase)
  | [], chs => rfl
  | sp :: sps, chs => by
    rw [undoSqueeze, undoSqueeze, undoSqueeze_erase sps chs]
    exact Res.bind_mapTo (fun l => undoSqueezeStep_erase sp l)

theorem undoRCT_erase (start ty : Nat) (chs : List MChan) :
    undoRCT start ty (chs.map MChan.erase) = (undoRCT start ty chs).mapTo (List.map MChan.erase) := by
  unfold undoRCT
  rw [idx_map]
  apply Res.bind_mapTo
  intro a
  rw [idx_map]
  apply Res.bind_mapTo
  intro b
  rw [idx_map]
  apply Res.bind_mapTo
  intro c
  apply Res.bind_same
  intro v
  apply Res.bind_same
  intro p
  have e1 := setAt_map MChan.erase chs ((start + p.1 : Nat) : Int) { a with buffer := v.a }
  rw [show ({ a.erase with buffer := v.a } : MChan) = MChan.erase { a with buffer := v.a } from rfl, e1]
  apply Res.bind_mapTo
  intro l
  have e2 := setAt_map MChan.erase l ((start + p.2.1 : Nat) : Int) { b with buffer := v.b }
  rw [show ({ b.erase with buffer := v.b } : MChan) = MChan.erase { b with buffer := v.b } from rfl, e2]
  apply Res.bind_mapTo
  intro l
  exact setAt_map MChan.erase l ((start + p.2.2 : Nat) : Int) { c with buffer := v.c }

theorem prediction_pred {w : Int} {b p q : List (List Int)} {y x k : Int} (hk : k ≠ 6) : prediction w b p y x k = prediction w b q y x k := by
  unfold prediction
  simp only [if_neg hk]

/-- A numbered channel without the predictions. -/
def eraseRef (r : ChanRef) : ChanRef := (r.1, r.2.erase)

theorem paletteChannel_erase {t : TransformInfo} (hp : t.dPred ≠ 6) (c0 : List (List Int)) (bitDepth h w c : Nat) (ch : MChan) :
    paletteChannel t c0 bitDepth h w c ch.erase = (paletteChannel t c0 bitDepth h w c ch).mapTo MChan.erase := by
  have e : ∀ y x b, paletteSample t c0 bitDepth c ch.erase y x b = paletteSample t c0 bitDepth c ch y x b := by
    intro y x b
    unfold paletteSample addDelta
    have : ∀ b : List (List Int), prediction (ch.erase.width : Int) b ch.erase.pred y x t.dPred = prediction (ch.width : Int) b ch.pred y x t.dPred :=
      fun b => prediction_pred (by exact_mod_cast hp)
    simp only [this]
  unfold paletteChannel
  simp only [e]
  apply Res.bind_same
  intro b
  rfl

theorem addElem_map {α β : Type} (f : α → β) (l : List α) (i : Nat) (x : α) : addElem (l.map f) i (f x) = (addElem l i x).mapTo (List.map f) := by
  unfold addElem goAdd
  simp only [List.length_map]
  split
  · rfl
  · simp only [Int.toNat_natCast]
    split
    · rfl
    · simp only [Res.bind_ok, Res.mapTo]
      congr 1
      split
      · simp only [List.map_append, List.map_take, List.map_drop, List.map_set, List.map_cons, List.map_nil]
      · simp only [List.map_append, List.map_take, List.map_drop, List.map_cons, List.map_nil]

theorem undoPalette_erase {t : TransformInfo} (hp : t.dPred ≠ 6) (bitDepth : Nat) (chs : List MChan) :
    undoPalette t bitDepth (chs.map MChan.erase) = (undoPalette t bitDepth chs).mapTo (List.map MChan.erase) := by
  unfold undoPalette
  rw [idx_map]
  apply Res.bind_mapTo
  intro first
  rw [idx_map]
  apply Res.bind_mapTo
  intro c0
  have e0 : (chs.map MChan.erase).map (fun c => ((0, c) : ChanRef)) = (chs.map (fun c => ((0, c) : ChanRef))).map eraseRef := by
    rw [List.map_map, List.map_map]; rfl
  rw [e0, forFrom_map (e := List.map eraseRef) (f := addCopy first)]
  · apply Res.bind_mapTo
    intro l
    rw [forFrom_map (e := List.map eraseRef) (f := paletteComponent t bitDepth c0.buffer first)]
    · apply Res.bind_mapTo
      intro l
      simp only [Res.mapTo, List.map_drop, List.map_map]
      rfl
    · intro i s
      unfold paletteComponent
      rw [idx_map]
      apply Res.bind_mapTo
      intro ch
      show (paletteChannel t c0.buffer bitDepth first.height first.width i ch.2.erase >>= _) = _
      rw [paletteChannel_erase hp]
      apply Res.bind_mapTo
      intro o
      unfold writeRef
      show (if ch.1 = 0 then _ else _) = _
      split
      · exact setAt_map eraseRef s _ (0, o)
      · simp only [Res.mapTo, List.map_map]
        congr 1
        apply List.map_congr_left
        intro r _
        simp only [Function.comp]
        by_cases hr : r.1 = ch.1
        · rw [if_pos (show (eraseRef r).1 = (eraseRef ch).1 from hr), if_pos hr]; rfl
        · rw [if_neg (show ¬ (eraseRef r).1 = (eraseRef ch).1 from hr), if_neg hr]
  · intro i s
    unfold addCopy
    exact addElem_map eraseRef s i (i, first.copy)

/-! ## Planning squeezes -/

theorem halve_blank {h : Bool} {c : MChan} (hw : c.width < 2 ^ 32 - 1 ∧ c.height < 2 ^ 32 - 1) :
    halve h c.blank = ((squeeze1 h c).1.blank, (squeeze1 h c).2.blank) := by
  have u1 : u32 (c.width + 1) = c.width + 1 := by unfold u32; omega
  have u2 : u32 (c.height + 1) = c.height + 1 := by unfold u32; omega
  cases h
  · simp only [halve, squeeze1, squeezeV, MChan.blank, MChan.copy, u2]; rfl
  · simp only [halve, squeeze1, squeezeH, MChan.blank, MChan.copy, u1]; rfl

theorem addToSlice_at {α : Type} (a b : List α) (x : α) (hne : 0 < (a ++ b).length) : addToSlice ⟨a ++ b, (a ++ b).length⟩ (a.length : Int) x = .ok (a ++ x :: b) := by
  have := C25_addToSlice (⟨a ++ b, (a ++ b).length⟩ : Slice α) (Nat.le_refl _) a.length (by simp) x
  rw [this]
  unfold insertAt Slice.elems
  dsimp only
  rw [List.take_length, List.take_left, List.drop_left]

theorem planChannels_ok {sp : SqueezeParam} {off : Int} (pre t1 t2 : List MChan) (hb : sp.beginC = pre.length) : ∀ (todo done dres : List MChan),
    dres.length = done.length → off = ((pre.length + (done.length + todo.length) + t1.length : Nat) : Int) →
    planChannels sp off todo.length (pre.length + done.length) (pre ++ done ++ todo ++ t1 ++ dres ++ t2) =
      .ok (pre ++ done ++ todo.map (fun c => (halve sp.horizontal c).1) ++ t1 ++ dres ++ todo.map (fun c => (halve sp.horizontal c).2) ++ t2)
  | [], done, dres, hl, ho => by simp [planChannels, forFrom]
  | c :: todo, done, dres, hl, ho => by
    have ih := planChannels_ok (off := off) pre t1 t2 hb todo (done ++ [(halve sp.horizontal c).1]) (dres ++ [(halve sp.horizontal c).2]) (by simp [hl])
      (by rw [ho]; simp; omega)
    unfold planChannels at ih ⊢
    rw [List.length_cons, forFrom]
    have g1 : idx (pre ++ done ++ (c :: todo) ++ t1 ++ dres ++ t2) ((pre.length + done.length : Nat) : Int) = .ok c := by
      have := idx_mid (pre ++ done) 0 (c :: (todo ++ t1 ++ dres ++ t2)) c rfl
      rw [show (((pre ++ done).length : Int) + (0 : Nat)) = ((pre.length + done.length : Nat) : Int) by simp] at this
      rw [← this]; simp
    have g2 : setAt (pre ++ done ++ (c :: todo) ++ t1 ++ dres ++ t2) ((pre.length + done.length : Nat) : Int) (halve sp.horizontal c).1 =
        .ok ((pre ++ done ++ (halve sp.horizontal c).1 :: todo ++ t1 ++ dres) ++ t2) := by
      have := setAt_mid (pre ++ done) 0 (c :: (todo ++ t1 ++ dres ++ t2)) (halve sp.horizontal c).1 (by simp)
      rw [show (((pre ++ done).length : Int) + (0 : Nat)) = ((pre.length + done.length : Nat) : Int) by simp] at this
      rw [show pre ++ done ++ (c :: todo) ++ t1 ++ dres ++ t2 = pre ++ done ++ (c :: (todo ++ t1 ++ dres ++ t2)) by simp, this]
      simp
    have g3 : off + ((pre.length + done.length : Nat) : Int) - (sp.beginC : Int) = ((pre ++ done ++ (halve sp.horizontal c).1 :: todo ++ t1 ++ dres).length : Int) := by
      rw [ho, hb]; simp only [List.length_append, List.length_cons]; omega
    simp only [g1, Res.bind_ok, g2, g3]
    rw [addToSlice_at _ _ _ (by simp), Res.bind_ok]
    rw [List.length_append, List.length_singleton, ← Nat.add_assoc] at ih
    have e1 : pre ++ done ++ (halve sp.horizontal c).1 :: todo ++ t1 ++ dres ++ (halve sp.horizontal c).2 :: t2 =
      pre ++ (done ++ [(halve sp.horizontal c).1]) ++ todo ++ t1 ++ (dres ++ [(halve sp.horizontal c).2]) ++ t2 := by simp
    rw [e1, ih]
    simp

theorem SizesOK.step {sp : SqueezeParam} {chs : List MChan} (h : SizesOK chs) : SizesOK (squeezeStep sp chs) := by
  have h1 : ∀ c ∈ (chs.drop sp.beginC).take sp.numC, c ∈ chs := fun c hc => List.mem_of_mem_drop (List.mem_of_mem_take hc)
  have h2 : ∀ c ∈ (chs.drop sp.beginC).take sp.numC, ((squeeze1 sp.horizontal c).1.width < 2 ^ 32 - 1 ∧ (squeeze1 sp.horizontal c).1.height < 2 ^ 32 - 1) ∧
      ((squeeze1 sp.horizontal c).2.width < 2 ^ 32 - 1 ∧ (squeeze1 sp.horizontal c).2.height < 2 ^ 32 - 1) := by
    intro c hc
    have := h c (h1 c hc)
    unfold squeeze1
    split
    · dsimp only [squeezeH]; omega
    · dsimp only [squeezeV]; omega
  intro c hc
  unfold squeezeStep at hc
  dsimp only at hc
  have : c ∈ chs.take sp.beginC ∨ (c ∈ ((chs.drop sp.beginC).take sp.numC).map (fun c => (squeeze1 sp.horizontal c).1)) ∨
      (c ∈ ((chs.drop sp.beginC).take sp.numC).map (fun c => (squeeze1 sp.horizontal c).2)) ∨ c ∈ chs.drop (sp.beginC + sp.numC) := by
    split at hc
    · simp only [List.mem_append] at hc; tauto
    · simp only [List.mem_append] at hc; tauto
  rcases this with g | g | g | g
  · exact h c (List.mem_of_mem_take g)
  · obtain ⟨d, d1, rfl⟩ := List.mem_map.1 g
    exact (h2 d d1).1
  · obtain ⟨d, d1, rfl⟩ := List.mem_map.1 g
    exact (h2 d d1).2
  · exact h c (List.mem_of_mem_drop g)

theorem halves_blank {h : Bool} {sel : List MChan} (hs : ∀ c ∈ sel, c.width < 2 ^ 32 - 1 ∧ c.height < 2 ^ 32 - 1) :
    (sel.map MChan.blank).map (fun c => (halve h c).1) = (sel.map (fun c => (squeeze1 h c).1)).map MChan.blank ∧
    (sel.map MChan.blank).map (fun c => (halve h c).2) = (sel.map (fun c => (squeeze1 h c).2)).map MChan.blank := by
  simp only [List.map_map]
  constructor
  · apply List.map_congr_left
    intro c hc
    simp only [Function.comp, halve_blank (hs c hc)]
  · apply List.map_congr_left
    intro c hc
    simp only [Function.comp, halve_blank (hs c hc)]

theorem planStep_ok {sp : SqueezeParam} {chs : List MChan} {m : Int} {m' : Int} (hl : sp.beginC + sp.numC ≤ chs.length) (hsz : SizesOK chs) (hm : planMeta sp m = .ok m') :
    planStep sp ⟨chs.map MChan.blank, m⟩ = .ok ⟨(squeezeStep sp chs).map MChan.blank, m'⟩ := by
  obtain ⟨pre, sel, rest, e, h1, h2⟩ : ∃ pre sel rest, chs = pre ++ sel ++ rest ∧ pre.length = sp.beginC ∧ sel.length = sp.numC := by
    refine ⟨chs.take sp.beginC, (chs.drop sp.beginC).take sp.numC, chs.drop (sp.beginC + sp.numC), ?_, ?_, ?_⟩
    · rw [← List.drop_drop, List.append_assoc, List.take_append_drop, List.take_append_drop]
    · rw [List.length_take]; omega
    · rw [List.length_take, List.length_drop]; omega
  subst e
  have e1 : ((pre ++ sel ++ rest).drop sp.beginC).take sp.numC = sel := by
    rw [← h1, ← h2, List.append_assoc, List.drop_left, List.take_left]
  have e2 : (pre ++ sel ++ rest).drop (sp.beginC + sp.numC) = rest := by
    rw [← h1, ← h2, ← List.length_append, List.drop_left]
  have e3 : (pre ++ sel ++ rest).take sp.beginC = pre := by
    rw [← h1, List.append_assoc, List.take_left]
  have hh := halves_blank (h := sp.horizontal) (sel := sel) (fun c hc => hsz c (by simp [hc]))
  unfold planStep
  rw [hm, Res.bind_ok]
  unfold squeezeStep
  dsimp only
  rw [e1, e2, e3]
  cases hi : sp.inPlace with
  | true =>
    have key := planChannels_ok (sp := sp) (off := (sp.beginC : Int) + sp.numC) (pre.map MChan.blank) [] (rest.map MChan.blank) (by simp [h1]) (sel.map MChan.blank) [] [] rfl
      (by simp only [List.length_map, List.length_nil]; omega)
    simp only [List.length_map, List.length_nil, Nat.add_zero, List.append_nil, hh.1, hh.2, h1, h2] at key
    simp only [if_true, List.map_append] at key ⊢
    rw [key, Res.bind_ok]
  | false =>
    have key := planChannels_ok (sp := sp) (off := (((pre ++ sel ++ rest).length : Nat) : Int)) (pre.map MChan.blank) (rest.map MChan.blank) [] (by simp [h1]) (sel.map MChan.blank) [] [] rfl
      (by simp only [List.length_map, List.length_nil, List.length_append]; omega)
    simp only [List.length_map, List.length_nil, Nat.add_zero, List.append_nil, hh.1, hh.2, h1, h2] at key
    simp only [if_false, List.map_append, List.length_append, List.length_map, Bool.false_eq_true] at key ⊢
    rw [key, Res.bind_ok]

theorem planMeta_ok {sp : SqueezeParam} {sps : List SqueezeParam} {m m' : Nat} (h : MetaSteps (sp :: sps) m m') :
    ∃ m1 : Nat, planMeta sp m = .ok (m1 : Int) ∧ MetaSteps sps m1 m' := by
  unfold MetaSteps at h
  unfold planMeta
  by_cases hb : sp.beginC < m
  · rw [if_pos hb] at h
    refine ⟨m + sp.numC, ?_, h.2.2⟩
    rw [if_pos (by omega), if_neg (by rw [h.1]; decide), if_neg (by omega)]
    rfl
  · rw [if_neg hb] at h
    exact ⟨m, by rw [if_neg (by omega)], h⟩

theorem planSteps_ok : ∀ (sps : List SqueezeParam) (chs : List MChan) (m m' : Nat), StepsOK sps chs → SizesOK chs → MetaSteps sps m m' →
    planSteps sps ⟨chs.map MChan.blank, m⟩ = .ok ⟨(squeezeAll sps chs).map MChan.blank, m'⟩
  | [], chs, m, m', _, _, hm => by
    have : m' = m := hm
    subst this; rfl
  | sp :: sps, chs, m, m', hs, hz, hm => by
    obtain ⟨m1, p1, p2⟩ := planMeta_ok hm
    rw [planSteps, planStep_ok hs.1 hz p1, Res.bind_ok, squeezeAll]
    exact planSteps_ok sps _ m1 m' hs.2.2 hz.step p2

/-! ## The default squeeze -/

theorem codeLoop_eq (first count : Nat) : ∀ (n w h : Nat), w + h ≤ n → w < 2 ^ 32 - 1 → h < 2 ^ 32 - 1 → codeLoop first count n w h = defaultLoop first count w h
  | 0, w, h, hn, _, _ => by
    rw [codeLoop, defaultLoop, if_neg (by omega), if_neg (by omega)]
  | n + 1, w, h, hn, hw, hh => by
    rw [codeLoop, defaultLoop]
    have u1 : u32 (w + 1) = w + 1 := by unfold u32; omega
    have u2 : u32 (h + 1) = h + 1 := by unfold u32; omega
    rw [u1, u2]
    by_cases h1 : w > 8
    · by_cases h2 : h > 8
      · rw [if_pos (Or.inl h1), if_pos h1, if_pos h2, if_pos h1, if_pos h2, if_pos h1, if_pos h2, codeLoop_eq first count n _ _ (by omega) (by omega) (by omega)]
        rfl
      · rw [if_pos (Or.inl h1), if_pos h1, if_neg h2, if_pos h1, if_neg h2, if_pos h1, if_neg h2, codeLoop_eq first count n _ _ (by omega) (by omega) (by omega)]
        rfl
    · by_cases h2 : h > 8
      · rw [if_pos (Or.inr h2), if_neg h1, if_pos h2, if_neg h1, if_pos h2, if_neg h1, if_pos h2, codeLoop_eq first count n _ _ (by omega) (by omega) (by omega)]
        rfl
      · rw [if_neg (by omega), if_neg h1, if_neg h2]

theorem codeDefault_ok {chs : List MChan} (hne : chs ≠ []) (hsz : SizesOK chs) : codeDefault ⟨chs.map MChan.blank, 0⟩ = .ok (defaultSqueeze 0 chs) := by
  cases chs with
  | nil => exact absurd rfl hne
  | cons c rest =>
    have hc := hsz c (by simp)
    have u2 : u32 (c.height + 1) = c.height + 1 := by unfold u32; omega
    unfold codeDefault defaultSqueeze
    rw [if_neg (show ¬ (0 : Int) < 0 by decide)]
    have i0 : idx ((c :: rest).map MChan.blank) 0 = .ok c.blank := rfl
    dsimp only
    rw [i0, Res.bind_ok]
    have ht : chromaTest ((c :: rest).map MChan.blank) (Int.toNat 0) c.blank = .ok (chromaLike c rest) := by
      unfold chromaTest
      match rest with
      | [] => rfl
      | [c1] => rfl
      | c1 :: c2 :: r =>
        rw [if_pos (by simp)]
        have i1 : idx ((c :: c1 :: c2 :: r).map MChan.blank) ((Int.toNat 0 : Nat) + 1 : Int) = .ok c1.blank := rfl
        rw [i1, Res.bind_ok]
        congr 1
        show (c.width == c1.width && c.height == c1.height) = (c1.width == c.width && c1.height == c.height)
        rw [Bool.beq_comm (a := c.width), Bool.beq_comm (a := c.height)]
    rw [ht, Res.bind_ok]
    simp only [Int.toNat_zero, List.drop_zero, List.length_map, List.length_cons, Nat.sub_zero]
    have hb1 : c.blank.height = c.height := rfl
    have hb2 : c.blank.width = c.width := rfl
    rw [hb1, hb2, u2]
    by_cases htall : c.height ≥ c.width ∧ c.height > 8
    · rw [if_pos htall, if_pos htall, if_pos htall, codeLoop_eq _ _ _ _ _ (Nat.le_refl _) (by omega) (by omega), List.append_assoc]
      rfl
    · rw [if_neg htall, if_neg htall, if_neg htall, codeLoop_eq _ _ _ _ _ (Nat.le_refl _) (by omega) (by omega), List.append_assoc]
      rfl

/-! ## Transforms -/

theorem metaSteps_zero : ∀ sps, MetaSteps sps 0 0
  | [] => rfl
  | sp :: sps => by
    unfold MetaSteps
    rw [if_neg (by omega)]
    exact metaSteps_zero sps

theorem sameShape.blank {c d : MChan} (h : c.sameShape d) (b b' : List (List Int)) : ({ c with buffer := b } : MChan).blank = ({ d with buffer := b' } : MChan).blank := by
  obtain ⟨h1, h2, h3, h4, h5⟩ := h
  simp only [MChan.blank]
  rw [h1, h2, h3, h4, h5]

theorem removes_ok (L : List MChan) : ∀ (R t : List MChan) (i : Nat), forFrom (fun _ l => removeAt l (L.length : Int)) R.length i (L ++ R ++ t) = .ok (L ++ t) :=
  fun R t i => remove_all L t R i

/-- What an encoder did with a transform is what the decoder plans for, and what it undoes. -/
theorem applies_ok {bitDepth : Nat} {t : TransformInfo} {m m' : Nat} {chs enc : List MChan} (h : Applies bitDepth t m chs m' enc) :
    ∃ sps, planTransform t ⟨chs.map MChan.blank, m⟩ = .ok (⟨enc.map MChan.blank, m'⟩, sps) ∧ undoTransform bitDepth t sps enc = .ok chs ∧
      ∀ l, undoTransform bitDepth t sps (l.map MChan.erase) = (undoTransform bitDepth t sps l).mapTo (List.map MChan.erase) := by
  match h with
  | .rct _ _ h w pre post o0 o1 o2 htr hty hb h0 h1 h2 s1 s2 =>
    refine ⟨[], ?_, ?_, ?_⟩
    · unfold planTransform
      rw [if_neg (by omega), if_neg (by omega), if_pos htr]
      congr 3
      have s0 : o0.sameShape o0 := ⟨rfl, rfl, rfl, rfl, rfl⟩
      have hx : ∀ k, o0.sameShape (pick3 o0 o1 o2 k) := by
        intro k
        match k with
        | 0 => exact s0
        | 1 => exact s1
        | (n + 2) => exact s2
      have hb0 : o0.blank = o1.blank ∧ o0.blank = o2.blank := ⟨sameShape.blank s1 o0.buffer o1.buffer, sameShape.blank s2 o0.buffer o2.buffer⟩
      have g1 : (encodeRCT t.rctType o0 o1 o2).1.blank = o0.blank := (sameShape.blank (hx _) o0.buffer _).symm
      have g2 : (encodeRCT t.rctType o0 o1 o2).2.1.blank = o0.blank := (sameShape.blank (hx _) o0.buffer _).symm
      have g3 : (encodeRCT t.rctType o0 o1 o2).2.2.blank = o0.blank := (sameShape.blank (hx _) o0.buffer _).symm
      simp only [List.map_append, List.map_cons, List.map_nil, g1, g2, g3, ← hb0.1, ← hb0.2]
    · unfold undoTransform
      rw [if_neg (by omega), if_pos htr, hb]
      exact undoRCT_ok h0 h1 h2 hty pre post
    · intro l
      unfold undoTransform
      rw [if_neg (by omega), if_pos htr, if_neg (by omega), if_pos htr]
      exact undoRCT_erase _ _ _
  | .steps _ _ _ _ htr hne hm hs hsz =>
    refine ⟨t.sp, ?_, ?_, ?_⟩
    · unfold planTransform
      have : ¬ t.sp.length = 0 := by rw [List.length_eq_zero_iff]; exact hne
      rw [if_neg (by omega), if_pos htr, if_neg this, Res.bind_ok]
      dsimp only
      rw [planSteps_ok _ _ _ _ hs hsz hm, Res.bind_ok]
    · unfold undoTransform
      rw [if_pos htr]
      exact undoSqueeze_ok _ _ hs
    · intro l
      unfold undoTransform
      rw [if_pos htr, if_pos htr]
      exact undoSqueeze_erase _ _
  | .default _ chs hchs htr hne hs hsz =>
    refine ⟨defaultSqueeze 0 chs, ?_, ?_, ?_⟩
    · unfold planTransform
      rw [if_neg (by omega), if_pos htr, if_pos (by rw [hne]; rfl)]
      have hd := codeDefault_ok hchs hsz
      have hp := planSteps_ok _ _ 0 0 hs hsz (metaSteps_zero _)
      simp only [Int.ofNat_zero, Nat.cast_zero] at hp ⊢
      rw [hd, Res.bind_ok, hp, Res.bind_ok]
    · unfold undoTransform
      rw [if_pos htr]
      exact undoSqueeze_ok _ _ hs
    · intro l
      unfold undoTransform
      rw [if_pos htr, if_pos htr]
      exact undoSqueeze_erase _ _
  | .palette _ _ _ pre post palch first outs htr hd hpred hpal hpr hf hfr h32 ho hp hn hpost hm =>
    refine ⟨[], ?_, ?_, ?_⟩
    · unfold planTransform
      rw [if_pos htr]
      unfold planPalette
      obtain ⟨n, hn'⟩ : ∃ n, t.numC = n + 1 := ⟨t.numC - 1, by omega⟩
      have e1 : (pre ++ (List.range t.numC).map (fun c => ({ first with buffer := outs c } : MChan)) ++ post).map MChan.blank =
          (pre.map MChan.blank ++ [first.blank]) ++ List.replicate n first.blank ++ post.map MChan.blank := by
        rw [hn', List.map_append, List.map_append, List.append_assoc (pre.map MChan.blank) [first.blank]]
        congr 2
        rw [List.map_map, List.singleton_append, ← List.replicate_succ, List.eq_replicate_iff]
        refine ⟨by simp, ?_⟩
        intro b hb
        obtain ⟨c, -, rfl⟩ := List.mem_map.1 hb
        rfl
      have e2 := removes_ok (pre.map MChan.blank ++ [first.blank]) (List.replicate n first.blank) (post.map MChan.blank) 0
      rw [List.length_replicate, show (((pre.map MChan.blank ++ [first.blank]).length : Nat) : Int) = (t.beginC : Int) + 1 by simp [hp]] at e2
      dsimp only
      rw [e1, show t.numC - 1 = n by omega, e2, Res.bind_ok]
      unfold planForceWP
      rw [if_neg (by omega), Res.bind_ok, Res.bind_ok]
      congr 3
      · simp only [List.map_append, List.map_cons, hpal, List.append_assoc, List.cons_append, List.nil_append]
      · split at hm
        · rw [if_pos (by omega)]; omega
        · rw [if_neg (by omega)]; omega
    · unfold undoTransform
      rw [if_neg (by omega), if_neg (by omega), if_pos htr]
      have := C24_expand_partial t bitDepth palch first outs ⟨hpr, hd, hpred⟩ hfr h32 (fun c hc => ⟨(ho c hc).1, (ho c hc).2.1.bounded, (ho c hc).2.2⟩) pre post hp hn hpost
      rw [this]
      congr 3
      apply List.map_congr_left
      intro c _
      unfold expanded
      rw [hf]
      congr 1
      · split <;> rfl
    · intro l
      unfold undoTransform
      rw [if_neg (by omega), if_neg (by omega), if_pos htr, if_neg (by omega), if_neg (by omega), if_pos htr]
      exact undoPalette_erase hpred.2 _ _

theorem appliesAll_ok {bitDepth : Nat} {ts : List TransformInfo} {m m' : Nat} {chs enc : List MChan} (h : AppliesAll bitDepth ts m chs m' enc) :
    ∃ l, planAll ts ⟨chs.map MChan.blank, m⟩ = .ok (⟨enc.map MChan.blank, m'⟩, l) ∧ applyTransforms bitDepth l enc = .ok chs ∧
      ∀ cs, applyTransforms bitDepth l (cs.map MChan.erase) = (applyTransforms bitDepth l cs).mapTo (List.map MChan.erase) := by
  induction h with
  | nil m chs => exact ⟨[], rfl, rfl, fun cs => rfl⟩
  | @cons t ts m m1 m2 chs chs1 chs2 h1 h2 ih =>
    obtain ⟨sps, a1, a2, a3⟩ := applies_ok h1
    obtain ⟨l, b1, b2, b3⟩ := ih
    refine ⟨(t, sps) :: l, ?_, ?_, ?_⟩
    · rw [planAll, a1, Res.bind_ok, b1, Res.bind_ok]
    · rw [applyTransforms, b2, Res.bind_ok, a2]
    · intro cs
      rw [applyTransforms, applyTransforms, b3]
      exact Res.bind_mapTo (fun x => a3 x)

/-! ## Decoding the channels -/

theorem readSeq_halves (mult : Int) : ∀ (a b : List Int) (es es' : ES) (s s' : BR) (vals : List Int), ES.readSeq mult (a ++ b) es s = (.ok (vals, es'), s') →
    ∃ v1 v2 es1 s1, ES.readSeq mult a es s = (.ok (v1, es1), s1) ∧ ES.readSeq mult b es1 s1 = (.ok (v2, es'), s') ∧ vals = v1 ++ v2 ∧ v1.length = a.length
  | [], b, es, es', s, s', vals, h => ⟨[], vals, es, s, rfl, h, rfl, rfl⟩
  | c :: a, b, es, es', s, s', vals, h => by
    rw [List.cons_append, ES.readSeq] at h
    rw [Rd.bind_eq] at h
    cases hx : es.readSymbolMul c mult s with
    | mk r s1 =>
      rw [hx] at h
      cases r with
      | err => simp at h
      | panic => simp at h
      | ok x =>
        obtain ⟨v, es1⟩ := x
        dsimp only at h
        rw [Rd.bind_eq] at h
        cases hy : ES.readSeq mult (a ++ b) es1 s1 with
        | mk r2 s2 =>
          rw [hy] at h
          cases r2 with
          | err => simp at h
          | panic => simp at h
          | ok y =>
            obtain ⟨vs, es2⟩ := y
            dsimp only at h
            rw [Rd.pure_eq] at h
            simp only [Prod.mk.injEq, Res.ok.injEq] at h
            obtain ⟨⟨rfl, rfl⟩, rfl⟩ := h
            obtain ⟨v1, v2, es3, s3, e1, e2, e3, e4⟩ := readSeq_halves mult a b es1 es2 s1 s2 vs hy
            refine ⟨v :: v1, v2, es3, s3, ?_, e2, by rw [e3]; rfl, by simp [e4]⟩
            rw [ES.readSeq, Rd.bind_ok hx]
            dsimp only
            rw [Rd.bind_ok e1]
            rfl

theorem decodeAll_ok {wp : WPParams} {tree : MATree} {streamIndex mult : Int} (hu : tree.Usable) : ∀ (cs done D : List MChan) (out : List (Int × Nat)) (es es' : ES) (s s' : BR) (vals : List Int),
    D.map MChan.erase = done.map MChan.erase → (∀ c ∈ done ++ cs, c.Shaped ∧ Small c.buffer) →
    encodeAll wp tree streamIndex mult cs done = some out → ES.readSeq mult (out.map Prod.fst) es s = (.ok (vals, es'), s') → vals.map toU32 = out.map Prod.snd →
    ∃ R, decodeAll wp tree streamIndex mult (cs.map MChan.blank) D es s = (.ok (R, es'), s') ∧ R.map MChan.erase = (done ++ cs).map MChan.erase
  | [], done, D, out, es, es', s, s', vals, hD, hS, henc, hseq, hv => by
    simp only [encodeAll, Option.some.injEq] at henc
    subst henc
    simp only [List.map_nil, ES.readSeq] at hseq
    rw [Rd.pure_eq] at hseq
    cases hseq
    exact ⟨D, rfl, by rw [hD, List.append_nil]⟩
  | c :: cs, done, D, out, es, es', s, s', vals, hD, hS, henc, hseq, hv => by
    unfold encodeAll at henc
    cases ho : encodeChannel c.blank.toChan (done.map MChan.toChan) wp tree done.length streamIndex mult c.buffer with
    | none => rw [ho] at henc; cases henc
    | some o =>
      rw [ho] at henc
      simp only [Option.bind_eq_bind, Option.bind_some] at henc
      cases hos : encodeAll wp tree streamIndex mult cs (done ++ [c]) with
      | none => rw [hos] at henc; cases henc
      | some os =>
        rw [hos] at henc
        simp only [Option.bind_some, Option.some.injEq] at henc
        subst henc
        rw [List.map_append] at hseq hv
        obtain ⟨v1, v2, es1, s1, e1, e2, e3, e4⟩ := readSeq_halves mult _ _ es es' s s' vals hseq
        subst e3
        rw [List.map_append] at hv
        obtain ⟨hv1, hv2⟩ := List.append_inj hv (by rw [List.length_map, e4, List.length_map, List.length_map])
        have hlen : D.length = done.length := by
          have := congrArg List.length hD
          simpa using this
        have hch : D.map MChan.toChan = done.map MChan.toChan := by
          have := congrArg (List.map MChan.toChan) hD
          rw [List.map_map, List.map_map] at this
          exact this
        have hc := hS c (by simp)
        obtain ⟨pl, e5⟩ := C50_lossless c.blank.toChan (done.map MChan.toChan) wp tree streamIndex mult c.buffer hc.1 hc.2
          (by
            intro d hd
            obtain ⟨x, hx, rfl⟩ := List.mem_map.1 hd
            have := hS x (by simp [hx])
            exact ⟨this.1, this.2⟩) hu o (by rw [List.length_map]; exact ho) es es1 s s1 v1 e1 hv1
        rw [List.length_map] at e5
        obtain ⟨R, r1, r2⟩ := decodeAll_ok hu cs (done ++ [c]) (D ++ [{ c.blank with buffer := c.buffer, pred := pl.pred }]) os es1 es' s1 s' v2
          (by rw [List.map_append, List.map_append, hD]; rfl)
          (by intro d hd; exact hS d (by simpa using hd)) hos e2 hv2
        refine ⟨R, ?_, by rw [r2]; simp⟩
        rw [List.map_cons, decodeAll, hch, hlen, Rd.bind_ok e5]
        exact r1

end Jxl
