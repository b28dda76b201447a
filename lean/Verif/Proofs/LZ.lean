import Verif.Proofs.Hybrid
/-!
# LZ77
-/
namespace Jxl
open Spec

theorem i32_id (x : Int) (h1 : -2147483648 ≤ x) (h2 : x < 2147483648) : i32 x = x := by unfold i32; omega

theorem ring_nat (n : Nat) : ring (n : Int) = n % 2 ^ 20 := by unfold ring; omega

/-- `n` copied values. -/
def copyN : Nat → ES → List Int × ES
  | 0, es => ([], es)
  | n + 1, es => (es.copyOne.1 :: (copyN n es.copyOne.2).1, (copyN n es.copyOne.2).2)

/-- What does not change while values are read. -/
structure SameStatic (a b : ES) : Prop where
  clusterMap : b.clusterMap = a.clusterMap
  dists : b.dists = a.dists
  uses : b.usesLZ77 = a.usesLZ77
  cfg : b.lzLengthConfig = a.lzLengthConfig
  ms : b.minSymbol = a.minSymbol
  ml : b.minLength = a.minLength

theorem SameStatic.refl (a : ES) : SameStatic a a := ⟨rfl, rfl, rfl, rfl, rfl, rfl⟩
theorem SameStatic.trans {a b c : ES} (h : SameStatic a b) (g : SameStatic b c) : SameStatic a c :=
  ⟨g.1.trans h.1, g.2.trans h.2, g.3.trans h.3, g.4.trans h.4, g.5.trans h.5, g.6.trans h.6⟩

theorem SameStatic.distOf {a b : ES} (h : SameStatic a b) (c : Int) : b.distOf c = a.distOf c := by
  unfold ES.distOf; rw [h.clusterMap, h.dists]

theorem SameStatic.uses' {a b : ES} (h : SameStatic a b) {cd : Codes} {ctxs : List Int} (hu : a.Uses cd ctxs) : b.Uses cd ctxs := by
  refine ⟨fun c hc => by rw [h.distOf]; exact hu.dist c hc, ?_⟩
  have := hu.lz
  revert this
  cases cd.lz with
  | none => intro this; simp only at this ⊢; rw [h.uses]; exact this
  | some z =>
    simp only
    rw [h.uses, h.ms, h.ml, h.cfg, h.clusterMap, h.dists]
    exact id

/-- The history invariant while a copy from `d` back is under way. -/
structure Copying (es : ES) (out : List Int) (d n : Nat) : Prop where
  copy : es.numToCopy = n
  pos : es.copyPos = (out.length : Int) - d
  count : es.numDecoded = out.length
  window : ∀ j, j < out.length → out.length ≤ j + 2 ^ 20 → es.window ((j + 1) % 2 ^ 20) = out.getD j 0

theorem ring_ne (a b : Nat) (h : a < b) (hd : b - a < 2 ^ 20) : a % 2 ^ 20 ≠ b % 2 ^ 20 := by omega

theorem window_push {w : Nat → Int} {out : List Int} (v : Int)
    (h : ∀ j, j < out.length → out.length ≤ j + 2 ^ 20 → w ((j + 1) % 2 ^ 20) = out.getD j 0) :
    ∀ j, j < (out ++ [v]).length → (out ++ [v]).length ≤ j + 2 ^ 20 →
      (fun i => if i = (out.length + 1) % 2 ^ 20 then v else w i) ((j + 1) % 2 ^ 20) = (out ++ [v]).getD j 0 := by
  intro j h1 h2
  rw [List.length_append, List.length_singleton] at h1 h2
  by_cases hj : j = out.length
  · subst hj
    simp
  · have hlt : j < out.length := by omega
    simp only
    rw [if_neg (ring_ne _ _ (by omega) (by omega)), h j hlt (by omega)]
    simp [List.getD, List.getElem?_append_left hlt]

theorem copyOne_spec {es : ES} {out : List Int} {d n : Nat} (h : Copying es out d (n + 1)) (h1 : 1 ≤ d) (h2 : d ≤ out.length)
    (h3 : d ≤ 2 ^ 20) (hb : out.length + (n + 1) < 2 ^ 31) :
    es.copyOne.1 = out.getD (out.length - d) 0 ∧ Copying es.copyOne.2 (out ++ [out.getD (out.length - d) 0]) d n ∧
      SameStatic es es.copyOne.2 ∧ es.copyOne.2.state = es.state := by
  have hpos : i32 (es.copyPos + 1) = ((out.length - d + 1 : Nat) : Int) := by
    rw [h.pos, i32_id _ (by omega) (by omega)]; omega
  have hnd : i32 (es.numDecoded + 1) = ((out.length + 1 : Nat) : Int) := by
    rw [h.count, i32_id _ (by omega) (by omega)]; omega
  have hv : es.copyOne.1 = out.getD (out.length - d) 0 := by
    simp only [ES.copyOne, hpos, ring_nat]
    exact h.window (out.length - d) (by omega) (by omega)
  refine ⟨hv, ?_, ⟨rfl, rfl, rfl, rfl, rfl, rfl⟩, rfl⟩
  have hw : es.copyOne.2.window = fun i => if i = (out.length + 1) % 2 ^ 20 then out.getD (out.length - d) 0 else es.window i := by
    rw [← hv]
    simp only [ES.copyOne, hnd, ring_nat]
  refine ⟨?_, ?_, ?_, ?_⟩
  · simp only [ES.copyOne, h.copy]; omega
  · simp only [ES.copyOne, hpos, List.length_append, List.length_singleton]; omega
  · simp only [ES.copyOne, hnd, List.length_append, List.length_singleton]
  · rw [hw]; exact window_push _ h.window

theorem copyN_spec (n : Nat) {es : ES} {out : List Int} {d : Nat} (h : Copying es out d n) (h1 : 1 ≤ d) (h2 : d ≤ out.length)
    (h3 : d ≤ 2 ^ 20) (hb : out.length + n < 2 ^ 31) :
    out ++ (copyN n es).1 = copyBack n d out ∧ Copying (copyN n es).2 (copyBack n d out) d 0 ∧
      SameStatic es (copyN n es).2 ∧ (copyN n es).2.state = es.state ∧ (copyN n es).1.length = n := by
  induction n generalizing es out with
  | zero => exact ⟨by simp [copyN, copyBack], h, SameStatic.refl _, rfl, rfl⟩
  | succ n ih =>
    obtain ⟨c1, c2, c3, c4⟩ := copyOne_spec h h1 h2 h3 hb
    obtain ⟨i1, i2, i3, i4, i5⟩ := ih c2 (by simp; omega) (by simp; omega)
    refine ⟨?_, i2, c3.trans i3, i4.trans c4, ?_⟩
    · simp only [copyN, copyBack]
      rw [c1, ← i1]
      simp
    · simp [copyN, i5]

theorem readSeq_copy (mult : Int) (ctxs : List Int) (es : ES) (s : BR) (h : es.numToCopy = ctxs.length) :
    ES.readSeq mult ctxs es s = (.ok (copyN ctxs.length es), s) := by
  induction ctxs generalizing es with
  | nil => rfl
  | cons c ctxs ih =>
    have h1 : es.readSymbolMul c mult s = (.ok es.copyOne, s) := by
      unfold ES.readSymbolMul ES.readSymbolFuel
      rw [if_pos (by rw [h]; simp)]
      rfl
    simp only [ES.readSeq]
    rw [Rd.bind_ok h1]
    have h2 := ih es.copyOne.2 (by simp only [ES.copyOne, h, List.length_cons]; omega)
    rw [Rd.bind_ok h2]
    rfl

theorem readSeq_append (mult : Int) (c1 c2 : List Int) (es es1 : ES) (s s1 : BR) (v1 : List Int)
    (h : ES.readSeq mult c1 es s = (.ok (v1, es1), s1)) :
    ES.readSeq mult (c1 ++ c2) es s = ((ES.readSeq mult c2 es1 >>= fun r => pure (v1 ++ r.1, r.2)) : Rd _) s1 := by
  induction c1 generalizing es s v1 with
  | nil =>
    simp only [ES.readSeq, Rd.pure_eq] at h
    cases h
    simp only [List.nil_append]
    have : ∀ r : List Int × ES, (pure (r.1, r.2) : Rd _) = pure r := fun r => rfl
    simp only [this]
    rw [Rd.bind_eq]
    generalize ES.readSeq mult c2 es1 s1 = q
    rcases q with ⟨_ | _ | _, _⟩ <;> rfl
  | cons c c1 ih =>
    simp only [ES.readSeq, List.cons_append] at h ⊢
    rw [Rd.bind_eq] at h
    rw [Rd.bind_eq]
    rcases hm : es.readSymbolMul c mult s with ⟨r, s2⟩
    rw [hm] at h
    match r, h with
    | .ok (v, es2), h =>
      simp only at h ⊢
      rw [Rd.bind_eq] at h
      rcases hm2 : ES.readSeq mult c1 es2 s2 with ⟨r2, s3⟩
      rw [hm2] at h
      match r2, h with
      | .ok (vs, es3), h =>
        simp only [Rd.pure_eq] at h
        cases h
        rw [Rd.bind_eq, ih es2 s2 vs hm2]
        rw [Rd.bind_eq, Rd.bind_eq]
        rcases ES.readSeq mult c2 es1 s1 with ⟨_ | _ | _, _⟩ <;> rfl

theorem lzDistance_spec (mult : Int) (code dist n : Nat) (hc : code < 2 ^ 31) (h1 : 1 ≤ dist) (h31 : dist < 2 ^ 31)
    (h : codedDistance mult code = dist) (hpl : PlainDistance mult code) : lzDistance (i32 code) mult n = .ok ((min (min dist (2 ^ 20)) n : Nat) : Int) := by
  have hfin : ∀ d : Int, d = dist → (Res.ok (if (n : Int) < (if 1048576 < d then 1048576 else d) then (n : Int) else (if 1048576 < d then 1048576 else d)) : Res Int) =
      .ok ((min (min dist (2 ^ 20)) n : Nat) : Int) := by
    intro d hd
    congr 1
    split <;> split <;> omega
  have hi : i32 (code : Int) = code := i32_id _ (by omega) (by omega)
  unfold lzDistance
  unfold codedDistance at h
  rw [hi]
  by_cases hm : mult = 0
  · rw [if_pos hm] at h ⊢
    simp only [Res.bind_ok]
    rw [i32_id _ (by omega) (by omega)]
    exact hfin _ h
  · rw [if_neg hm] at h ⊢
    by_cases h120 : code < 120
    · rw [if_pos h120] at h
      have hge : 1 ≤ (specialDistances.getD code (0, 0)).1 + mult * (specialDistances.getD code (0, 0)).2 := by
        rcases hpl with h | h | h
        · exact absurd h hm
        · omega
        · exact h
      rw [Int.max_eq_right hge] at h
      rw [if_pos (by omega)]
      rw [idx_nat specialDistances code (specialDistances.getD code (0, 0)) (by
        have : code < specialDistances.length := by exact h120
        simp [List.getD, this])]
      simp only [Res.bind_ok]
      have e : i32 ((specialDistances.getD code (0, 0)).1 + i32 (mult * (specialDistances.getD code (0, 0)).2)) = (dist : Int) := by
        rw [← h] 
        have : i32 ((specialDistances.getD code (0, 0)).1 + i32 (mult * (specialDistances.getD code (0, 0)).2)) =
            i32 ((specialDistances.getD code (0, 0)).1 + mult * (specialDistances.getD code (0, 0)).2) := by
          unfold i32; omega
        rw [this, h, i32_id _ (by omega) (by omega)]
      exact hfin _ e
    · rw [if_neg h120] at h
      rw [if_neg (by omega)]
      simp only [Res.bind_ok]
      exact hfin _ h

theorem holds_literal {es : ES} {out : List Int} (h : es.Holds out) (v : Int) (hb : out.length + 1 < 2 ^ 31) :
    (es.literal v).1 = v ∧ (es.literal v).2.Holds (out ++ [v]) ∧ SameStatic es (es.literal v).2 ∧ (es.literal v).2.state = es.state := by
  unfold ES.literal
  by_cases hu : es.usesLZ77 = true
  · rw [if_pos hu]
    have hnd : i32 (es.numDecoded + 1) = ((out.length + 1 : Nat) : Int) := by
      rw [h.count hu, i32_id _ (by omega) (by omega)]; omega
    refine ⟨rfl, ⟨h.copy, ?_, ?_⟩, ⟨rfl, rfl, rfl, rfl, rfl, rfl⟩, rfl⟩
    · intro _; simp only [hnd]; simp
    · intro _
      simp only [hnd, ring_nat]
      exact window_push v (h.window hu)
  · rw [if_neg hu]
    exact ⟨rfl, ⟨h.copy, fun h' => absurd h' hu, fun h' => absurd h' hu⟩, SameStatic.refl _, rfl⟩

/-- A literal value. -/
theorem readLiteral {co : Coder} {cd : Codes} {es : ES} {s : BR} {ctx mult : Int} {v : Nat} {rest : List Item} {e : Nat} {ctxs : List Int}
    (hn : es.numToCopy = 0) (hu : es.Uses cd (ctx :: ctxs)) (hv : v < 2 ^ 32) (hcv : (cd.dist ctx).config.Valid)
    (hlz : ∀ z, cd.lz = some z → (hybridToken (cd.dist ctx).config v).token < z.minSymbol)
    (hok : ∀ i ∈ valueItems (cd.dist ctx) v ++ rest, i.OK co) (hc : Carries co es.state s (valueItems (cd.dist ctx) v ++ rest) e) :
    ∃ st' s', es.readSymbolMul ctx mult s = (.ok (({ es with state := st' } : ES).literal (i32 v)), s') ∧ Carries co st' s' rest e ∧ s'.data = s.data := by
  obtain ⟨st', s1, s', e1, e2, h3, h4⟩ := Carries.readValue hc hok hcv hv
  refine ⟨st', s', ?_, h3, h4⟩
  unfold ES.readSymbolMul ES.readSymbolFuel
  rw [if_neg (by omega), Rd.bind_ok (show Rd.lift (es.distOf ctx) s = (.ok (cd.dist ctx), s) by rw [hu.dist ctx (by simp)]; rfl), Rd.bind_ok e1]
  dsimp only
  rw [if_neg (by
    intro ⟨hl, hm⟩
    have := hu.lz
    cases hz : cd.lz with
    | none => rw [hz] at this; simp only at this; rw [this] at hl; cases hl
    | some z =>
      rw [hz] at this
      have h1 := hlz z hz
      have h2 := this.2.1
      omega)]
  rw [Int.toNat_natCast, Rd.bind_ok e2]
  rfl

/-- A copy command. -/
theorem readCopyCmd {co : Coder} {cd : Codes} {es : ES} {s : BR} {ctx mult : Int} {len dist code : Nat} {z : LZInfo} {rest : List Item} {e : Nat}
    {ctxs : List Int} {out : List Int}
    (hh : es.Holds out) (hu : es.Uses cd (ctx :: ctxs)) (hz : cd.lz = some z) (hml : z.minLength ≤ len) (hlc : z.lengthConfig.Valid)
    (hdc : z.distDist.config.Valid) (hlen : 1 ≤ len) (hl31 : len < 2 ^ 31) (hcode : code < 2 ^ 31) (hd1 : 1 ≤ dist) (hdn : dist < 2 ^ 31)
    (hn1 : 1 ≤ out.length) (hcd : codedDistance mult code = dist) (hpl : PlainDistance mult code) (hb : out.length < 2 ^ 31)
    (hok : ∀ i ∈ copyItems (cd.dist ctx) z len code ++ rest, i.OK co) (hc : Carries co es.state s (copyItems (cd.dist ctx) z len code ++ rest) e) :
    ∃ es1 s1, es.readSymbolMul ctx mult s = (.ok es1.copyOne, s1) ∧ Carries co es1.state s1 rest e ∧ s1.data = s.data ∧
      Copying es1 out (min (min dist (2 ^ 20)) out.length) len ∧ SameStatic es es1 := by
  have hlz := hu.lz
  rw [hz] at hlz
  simp only at hlz
  obtain ⟨hl, hms, hmle, hlcfg, c, hc1, hc2⟩ := hlz
  -- the token
  obtain ⟨st1, s1, e1, h1, d1⟩ := Carries.readSym (is := .raw (extraBits z.lengthConfig (len - z.minLength)) :: (valueItems z.distDist code ++ rest)) hc hok
  obtain ⟨s2, e2, h2, d2⟩ := Carries.readRaw h1 (hybrid_spec z.lengthConfig hlc (len - z.minLength) (by omega))
  obtain ⟨st3, s3, s4, e3, e4, h4, d4⟩ := Carries.readValue h2 (fun i hi => hok i (by
    simp only [copyItems, List.append_assoc, List.mem_append]; exact Or.inr (List.mem_append.1 hi))) hdc (by omega)
  have hhi : i32 ((len - z.minLength : Nat) : Int) = ((len - z.minLength : Nat) : Int) := i32_id _ (by omega) (by omega)
  obtain ⟨dd, hdd⟩ : ∃ dd, dd = min (min dist (2 ^ 20)) out.length := ⟨_, rfl⟩
  rw [← hdd]
  obtain ⟨es1, hes1⟩ : ∃ es1 : ES, es1 = { es with state := st3, numToCopy := (len : Int), copyPos := (out.length : Int) - dd } := ⟨_, rfl⟩
  refine ⟨es1, s4, ?_, ?_, ?_, ?_, ?_⟩
  · unfold ES.readSymbolMul ES.readSymbolFuel
    rw [if_neg (by rw [hh.copy]; omega), Rd.bind_ok (show Rd.lift (es.distOf ctx) s = (.ok (cd.dist ctx), s) by rw [hu.dist ctx (by simp)]; rfl), Rd.bind_ok e1]
    dsimp only
    rw [if_pos ⟨hl, by rw [hms]; push_cast; omega⟩]
    have hrc : ({ es with state := st1 } : ES).readCopy ((z.minSymbol + (hybridToken z.lengthConfig (len - z.minLength)).token : Nat) : Int) mult s1 = (.ok es1, s4) := by
      unfold ES.readCopy
      rw [Rd.bind_ok (show Rd.lift (idx es.clusterMap ((es.clusterMap.length : Int) - 1)) s1 = (.ok c, s1) by rw [hc1]; rfl)]
      rw [Rd.bind_ok (show Rd.lift (idx es.dists c) s1 = (.ok z.distDist, s1) by rw [hc2]; rfl)]
      dsimp only
      rw [hms, hlcfg, show (((z.minSymbol + (hybridToken z.lengthConfig (len - z.minLength)).token : Nat) : Int) - (z.minSymbol : Int)).toNat = (hybridToken z.lengthConfig (len - z.minLength)).token by omega]
      rw [Rd.bind_ok e2, Rd.bind_ok e3]
      dsimp only
      rw [Int.toNat_natCast, Rd.bind_ok e4]
      rw [Rd.bind_ok (show Rd.lift (lzDistance (i32 (code : Int)) mult es.numDecoded) s4 = (.ok (dd : Int), s4) by
        rw [hh.count hl, lzDistance_spec mult code dist out.length hcode hd1 hdn hcd hpl, hdd]; rfl)]
      rw [hhi, hmle, hh.count hl, i32_id _ (by omega) (by omega), i32_id _ (by omega) (by omega), hes1]
      rw [show (z.minLength : Int) + ((len - z.minLength : Nat) : Int) = (len : Int) by omega]
      rw [← hms, ← hmle, ← hlcfg, ← hh.count hl]
      rfl
    rw [Rd.bind_ok hrc]
    unfold ES.readSymbolFuel
    rw [if_pos (by rw [hes1]; simp only; omega)]
    rfl
  · rw [hes1]; exact h4
  · exact d4.trans (d2.trans d1)
  · rw [hes1]
    exact ⟨rfl, rfl, hh.count hl, hh.window hl⟩
  · rw [hes1]
    exact ⟨rfl, rfl, rfl, rfl, rfl, rfl⟩

theorem readSeq_spec (co : Coder) (cd : Codes) (mult : Int) (cmds : List LZCmd) (ctxs : List Int) (out : List Int) (es : ES) (s : BR)
    (rest : List Item) (e : Nat) (hh : es.Holds out) (hu : es.Uses cd ctxs) (hv : LZValid cd mult cmds ctxs out.length)
    (hb : out.length + ctxs.length < 2 ^ 31) (hok : ∀ i ∈ lzItems cd cmds ctxs ++ rest, i.OK co)
    (hc : Carries co es.state s (lzItems cd cmds ctxs ++ rest) e) :
    ∃ vals es' s', ES.readSeq mult ctxs es s = (.ok (vals, es'), s') ∧ out ++ vals = expandLZ cmds out ∧ vals.length = ctxs.length ∧
      es'.Holds (expandLZ cmds out) ∧ SameStatic es es' ∧ Carries co es'.state s' rest e ∧ s'.data = s.data := by
  induction cmds generalizing ctxs out es s with
  | nil =>
    simp only [LZValid] at hv
    subst hv
    refine ⟨[], es, s, rfl, by simp [expandLZ], rfl, hh, SameStatic.refl _, hc, rfl⟩
  | cons cmd cmds ih =>
    cases ctxs with
    | nil => simp only [LZValid] at hv
    | cons ctx ctxs =>
      simp only [List.length_cons] at hb
      cases cmd with
      | lit v =>
        simp only [LZValid] at hv
        obtain ⟨v1, v2, v3, v4⟩ := hv
        simp only [lzItems, List.append_assoc] at hok hc
        obtain ⟨st', s1, e1, c1, d1⟩ := readLiteral (mult := mult) hh.copy hu v1 v2 v3 hok hc
        have hh' : ({ es with state := st' } : ES).Holds out := ⟨hh.copy, hh.count, hh.window⟩
        obtain ⟨l1, l2, l3, l4⟩ := holds_literal hh' (i32 v) (by omega)
        have hst : SameStatic es (({ es with state := st' } : ES).literal (i32 v)).2 := SameStatic.trans (b := { es with state := st' }) ⟨rfl, rfl, rfl, rfl, rfl, rfl⟩ l3
        obtain ⟨vals, es', s', r1, r2, r3, r4, r5, r6, r7⟩ := ih ctxs (out ++ [i32 v]) (({ es with state := st' } : ES).literal (i32 v)).2 s1 l2
          (by
            have := hst.uses' hu
            exact ⟨fun c hc => this.dist c (by simp [hc]), this.lz⟩)
          (by simpa using v4) (by simp; omega) (fun i hi => hok i (by simp only [List.mem_append] at hi ⊢; exact Or.inr hi)) (by rw [l4]; exact c1)
        refine ⟨i32 v :: vals, es', s', ?_, ?_, ?_, ?_, hst.trans r5, r6, r7.trans d1⟩
        · simp only [ES.readSeq]
          rw [Rd.bind_ok e1]
          rw [Rd.bind_ok r1, l1]
          rfl
        · simp only [expandLZ]; rw [← r2]; simp
        · simp [r3]
        · exact r4
      | copy len dist code =>
        simp only [LZValid] at hv
        obtain ⟨⟨z, hz, z1, z2, z3⟩, v1, v2, v3, v4, v5, v6, v7, v7', v8⟩ := hv
        simp only [lzItems, hz, List.append_assoc] at hok hc
        obtain ⟨es1, s1, e1, c1, d1, hcp, hs1⟩ := readCopyCmd (mult := mult) hh hu hz z1 z2 z3 v1 (by omega) v3 v4 v5 v6 v7 v7' (by omega) hok hc
        obtain ⟨dd, hdd⟩ : ∃ dd, dd = min (min dist (2 ^ 20)) out.length := ⟨_, rfl⟩
        rw [← hdd] at hcp
        obtain ⟨n1, n2, n3, n4, n5⟩ := copyN_spec len hcp (by omega) (by omega) (by omega) (by omega)
        -- the first len values
        have hseq : ES.readSeq mult (ctx :: ctxs.take (len - 1)) es s = (.ok (copyN len es1), s1) := by
          simp only [ES.readSeq]
          rw [Rd.bind_ok e1]
          have hl : (ctxs.take (len - 1)).length = len - 1 := by rw [List.length_take]; omega
          have h2 := readSeq_copy mult (ctxs.take (len - 1)) es1.copyOne.2 s1 (by
            simp only [ES.copyOne, hcp.copy, hl]; omega)
          rw [Rd.bind_ok h2, hl]
          obtain ⟨k, hk⟩ : ∃ k, len = k + 1 := ⟨len - 1, by omega⟩
          subst hk
          rfl
        have hlz : es.usesLZ77 = true := by have := hu.lz; rw [hz] at this; exact this.1
        have hhold : (copyN len es1).2.Holds (copyBack len dd out) := ⟨by rw [n2.copy]; rfl, fun _ => n2.count, fun _ => n2.window⟩
        have hstat := hs1.trans n3
        have hlenout : (copyBack len dd out).length = out.length + len := by
          rw [← n1, List.length_append, n5]
        obtain ⟨vals, es', s', r1, r2, r3, r4, r5, r6, r7⟩ := ih (ctxs.drop (len - 1)) (copyBack len dd out) (copyN len es1).2 s1 hhold
          (by
            have := hstat.uses' hu
            exact ⟨fun c hc => this.dist c (by simp [List.mem_of_mem_drop hc]), this.lz⟩)
          (by rw [hlenout]; exact v8) (by rw [hlenout, List.length_drop]; omega)
          (fun i hi => hok i (by simp only [List.mem_append] at hi ⊢; exact Or.inr hi)) (by rw [n4]; exact c1)
        refine ⟨(copyN len es1).1 ++ vals, es', s', ?_, ?_, ?_, (by simp only [expandLZ]; rw [← hdd]; exact r4), hstat.trans r5, r6, r7.trans d1⟩
        · have happ := readSeq_append mult (ctx :: ctxs.take (len - 1)) (ctxs.drop (len - 1)) es (copyN len es1).2 s s1 (copyN len es1).1 hseq
          rw [List.cons_append, List.take_append_drop] at happ
          rw [happ, Rd.bind_ok r1]
          rfl
        · simp only [expandLZ]; rw [← hdd, ← r2, ← n1]; simp
        · rw [List.length_append, n5, r3, List.length_drop, List.length_cons]; omega

end Jxl
