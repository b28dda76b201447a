import Verif.Proofs.FilterSteps

/-! # The edge-preserving filter -/
namespace Jxl

/-- The planes of the channels from `k` on. -/
def HoldsPlanes {α : Type} (h w k : Nat) (f : Nat → Nat → Nat → α) (bufs : List (List (List α))) : Prop :=
  ∀ i b, bufs[i]? = some b → HoldsPlane h w (f (k + i)) b

theorem HoldsPlanes.head {α : Type} {h w k : Nat} {f : Nat → Nat → Nat → α} {b : List (List α)} {bufs : List (List (List α))}
    (hb : HoldsPlanes h w k f (b :: bufs)) : HoldsPlane h w (f k) b := hb 0 b rfl

theorem HoldsPlanes.tail {α : Type} {h w k : Nat} {f : Nat → Nat → Nat → α} {b : List (List α)} {bufs : List (List (List α))}
    (hb : HoldsPlanes h w k f (b :: bufs)) : HoldsPlanes h w (k + 1) f bufs := by
  intro i c hi
  have := hb (i + 1) c hi
  rw [show k + 1 + i = k + (i + 1) by omega]
  exact this

section
variable {α : Type} [Arith α] {h w : Nat} (hh : 0 < h) (hw : 0 < w) (p : EPF α) (p1 : p.height = h) (p2 : p.width = w)
include hh hw p1 p2

theorem epfCrossDist_ok {f : Nat → Nat → α} {buf : List (List α)} (hb : HoldsPlane h w f buf) (scale : α) (y x cy cx : Int) :
    ∀ (os : List (Int × Int)) (d : α), epfCrossDist p buf scale y x cy cx os d =
      .ok (os.foldl (fun d o => d + Arith.abs (mirrored h w f (y + o.1) (x + o.2) - mirrored h w f (y + cy + o.1) (x + cx + o.2)) * scale) d)
  | [], d => rfl
  | (oy, ox) :: os, d => by
    unfold epfCrossDist
    rw [p1, p2, mirrorCoord_ok _ hh, Res.bind_ok, mirrorCoord_ok _ hw, Res.bind_ok, mirrorCoord_ok _ hh, Res.bind_ok, mirrorCoord_ok _ hw, Res.bind_ok,
      at2_mirrored hb hh hw, Res.bind_ok, at2_mirrored hb hh hw, Res.bind_ok, epfCrossDist_ok hb scale y x cy cx os]
    rfl

theorem epfDistance1_ok {f : Nat → Nat → Nat → α} (scale : Nat → α) (y x cy cx : Int) :
    ∀ (bufs : List (List (List α))) (scales : List α) (k : Nat) (d : α), HoldsPlanes h w k f bufs → bufs.length ≤ scales.length →
      (∀ i s, scales[i]? = some s → s = scale (k + i)) → epfDistance1 p y x cy cx bufs scales d =
      .ok ((List.range' k bufs.length).foldl (fun d c => plus.foldl (fun d o =>
        d + Arith.abs (mirrored h w (f c) (y + o.1) (x + o.2) - mirrored h w (f c) (y + cy + o.1) (x + cx + o.2)) * scale c) d) d)
  | [], _, k, d, _, _, _ => rfl
  | _ :: _, [], _, _, _, hl, _ => by simp at hl
  | b :: bufs, s :: scales, k, d, hb, hl, hs => by
    unfold epfDistance1
    rw [epfCrossDist_ok hh hw p p1 p2 hb.head, Res.bind_ok, epfDistance1_ok scale y x cy cx bufs scales (k + 1) _ hb.tail (by simpa using hl)
      (fun i s' hi => by rw [show k + 1 + i = k + (i + 1) by omega]; exact hs (i + 1) s' hi)]
    rw [hs 0 s rfl]
    rfl

theorem epfDistance2_ok {f : Nat → Nat → Nat → α} (scale : Nat → α) {y x : Nat} (hy : y < h) (hx : x < w) (cy cx : Int) :
    ∀ (bufs : List (List (List α))) (scales : List α) (k : Nat) (d : α), HoldsPlanes h w k f bufs → bufs.length ≤ scales.length →
      (∀ i s, scales[i]? = some s → s = scale (k + i)) → epfDistance2 p (y : Int) (x : Int) cy cx bufs scales d =
      .ok ((List.range' k bufs.length).foldl (fun d c => [((0 : Int), (0 : Int))].foldl (fun d o =>
        d + Arith.abs (mirrored h w (f c) ((y : Int) + o.1) ((x : Int) + o.2) - mirrored h w (f c) ((y : Int) + cy + o.1) ((x : Int) + cx + o.2)) * scale c) d) d)
  | [], _, k, d, _, _, _ => rfl
  | _ :: _, [], _, _, _, hl, _ => by simp at hl
  | b :: bufs, s :: scales, k, d, hb, hl, hs => by
    unfold epfDistance2
    rw [p1, p2, mirrorCoord_ok _ hh, Res.bind_ok, mirrorCoord_ok _ hw, Res.bind_ok, at2_plane hb.head hy hx, Res.bind_ok, at2_mirrored hb.head hh hw, Res.bind_ok,
      epfDistance2_ok scale hy hx cy cx bufs scales (k + 1) _ hb.tail (by simpa using hl)
      (fun i s' hi => by rw [show k + 1 + i = k + (i + 1) by omega]; exact hs (i + 1) s' hi)]
    rw [hs 0 s rfl]
    simp only [List.foldl_cons, List.foldl_nil, Int.add_zero, mirrored_self _ hy hx]
    simp only [List.length_cons, List.range'_succ, List.foldl_cons, Nat.add_zero, mirrored_self _ hy hx]

omit p1 p2 in
theorem epfAdd_ok {f : Nat → Nat → Nat → α} (my mx : Int) (wt : α) (S : Nat → α) :
    ∀ (bufs : List (List (List α))) (k : Nat), HoldsPlanes h w k f bufs →
      epfAdd (mirrorSpec my h) (mirrorSpec mx w) wt bufs ((List.range' k bufs.length).map S) =
      .ok ((List.range' k bufs.length).map fun c => S c + mirrored h w (f c) my mx * wt)
  | [], k, _ => rfl
  | b :: bufs, k, hb => by
    rw [List.length_cons, List.range'_succ, List.map_cons]
    unfold epfAdd
    rw [at2_mirrored hb.head hh hw, Res.bind_ok, epfAdd_ok my mx wt S bufs (k + 1) hb.tail, Res.bind_ok]
    rfl

theorem epfSums_ok {f : Nat → Nat → Nat → α} {bufs : List (List (List α))} (hb : HoldsPlanes h w 0 f bufs) (scale : Nat → α)
    (hl : bufs.length ≤ p.scales.length) (hs : ∀ i s, p.scales[i]? = some s → s = scale i) (pass : Nat) {y x : Nat} (hy : y < h) (hx : x < w) (border : Bool)
    (sg : α) : ∀ (cs : List (Int × Int)) (sw : α) (S : Nat → α),
      epfSums p pass bufs border sg (y : Int) (x : Int) cs sw ((List.range bufs.length).map S) =
      .ok (cs.foldl (fun t o => t + epfWeightOf (if border then some p.borderSadMul else none) sg (epfDistance (pass == 2) bufs.length h w scale f y x o.1 o.2)) sw,
        (List.range bufs.length).map fun c => cs.foldl (fun t o => t + mirrored h w (f c) ((y : Int) + o.1) ((x : Int) + o.2) *
          epfWeightOf (if border then some p.borderSadMul else none) sg (epfDistance (pass == 2) bufs.length h w scale f y x o.1 o.2)) (S c))
  | [], sw, S => rfl
  | (cy, cx) :: cs, sw, S => by
    unfold epfSums
    have hd : epfDistanceOf p pass bufs (y : Int) (x : Int) cy cx = .ok (epfDistance (pass == 2) bufs.length h w scale f y x cy cx) := by
      have hs' : ∀ i s, p.scales[i]? = some s → s = scale (0 + i) := fun i s hi => by rw [Nat.zero_add]; exact hs i s hi
      unfold epfDistance epfDistanceOf
      rw [List.range_eq_range']
      by_cases h2 : pass = 2
      · rw [if_pos h2, epfDistance2_ok hh hw p p1 p2 scale hy hx cy cx bufs p.scales 0 _ hb hl hs']
        simp [h2]
      · rw [if_neg h2, epfDistance1_ok hh hw p p1 p2 scale y x cy cx bufs p.scales 0 _ hb hl hs']
        simp [h2]
    have hwt : ∀ d, epfWeight p border sg d = epfWeightOf (if border then some p.borderSadMul else none) sg d := by
      intro d
      cases border <;> rfl
    rw [hd, Res.bind_ok]
    simp only [hwt]
    rw [p1, p2, mirrorCoord_ok _ hh, Res.bind_ok, mirrorCoord_ok _ hw, Res.bind_ok, List.range_eq_range', epfAdd_ok hh hw _ _ _ S bufs 0 hb, Res.bind_ok, ← List.range_eq_range',
      epfSums_ok hb scale hl hs pass hy hx border sg cs]
    rfl

/-- The new samples of all channels at a place. -/
theorem epfPixel_ok {f : Nat → Nat → Nat → α} {bufs : List (List (List α))} (hb : HoldsPlanes h w 0 f bufs) (scale : Nat → α)
    (hl : bufs.length ≤ p.scales.length) (hs : ∀ i s, p.scales[i]? = some s → s = scale i) (pass : Nat) (sg : α) (s : Nat → Nat → α)
    (hi : ∀ y x, y < h → x < w → sample p.inverseSigma (y / 8) (x / 8) = some (s (y / 8) (x / 8))) {y x : Nat} (hy : y < h) (hx : x < w) :
    epfPixel p pass sg bufs (y : Int) (x : Int) = .ok ((List.range bufs.length).map fun c =>
      if Arith.lt (Arith.lit (1 / (3 / 10))) (s (y / 8) (x / 8)) then f c y x
      else epfValue pass bufs.length h w scale p.borderSadMul (sg * s (y / 8) (x / 8)) f y x c) := by
  unfold epfPixel
  have e1 : ((y : Int) / 8) = ((y / 8 : Nat) : Int) := by omega
  have e2 : ((x : Int) / 8) = ((x / 8 : Nat) : Int) := by omega
  rw [e1, e2, at2_sample (hi y x hy hx), Res.bind_ok]
  by_cases hsk : Arith.lt (Arith.lit (1 / (3 / 10))) (s (y / 8) (x / 8)) = true
  · rw [if_pos hsk]
    simp only [if_pos hsk]
    have : ∀ (bufs : List (List (List α))) (k : Nat), HoldsPlanes h w k f bufs →
        epfCopy (y : Int) (x : Int) bufs = .ok ((List.range' k bufs.length).map fun c => f c y x) := by
      intro bufs
      induction bufs with
      | nil => intro k _; rfl
      | cons b bufs ih =>
        intro k hk
        unfold epfCopy
        rw [at2_plane hk.head hy hx, Res.bind_ok, ih (k + 1) hk.tail, Res.bind_ok, List.length_cons, List.range'_succ]
        rfl
    rw [this bufs 0 hb, ← List.range_eq_range']
  · rw [if_neg hsk]
    simp only [if_neg hsk]
    have hz : (bufs.map fun _ => (Arith.lit 0 : α)) = (List.range bufs.length).map fun _ => Arith.lit 0 := by
      apply List.ext_getElem?
      intro i
      rw [List.getElem?_map, List.getElem?_map]
      by_cases hi : i < bufs.length
      · rw [List.getElem?_eq_getElem hi, List.getElem?_range hi]; rfl
      · rw [List.getElem?_eq_none (by omega), List.getElem?_eq_none (by simp; omega)]; rfl
    have hbd : decide ((y : Int) % 8 = 0 ∨ (y : Int) % 8 = 7 ∨ (x : Int) % 8 = 0 ∨ (x : Int) % 8 = 7) = decide (onBorder y x) := by
      apply decide_eq_decide.2
      unfold onBorder
      omega
    rw [hz, hbd, epfSums_ok hh hw p p1 p2 hb scale hl hs pass hy hx]
    simp only [Res.bind_ok, List.map_map]
    congr 1
    apply List.map_congr_left
    intro c _
    simp only [Function.comp_apply, epfValue, decide_eq_true_eq]
    rfl

end

/-! ## No errors -/

theorem epfCrossDist_noErr {α : Type} [Arith α] (p : EPF α) (buf : List (List α)) (scale : α) (y x cy cx : Int) :
    ∀ (os : List (Int × Int)) (d : α), NoErr (epfCrossDist p buf scale y x cy cx os d)
  | [], d => NoErr.ok _
  | (oy, ox) :: os, d => by
    unfold epfCrossDist
    exact (mirrorCoord_noErr _ _).bind fun _ => (mirrorCoord_noErr _ _).bind fun _ => (mirrorCoord_noErr _ _).bind fun _ => (mirrorCoord_noErr _ _).bind fun _ =>
      (at2_noErr _ _ _).bind fun _ => (at2_noErr _ _ _).bind fun _ => epfCrossDist_noErr p buf scale y x cy cx os _

theorem epfDistance1_noErr {α : Type} [Arith α] (p : EPF α) (y x cy cx : Int) :
    ∀ (bufs : List (List (List α))) (scales : List α) (d : α), NoErr (epfDistance1 p y x cy cx bufs scales d)
  | [], _, d => NoErr.ok _
  | _ :: _, [], _ => NoErr.panic
  | b :: bufs, s :: scales, d => by
    unfold epfDistance1
    exact (epfCrossDist_noErr _ _ _ _ _ _ _ _ _).bind fun _ => epfDistance1_noErr p y x cy cx bufs scales _

theorem epfDistance2_noErr {α : Type} [Arith α] (p : EPF α) (y x cy cx : Int) :
    ∀ (bufs : List (List (List α))) (scales : List α) (d : α), NoErr (epfDistance2 p y x cy cx bufs scales d)
  | [], _, d => NoErr.ok _
  | _ :: _, [], _ => NoErr.panic
  | b :: bufs, s :: scales, d => by
    unfold epfDistance2
    exact (mirrorCoord_noErr _ _).bind fun _ => (mirrorCoord_noErr _ _).bind fun _ => (at2_noErr _ _ _).bind fun _ => (at2_noErr _ _ _).bind fun _ =>
      epfDistance2_noErr p y x cy cx bufs scales _

theorem epfAdd_noErr {α : Type} [Arith α] (my mx : Int) (wt : α) : ∀ (bufs : List (List (List α))) (sums : List α), NoErr (epfAdd my mx wt bufs sums)
  | [], _ => NoErr.ok _
  | _ :: _, [] => NoErr.panic
  | b :: bufs, s :: sums => by
    unfold epfAdd
    exact (at2_noErr _ _ _).bind fun _ => (epfAdd_noErr my mx wt bufs sums).bind fun _ => NoErr.ok _

theorem epfSums_noErr {α : Type} [Arith α] (p : EPF α) (pass : Nat) (bufs : List (List (List α))) (border : Bool) (sg : α) (y x : Int) :
    ∀ (cs : List (Int × Int)) (sw : α) (sums : List α), NoErr (epfSums p pass bufs border sg y x cs sw sums)
  | [], _, _ => NoErr.ok _
  | (cy, cx) :: cs, sw, sums => by
    unfold epfSums
    refine NoErr.bind ?_ fun d => (mirrorCoord_noErr _ _).bind fun _ => (mirrorCoord_noErr _ _).bind fun _ => (epfAdd_noErr _ _ _ _ _).bind fun _ =>
      epfSums_noErr p pass bufs border sg y x cs _ _
    unfold epfDistanceOf
    split
    · exact epfDistance2_noErr _ _ _ _ _ _ _ _
    · exact epfDistance1_noErr _ _ _ _ _ _ _ _

theorem epfCopy_noErr {α : Type} (y x : Int) : ∀ l : List (List (List α)), NoErr (epfCopy y x l)
  | [] => NoErr.ok _
  | a :: l => by
    unfold epfCopy
    exact (at2_noErr _ _ _).bind fun _ => (epfCopy_noErr y x l).bind fun _ => NoErr.ok _

theorem epfPixel_noErr {α : Type} [Arith α] (p : EPF α) (pass : Nat) (sg : α) (bufs : List (List (List α))) (y x : Int) :
    NoErr (epfPixel p pass sg bufs y x) := by
  unfold epfPixel
  refine (at2_noErr _ _ _).bind fun s => ?_
  split
  · exact epfCopy_noErr _ _ _
  · exact (epfSums_noErr _ _ _ _ _ _ _ _ _ _).bind fun _ => NoErr.ok _

/-! ## Steps -/

/-- What a step does to the row it writes to. -/
def epfRow {α : Type} [Arith α] (p : EPF α) (pass : Nat) (sg : α) (bufs : List (List (List α))) (e : (Int × Int) × Nat) (r : List α) : Res (List α) := do
  let vs ← epfPixel p pass sg bufs e.1.1 e.1.2
  let v ← idx vs e.2
  setAt r e.1.2 v

theorem epfRow_noErr {α : Type} [Arith α] (p : EPF α) (pass : Nat) (sg : α) (bufs : List (List (List α))) (e : (Int × Int) × Nat) (r : List α) :
    NoErr (epfRow p pass sg bufs e r) := (epfPixel_noErr _ _ _ _ _ _).bind fun _ => (idx_noErr _ _).bind fun _ => setAt_noErr _ _ _

theorem epfStep_upd {α : Type} [Arith α] (p : EPF α) (pass : Nat) (sg : α) (bufs : List (List (List α))) (e : (Int × Int) × Nat)
    (out : List (List (List α))) : epfStep p pass sg bufs e out = updRow (e.2 : Int) (updRow e.1.1 (epfRow p pass sg bufs e)) out := by
  unfold epfStep updRow set2 epfRow
  have h1 : ∀ (vs : List α), (idx vs e.2 >>= fun v => idx out e.2 >>= fun plane => (idx plane e.1.1 >>= fun r => setAt r e.1.2 v >>= fun r' => setAt plane e.1.1 r') >>=
      fun plane => setAt out e.2 plane) = (idx out e.2 >>= fun plane => (idx plane e.1.1 >>= fun r => (idx vs e.2 >>= fun v => setAt r e.1.2 v) >>= fun r' => setAt plane e.1.1 r') >>=
      fun plane => setAt out e.2 plane) := by
    intro vs
    rw [bind_swap _ (idx_noErr _ _) (idx_noErr _ _)]
    congr 1
    funext plane
    rw [← Res.bind_assoc']
    congr 1
    rw [bind_swap _ (idx_noErr _ _) (idx_noErr _ _)]
    congr 1
    funext r
    rw [Res.bind_assoc']
  have h2 : (fun vs => idx vs e.2 >>= fun v => idx out e.2 >>= fun plane => (idx plane e.1.1 >>= fun r => setAt r e.1.2 v >>= fun r' => setAt plane e.1.1 r') >>=
      fun plane => setAt out e.2 plane) = fun vs => (idx out e.2 >>= fun plane => (idx plane e.1.1 >>= fun r => (idx vs e.2 >>= fun v => setAt r e.1.2 v) >>= fun r' => setAt plane e.1.1 r') >>=
      fun plane => setAt out e.2 plane) := funext h1
  rw [h2, bind_swap _ (epfPixel_noErr _ _ _ _ _ _) (idx_noErr _ _)]
  congr 1
  funext plane
  rw [← Res.bind_assoc']
  congr 1
  rw [bind_swap _ (epfPixel_noErr _ _ _ _ _ _) (idx_noErr _ _)]
  congr 1
  funext r
  rw [Res.bind_assoc']

theorem epf_commute {α : Type} [Arith α] (p : EPF α) (pass : Nat) (sg : α) (bufs : List (List (List α))) {e e' : (Int × Int) × Nat} (h : e.1.1 ≠ e'.1.1) :
    Commute2 (epfStep p pass sg bufs) e e' := by
  intro s
  have eq : ∀ e, epfStep p pass sg bufs e = updRow (e.2 : Int) (updRow e.1.1 (epfRow p pass sg bufs e)) := fun e => by
    funext out
    exact epfStep_upd p pass sg bufs e out
  rw [eq, eq]
  by_cases hc : e.2 = e'.2
  · rw [hc, updRow_same _ _ _ (fun r => updRow_noErr (epfRow_noErr p pass sg bufs e') r),
      updRow_same _ _ _ (fun r => updRow_noErr (epfRow_noErr p pass sg bufs e) r)]
    congr 1
    funext r
    exact updRow_comm h (epfRow_noErr p pass sg bufs e) (epfRow_noErr p pass sg bufs e') r
  · exact updRow_comm (by omega) (fun r => updRow_noErr (epfRow_noErr p pass sg bufs e) r) (fun r => updRow_noErr (epfRow_noErr p pass sg bufs e') r) s

/-- All values are written. -/
theorem fill_planes {α : Type} [Arith α] {h w n : Nat} (p : EPF α) (pass : Nat) (sg : α) (bufs : List (List (List α))) (g : Nat → Nat → Nat → α)
    (hp : ∀ y x, y < h → x < w → epfPixel p pass sg bufs (y : Int) (x : Int) = .ok ((List.range n).map fun c => g c y x)) :
    ∀ (es : List ((Int × Int) × Nat)) (out : List (List (List α))), (∀ e ∈ es, 0 ≤ e.1.1 ∧ e.1.1 < h ∧ 0 ≤ e.1.2 ∧ e.1.2 < w ∧ e.2 < n) →
      out.length = n → (∀ b ∈ out, Table h w b) →
      ∃ out', runSteps (epfStep p pass sg bufs) es out = .ok out' ∧ out'.length = n ∧ (∀ b ∈ out', Table h w b) ∧
        ∀ c y x : Nat, (out'[c]?.bind fun b => sample b y x) =
          if (((y : Int), (x : Int)), c) ∈ es then some (g c y x) else (out[c]?.bind fun b => sample b y x)
  | [], out, _, hn, ho => ⟨out, rfl, hn, ho, fun c y x => by simp⟩
  | e :: es, out, hin, hn, ho => by
    obtain ⟨⟨y0, x0⟩, c⟩ := e
    have hb := hin ((y0, x0), c) (by simp)
    simp only at hb
    obtain ⟨y, rfl⟩ : ∃ y : Nat, y0 = y := ⟨y0.toNat, by omega⟩
    obtain ⟨x, rfl⟩ : ∃ x : Nat, x0 = x := ⟨x0.toNat, by omega⟩
    have hy : y < h := by omega
    have hx : x < w := by omega
    have hc : c < out.length := by omega
    have hT : Table h w out[c] := ho _ (List.getElem_mem hc)
    obtain ⟨o1, e1, t1, s1⟩ := set2_table hT hy hx (g c y x)
    have hset : setAt out (c : Int) o1 = .ok (out.set c o1) := by
      unfold setAt
      rw [if_neg (by omega), Int.toNat_natCast, if_pos hc]
    have hstep : epfStep p pass sg bufs (((y : Int), (x : Int)), c) out = .ok (out.set c o1) := by
      unfold epfStep
      simp only
      rw [hp y x hy hx, Res.bind_ok]
      have hv : idx ((List.range n).map fun c => g c y x) (c : Int) = .ok (g c y x) := by
        unfold idx
        rw [if_neg (by omega), Int.toNat_natCast, List.getElem?_map, List.getElem?_range (by omega)]
        rfl
      have hpl : idx out (c : Int) = .ok out[c] := by
        unfold idx
        rw [if_neg (by omega), Int.toNat_natCast, List.getElem?_eq_getElem hc]
      rw [hv, Res.bind_ok, hpl, Res.bind_ok, e1, Res.bind_ok, hset]
    obtain ⟨o2, e2, l2, t2, s2⟩ := fill_planes p pass sg bufs g hp es (out.set c o1) (fun e he => hin e (by simp [he])) (by simpa using hn)
      (fun b hb => by
        rcases List.mem_or_eq_of_mem_set hb with hb | hb
        · exact ho b hb
        · rw [hb]; exact t1)
    refine ⟨o2, ?_, l2, t2, ?_⟩
    · show (epfStep p pass sg bufs (((y : Int), (x : Int)), c) out >>= fun s => runSteps _ es s) = _
      rw [hstep, Res.bind_ok]
      exact e2
    · intro d j k
      rw [s2 d j k]
      by_cases hm : (((j : Int), (k : Int)), d) ∈ es
      · rw [if_pos hm, if_pos (by simp [hm])]
      · rw [if_neg hm]
        by_cases hd : d = c
        · subst hd
          rw [List.getElem?_set_self hc, Option.bind_some, s1 j k]
          by_cases hjk : j = y ∧ k = x
          · rw [if_pos hjk, if_pos (by simp [hjk])]
            rw [hjk.1, hjk.2]
          · rw [if_neg hjk, if_neg, List.getElem?_eq_getElem hc, Option.bind_some]
            simp only [List.mem_cons, Prod.mk.injEq, hm, or_false, and_true]
            omega
        · rw [List.getElem?_set_ne (by omega), if_neg]
          simp only [List.mem_cons, Prod.mk.injEq, hm, or_false]
          omega

end Jxl
