import Verif.Proofs.FilterSteps

/-! # Upsampling -/
namespace Jxl

/-! ## One sample -/

/-- Least sample, largest sample and sum over places, from given values on. -/
def upFold {α : Type} [Arith α] (s : Nat × Nat → α) (wt : Nat → Nat → α) (ps : List (Nat × Nat)) (r : α × α × α) : α × α × α :=
  ps.foldl (fun r o => (if Arith.lt (s o) r.1 then s o else r.1, if Arith.lt r.2.1 (s o) then s o else r.2.1, r.2.2 + wt o.1 o.2 * s o)) r

theorem upFold_sum {α : Type} [Arith α] (s : Nat × Nat → α) (wt : Nat → Nat → α) : ∀ (ps : List (Nat × Nat)) (r : α × α × α),
    (upFold s wt ps r).2.2 = ps.foldl (fun t o => t + wt o.1 o.2 * s o) r.2.2
  | [], r => rfl
  | o :: ps, r => upFold_sum s wt ps _

theorem upFold_min {α : Type} [Arith α] (s : Nat × Nat → α) (wt : Nat → Nat → α) : ∀ (ps : List (Nat × Nat)) (r : α × α × α),
    (upFold s wt ps r).1 = ps.foldl (fun m o => if Arith.lt (s o) m then s o else m) r.1
  | [], r => rfl
  | o :: ps, r => upFold_min s wt ps _

theorem upFold_max {α : Type} [Arith α] (s : Nat × Nat → α) (wt : Nat → Nat → α) : ∀ (ps : List (Nat × Nat)) (r : α × α × α),
    (upFold s wt ps r).2.1 = ps.foldl (fun m o => if Arith.lt m (s o) then s o else m) r.2.1
  | [], r => rfl
  | o :: ps, r => upFold_max s wt ps _

theorem upSums_ok {α : Type} [Arith α] {h w : Nat} {f : Nat → Nat → α} {buf : List (List α)} (hb : HoldsPlane h w f buf) (hh : 0 < h) (hw : 0 < w)
    {wt : Nat → Nat → α} {weights : List (List α)} (hwt : HoldsPlane 5 5 wt weights) (y x : Nat) :
    ∀ (ps : List (Nat × Nat)) (r : α × α × α), (∀ o ∈ ps, o.1 < 5 ∧ o.2 < 5) →
      upSums buf weights (y : Int) (x : Int) ps r = .ok (upFold (surrounding h w f y x) wt ps r)
  | [], r, _ => rfl
  | (iy, ix) :: ps, (mn, mx, t), hp => by
    unfold upSums
    have hl : (buf.length : Int) = (h : Int) := by rw [hb.1.1]
    obtain ⟨a, ha, ea, ea'⟩ := mirror_nat ((y : Int) + iy - 2) hh
    obtain ⟨b, hb', eb, eb'⟩ := mirror_nat ((x : Int) + ix - 2) hw
    obtain ⟨row, hr, hrl⟩ := hb.1.row ha
    have hv : row[b]? = some (surrounding h w f y x (iy, ix)) := by
      have := hb.2 a b ha hb'
      unfold sample at this
      rw [hr, Option.bind_some] at this
      rw [this]
      unfold surrounding mirrored
      rw [ea', eb']
    have hi := hp (iy, ix) (by simp)
    rw [hl, mirrorCoord_ok _ hh, Res.bind_ok, ea]
    have h1 : idx buf (a : Int) = .ok row := by simp [idx, hr]
    rw [h1, Res.bind_ok, hrl, mirrorCoord_ok _ hw, Res.bind_ok, eb]
    have h2 : idx row (b : Int) = .ok (surrounding h w f y x (iy, ix)) := by simp [idx, hv]
    rw [h2, Res.bind_ok]
    simp only
    rw [at2_plane hwt hi.1 hi.2, Res.bind_ok, upSums_ok hb hh hw hwt y x ps _ (fun o ho => hp o (by simp [ho]))]
    rfl

theorem upPlaces_eq : upPlaces = square := by decide

theorem upPlaces_lt : ∀ o ∈ upPlaces, o.1 < 5 ∧ o.2 < 5 := by decide

/-- The sample computed: the sum, kept between the bounds found. -/
def upValue {α : Type} [Arith α] (s : Nat × Nat → α) (wt : Nat → Nat → α) : α :=
  let r := upFold s wt square (Arith.lit maxFloat32, Arith.lit smallestFloat32, Arith.lit 0)
  if Arith.lt r.2.2 r.1 then r.1 else if Arith.lt r.2.1 r.2.2 then r.2.1 else r.2.2

theorem upValue_eq {α : Type} [Arith α] (h w : Nat) (f : Nat → Nat → α) (wt : Nat → Nat → α) (y x : Nat) :
    upValue (surrounding h w f y x) wt = upsampled h w f wt y x := by
  unfold upValue upsampled upSum
  simp only [upFold_sum, upFold_min, upFold_max]
  rfl

/-- The tables of weights for every place of the square that replaces a sample. -/
def HoldsWeights {α : Type} (k : Nat) (wt : Nat → Nat → Nat → Nat → α) (up : List (List (List (List α)))) : Prop :=
  ∀ ky kx, ky < k → kx < k → ∃ ws, sample up ky kx = some ws ∧ HoldsPlane 5 5 (wt ky kx) ws

theorem upPixel_ok {α : Type} [Arith α] {h w k : Nat} {f : Nat → Nat → α} {buf : List (List α)} (hb : HoldsPlane h w f buf) (hh : 0 < h) (hw : 0 < w)
    {wt : Nat → Nat → Nat → Nat → α} {up : List (List (List (List α)))} (hup : HoldsWeights k wt up) (y x : Nat) {ky kx : Nat} (hy : ky < k) (hx : kx < k) :
    upPixel buf up (y : Int) (x : Int) ky kx = .ok (upValue (surrounding h w f y x) (wt ky kx)) := by
  obtain ⟨ws, h1, h2⟩ := hup ky kx hy hx
  unfold upPixel
  rw [at2_sample h1, Res.bind_ok, upSums_ok hb hh hw h2 y x _ _ upPlaces_lt, Res.bind_ok, upPlaces_eq]
  rfl

/-! ## Filling rows -/

theorem foldl_set {α : Type} (G : Nat → α) : ∀ (ps : List Nat) (r : List α), (∀ p ∈ ps, p < r.length) → ∀ j,
    (ps.foldl (fun r p => r.set p (G p)) r)[j]? = if j ∈ ps then some (G j) else r[j]?
  | [], r, _, j => by simp
  | p :: ps, r, hp, j => by
    rw [List.foldl_cons, foldl_set G ps (r.set p (G p)) (fun q hq => by simpa using hp q (by simp [hq])) j]
    by_cases hj : j ∈ ps
    · rw [if_pos hj, if_pos (by simp [hj])]
    · rw [if_neg hj]
      by_cases hjp : j = p
      · subst hjp
        rw [if_pos (by simp), List.getElem?_set_self (hp j (by simp))]
      · rw [if_neg (by simp [hj, hjp]), List.getElem?_set_ne (by omega)]

theorem foldl_set_length {α : Type} (G : Nat → α) : ∀ (ps : List Nat) (r : List α), (ps.foldl (fun r p => r.set p (G p)) r).length = r.length
  | [], r => rfl
  | p :: ps, r => by rw [List.foldl_cons, foldl_set_length G ps, List.length_set]

/-- Blocks of steps, each of which sets one row. -/
theorem runSteps_blocks {ε α β : Type} {act : ε → List α → Res (List α)} {n : Nat} {F : β → List ε} {pos : β → Nat} {R : Nat → α} :
    ∀ (bs : List β) (out : List α), (∀ b ∈ bs, ∀ out : List α, out.length = n → runSteps act (F b) out = .ok (out.set (pos b) (R (pos b)))) → out.length = n →
      runSteps act (bs.flatMap F) out = .ok ((bs.map pos).foldl (fun r p => r.set p (R p)) out)
  | [], out, _, _ => rfl
  | b :: bs, out, hb, hn => by
    rw [List.flatMap_cons, runSteps_append, hb b (by simp) out hn, Res.bind_ok,
      runSteps_blocks bs _ (fun b' h' => hb b' (by simp [h'])) (by rw [List.length_set]; exact hn)]
    rfl

/-- The samples of a new row, at the places given by a column and a place of the square. -/
theorem cells_run {α : Type} [Arith α] {w k : Nat} {buf : List (List α)} {up : List (List (List (List α)))} (y ky : Nat) (g : Nat → α) {n : Nat}
    (hi : y * k + ky < n) :
    ∀ (cs : List (Nat × Nat)) (out : List (List α)) (r : List α),
      (∀ c ∈ cs, upPixel buf up (y : Int) (c.1 : Int) ky c.2 = .ok (g (c.1 * k + c.2))) → (∀ c ∈ cs, c.1 * k + c.2 < w * k) →
      out.length = n → out[y * k + ky]? = some r → r.length = w * k →
      runSteps (upStep buf up k) (cs.map fun c => .cell (y : Int) (c.1 : Int) ky c.2) out =
        .ok (out.set (y * k + ky) ((cs.map fun c => c.1 * k + c.2).foldl (fun r p => r.set p (g p)) r))
  | [], out, r, _, _, hn, hr, hl => by
    show Res.ok out = _
    congr 1
    apply List.ext_getElem?
    intro j
    by_cases hj : j = y * k + ky
    · rw [hj, List.getElem?_set_self (by omega), hr]; rfl
    · rw [List.getElem?_set_ne (by omega)]
  | c :: cs, out, r, hp, hin, hn, hr, hl => by
    have hc := hin c (by simp)
    show ((do let v ← upPixel buf up (y : Int) (c.1 : Int) ky c.2; set2 out ((y : Int) * k + ky) ((c.1 : Int) * k + c.2) v) >>= fun s => runSteps _ _ s) = _
    rw [hp c (by simp), Res.bind_ok]
    have e1 : ((y : Int) * k + ky) = ((y * k + ky : Nat) : Int) := by push_cast; rfl
    have e2 : ((c.1 : Int) * k + c.2) = ((c.1 * k + c.2 : Nat) : Int) := by push_cast; rfl
    have hset : set2 out ((y : Int) * k + ky) ((c.1 : Int) * k + c.2) (g (c.1 * k + c.2)) = .ok (out.set (y * k + ky) (r.set (c.1 * k + c.2) (g (c.1 * k + c.2)))) := by
      rw [e1, e2]
      unfold set2
      have h1 : idx out ((y * k + ky : Nat) : Int) = .ok r := by
        unfold idx
        rw [if_neg (by omega), Int.toNat_natCast, hr]
      rw [h1, Res.bind_ok]
      have h2 : setAt r ((c.1 * k + c.2 : Nat) : Int) (g (c.1 * k + c.2)) = .ok (r.set (c.1 * k + c.2) (g (c.1 * k + c.2))) := by
        unfold setAt
        rw [if_neg (by omega), Int.toNat_natCast, if_pos (by omega)]
      rw [h2, Res.bind_ok]
      unfold setAt
      rw [if_neg (by omega), Int.toNat_natCast, if_pos (by omega)]
    rw [hset, Res.bind_ok, cells_run y ky g hi cs _ (r.set (c.1 * k + c.2) (g (c.1 * k + c.2))) (fun c hc => hp c (by simp [hc])) (fun c hc => hin c (by simp [hc]))
      (by rw [List.length_set]; exact hn) (by rw [List.getElem?_set_self (by omega)]) (by rw [List.length_set]; exact hl), List.set_set]
    rfl

/-- The whole plane. -/
theorem up_run {α : Type} [Arith α] {h w k : Nat} {f : Nat → Nat → α} {buf : List (List α)} (hb : HoldsPlane h w f buf) (hh : 0 < h) (hw : 0 < w)
    {wt : Nat → Nat → Nat → Nat → α} {up : List (List (List (List α)))} (hup : HoldsWeights k wt up) {out : List (List α)} (ho : out.length = h * k) :
    ∃ out', runSteps (upStep buf up k) (upCells w k 0 (h : Int)) out = .ok out' ∧ Table (h * k) (w * k) out' ∧
      ∀ y x ky kx, y < h → x < w → ky < k → kx < k → sample out' (y * k + ky) (x * k + kx) = some (upValue (surrounding h w f y x) (wt ky kx)) := by
  -- the value of a place, by its coordinates in the new plane
  let g : Nat → Nat → α := fun i j => upValue (surrounding h w f (i / k) (j / k)) (wt (i % k) (j % k))
  let cols : List (Nat × Nat) := (List.range w).flatMap fun x => (List.range k).map fun kx => (x, kx)
  let R : Nat → List α := fun i => (cols.map fun c => c.1 * k + c.2).foldl (fun r p => r.set p (g i p)) (List.replicate (w * k) (Arith.lit 0))
  let pairs : List (Nat × Nat) := (List.range h).flatMap fun y => (List.range k).map fun ky => (y, ky)
  have hcols : ∀ x kx, (x, kx) ∈ cols ↔ x < w ∧ kx < k := by intro x kx; simp [cols]
  have hpairs : ∀ y ky, (y, ky) ∈ pairs ↔ y < h ∧ ky < k := by intro y ky; simp [pairs]
  have hflat : ∀ {a b m : Nat}, a < m → b < k → a * k + b < m * k := by
    intro a b m h1 h2
    have : (a + 1) * k ≤ m * k := Nat.mul_le_mul_right k h1
    have : (a + 1) * k = a * k + k := by ring
    omega
  have hdiv : ∀ {a b : Nat}, b < k → (a * k + b) / k = a := by
    intro a b hbk
    rw [Nat.mul_comm, Nat.mul_add_div (by omega), Nat.div_eq_of_lt hbk, Nat.add_zero]
  have hmod : ∀ {a b : Nat}, b < k → (a * k + b) % k = b := by
    intro a b hbk
    rw [Nat.mul_comm, Nat.mul_add_mod, Nat.mod_eq_of_lt hbk]
  let F : Nat × Nat → List UpStep := fun p => .row (p.1 : Int) p.2 :: (cols.map fun c => .cell (p.1 : Int) (c.1 : Int) p.2 c.2)
  have heq : upCells w k 0 (h : Int) = pairs.flatMap F := by
    have e0 : ∀ i : Nat, (0 : Int) + (i : Int) = i := fun i => by omega
    unfold upCells
    rw [show ((h : Int) - 0).toNat = h by omega]
    simp only [pairs, F, cols, e0, List.flatMap_assoc, List.flatMap_map, List.map_flatMap, List.map_map]
    rfl
  have hblock : ∀ b ∈ pairs, ∀ out : List (List α), out.length = h * k → runSteps (upStep buf up k) (F b) out = .ok (out.set (b.1 * k + b.2) (R (b.1 * k + b.2))) := by
    rintro ⟨y, ky⟩ hm out hn
    obtain ⟨hy, hky⟩ := (hpairs y ky).1 hm
    have hi := hflat hy hky
    obtain ⟨row, hr, hrl⟩ := hb.1.row hy
    show (upStep buf up k (.row (y : Int) ky) out >>= fun s => runSteps _ _ s) = _
    have h1 : upStep buf up k (.row (y : Int) ky) out = .ok (out.set (y * k + ky) (List.replicate (w * k) (Arith.lit 0))) := by
      show (idx buf (y : Int) >>= fun r => setAt out ((y : Int) * k + ky) (List.replicate (r.length * k) (Arith.lit 0))) = _
      have h2 : idx buf (y : Int) = .ok row := by simp [idx, hr]
      have e1 : ((y : Int) * k + ky) = ((y * k + ky : Nat) : Int) := by push_cast; rfl
      rw [h2, Res.bind_ok, hrl, e1]
      unfold setAt
      rw [if_neg (by omega), Int.toNat_natCast, if_pos (by omega)]
    rw [h1, Res.bind_ok, cells_run (w := w) y ky (g (y * k + ky)) (n := h * k) hi cols _ (List.replicate (w * k) (Arith.lit 0))]
    · rw [List.set_set]
    · rintro ⟨x, kx⟩ hc
      obtain ⟨hx, hkx⟩ := (hcols x kx).1 hc
      rw [upPixel_ok hb hh hw hup y x hky hkx]
      simp only [g, hdiv hky, hmod hky, hdiv hkx, hmod hkx]
    · rintro ⟨x, kx⟩ hc
      obtain ⟨hx, hkx⟩ := (hcols x kx).1 hc
      exact hflat hx hkx
    · rw [List.length_set]; exact hn
    · rw [List.getElem?_set_self (by omega)]
    · exact List.length_replicate
  have hrun := runSteps_blocks (R := R) pairs out hblock ho
  have hRl : ∀ i, (R i).length = w * k := by
    intro i
    simp only [R]
    rw [foldl_set_length, List.length_replicate]
  have hget := foldl_set R (pairs.map fun b => b.1 * k + b.2) out (by
    intro p hp
    obtain ⟨⟨y, ky⟩, hm, rfl⟩ := List.mem_map.1 hp
    obtain ⟨hy, hky⟩ := (hpairs y ky).1 hm
    rw [ho]
    exact hflat hy hky)
  have hall : ∀ j, j < h * k → j ∈ pairs.map fun b => b.1 * k + b.2 := by
    intro j hj
    have hk : 0 < k := by
      rcases Nat.eq_zero_or_pos k with hz | hz
      · subst hz; omega
      · exact hz
    refine List.mem_map.2 ⟨(j / k, j % k), (hpairs _ _).2 ⟨?_, Nat.mod_lt _ hk⟩, ?_⟩
    · exact (Nat.div_lt_iff_lt_mul hk).2 hj
    · simp only
      rw [Nat.mul_comm]
      exact Nat.div_add_mod j k
  refine ⟨_, by rw [heq]; exact hrun, ⟨?_, ?_⟩, ?_⟩
  · rw [foldl_set_length]; exact ho
  · intro r hr
    obtain ⟨j, hj⟩ := List.mem_iff_getElem?.1 hr
    rw [hget j] at hj
    by_cases hm : j ∈ pairs.map fun b => b.1 * k + b.2
    · rw [if_pos hm] at hj
      cases hj
      exact hRl j
    · rw [if_neg hm] at hj
      have : j < out.length := by
        by_contra hn
        rw [List.getElem?_eq_none (by omega)] at hj
        cases hj
      exact absurd (hall j (by omega)) hm
  · intro y x ky kx hy hx hky hkx
    unfold sample
    rw [hget, if_pos (hall _ (hflat hy hky)), Option.bind_some]
    simp only [R]
    rw [foldl_set, if_pos]
    · simp only [g, hdiv hky, hmod hky, hdiv hkx, hmod hkx]
    · exact List.mem_map.2 ⟨(x, kx), (hcols _ _).2 ⟨hx, hkx⟩, rfl⟩
    · intro p hp
      obtain ⟨⟨x, kx⟩, hm, rfl⟩ := List.mem_map.1 hp
      obtain ⟨hx, hkx⟩ := (hcols x kx).1 hm
      rw [List.length_replicate]
      exact hflat hx hkx

/-! ## Any order of steps -/

theorem upSums_noErr {α : Type} [Arith α] (buf weights : List (List α)) (y x : Int) : ∀ (ps : List (Nat × Nat)) (r : α × α × α), NoErr (upSums buf weights y x ps r)
  | [], _ => NoErr.ok _
  | (iy, ix) :: ps, (mn, mx, t) => by
    unfold upSums
    exact (mirrorCoord_noErr _ _).bind fun _ => (idx_noErr _ _).bind fun _ => (mirrorCoord_noErr _ _).bind fun _ => (idx_noErr _ _).bind fun _ =>
      (at2_noErr _ _ _).bind fun _ => upSums_noErr buf weights y x ps _

theorem upPixel_noErr {α : Type} [Arith α] (buf : List (List α)) (up : List (List (List (List α)))) (y x : Int) (ky kx : Nat) : NoErr (upPixel buf up y x ky kx) := by
  unfold upPixel
  exact (at2_noErr _ _ _).bind fun _ => (upSums_noErr _ _ _ _ _ _).bind fun _ => NoErr.ok _

/-- The row a step writes to. -/
def UpStep.target (k : Nat) : UpStep → Int
  | .row y ky => y * k + ky
  | .cell y _ ky _ => y * k + ky

/-- What it does to this row. -/
def upRowAct {α : Type} [Arith α] (buf : List (List α)) (up : List (List (List (List α)))) (k : Nat) : UpStep → List α → Res (List α)
  | .row y _, _ => do
    let r ← idx buf y
    .ok (List.replicate (r.length * k) (Arith.lit 0))
  | .cell y x ky kx, r => do
    let v ← upPixel buf up y x ky kx
    setAt r (x * k + kx) v

theorem upRowAct_noErr {α : Type} [Arith α] (buf : List (List α)) (up : List (List (List (List α)))) (k : Nat) (e : UpStep) (r : List α) :
    NoErr (upRowAct buf up k e r) := by
  cases e with
  | row y ky => exact (idx_noErr _ _).bind fun _ => NoErr.ok _
  | cell y x ky kx => exact (upPixel_noErr _ _ _ _ _ _).bind fun _ => setAt_noErr _ _ _

theorem setAt_upd {α : Type} (m : List (List α)) (y : Int) (v : List α) : setAt m y v = updRow y (fun _ => .ok v) m := by
  rw [updRow_eval]
  unfold setAt
  split
  · rfl
  · by_cases hy : y.toNat < m.length
    · rw [if_pos hy, List.getElem?_eq_getElem hy]
      rfl
    · rw [if_neg hy, List.getElem?_eq_none (by omega)]

theorem upStep_upd {α : Type} [Arith α] (buf : List (List α)) (up : List (List (List (List α)))) (k : Nat) (e : UpStep) :
    upStep buf up k e = updRow (e.target k) (upRowAct buf up k e) := by
  funext out
  cases e with
  | row y ky =>
    show (idx buf y >>= fun r => setAt out (y * k + ky) _) = (idx out (y * k + ky) >>= fun _ => (idx buf y >>= fun r => .ok _) >>= fun r => setAt out (y * k + ky) r)
    have h1 : ∀ v, setAt out (y * k + ky) v = (idx out (y * k + ky) >>= fun _ => (.ok v : Res (List α)) >>= fun r => setAt out (y * k + ky) r) := by
      intro v
      rw [setAt_upd]
      rfl
    have h2 : (fun r : List α => setAt out (y * k + ky) (List.replicate (r.length * k) (Arith.lit 0 : α))) =
        fun r => (idx out (y * k + ky) >>= fun _ => (.ok (List.replicate (r.length * k) (Arith.lit 0 : α)) : Res (List α)) >>= fun r => setAt out (y * k + ky) r) := by
      funext r
      exact h1 _
    rw [h2, bind_swap _ (idx_noErr _ _) (idx_noErr _ _)]
    congr 1
    funext _
    rw [Res.bind_assoc']
  | cell y x ky kx =>
    show (upPixel buf up y x ky kx >>= fun v => idx out (y * k + ky) >>= fun r => setAt r (x * k + kx) v >>= fun r' => setAt out (y * k + ky) r') =
      (idx out (y * k + ky) >>= fun r => (upPixel buf up y x ky kx >>= fun v => setAt r (x * k + kx) v) >>= fun r' => setAt out (y * k + ky) r')
    rw [bind_swap _ (upPixel_noErr _ _ _ _ _ _) (idx_noErr _ _)]
    congr 1
    funext r
    rw [Res.bind_assoc']

theorem up_commute {α : Type} [Arith α] (buf : List (List α)) (up : List (List (List (List α)))) (k : Nat) {e e' : UpStep} (h : e.target k ≠ e'.target k) :
    Commute2 (upStep buf up k) e e' := by
  intro s
  rw [upStep_upd, upStep_upd]
  exact updRow_comm h (upRowAct_noErr buf up k e) (upRowAct_noErr buf up k e') s

theorem upCells_append (w k : Nat) {a b c : Int} (h1 : a ≤ b) (h2 : b ≤ c) : upCells w k a b ++ upCells w k b c = upCells w k a c := by
  unfold upCells
  have hl : (c - a).toNat = (b - a).toNat + (c - b).toNat := by omega
  rw [hl, List.range_add, List.flatMap_append]
  congr 1
  rw [List.flatMap_map]
  congr 1
  funext i
  have : a + (((b - a).toNat + i : Nat) : Int) = b + (i : Int) := by omega
  simp only [this]

theorem Chain.upCells {a b : Int} {ss : List (Int × Int)} (h : Chain a b ss) (w k : Nat) :
    (ss.map fun s => Jxl.upCells w k s.1 s.2).flatten = Jxl.upCells w k a b := by
  induction h with
  | nil a =>
    unfold Jxl.upCells
    rw [show (a - a).toNat = 0 by omega]
    rfl
  | cons h1 h2 ih =>
    rw [List.map_cons, List.flatten_cons, ih]
    exact upCells_append w k h1 h2.le

theorem mem_upCells {w k : Nat} {a b : Int} {e : UpStep} (h : e ∈ upCells w k a b) : ∃ (y : Int) (ky : Nat), a ≤ y ∧ y < b ∧ ky < k ∧ e.target k = y * k + ky := by
  unfold upCells at h
  simp only [List.mem_flatMap, List.mem_range, List.mem_cons, List.mem_map] at h
  obtain ⟨i, hi, ky, hky, h⟩ := h
  refine ⟨a + i, ky, by omega, by omega, hky, ?_⟩
  rcases h with rfl | ⟨x, -, kx, -, rfl⟩ <;> rfl

end Jxl
