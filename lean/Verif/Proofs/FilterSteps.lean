import Verif.Proofs.Filters
import Verif.Spec.Filters

/-! # The steps of the filters -/
namespace Jxl

theorem getElem?_map_some {α β : Type} {f : α → β} {l : List α} {i : Nat} {b : β} (h : (l.map f)[i]? = some b) : ∃ a, l[i]? = some a ∧ f a = b := by
  rw [List.getElem?_map] at h
  cases ha : l[i]? with
  | none => rw [ha] at h; cases h
  | some a => rw [ha] at h; exact ⟨a, rfl, by simpa using h⟩

/-! ## Mirrored places -/

theorem mirrorCoord_ok (c : Int) {s : Nat} (hs : 0 < s) : mirrorCoord c (s : Int) = .ok (mirrorSpec c s) := by
  unfold mirrorCoord
  split
  · rename_i h
    rw [(C41_mirror_range c s (by omega)).2.2 h.1 h.2]
  · rw [C41_mirror c s (by omega)]

theorem mirror_nat (c : Int) {s : Nat} (hs : 0 < s) : ∃ n : Nat, n < s ∧ mirrorSpec c s = n ∧ (mirrorSpec c s).toNat = n := by
  have h := C41_mirror_range c s (by omega)
  refine ⟨(mirrorSpec c s).toNat, by omega, by omega, rfl⟩

theorem mirror_self {n s : Nat} (h : n < s) : mirrorSpec (n : Int) (s : Int) = n := (C41_mirror_range n s (by omega)).2.2 (by omega) (by omega)

theorem mirrored_self {α : Type} {h w : Nat} (f : Nat → Nat → α) {y x : Nat} (hy : y < h) (hx : x < w) : mirrored h w f (y : Int) (x : Int) = f y x := by
  unfold mirrored
  rw [mirror_self hy, mirror_self hx]
  rfl

theorem mirror_zero_below {s : Nat} (hs : 0 < s) : mirrorSpec (0 - 1) (s : Int) = 0 := by
  unfold mirrorSpec
  simp only
  have : (0 - 1 : Int) % (2 * s) = 2 * s - 1 := by
    rw [Int.emod_def]
    have : (0 - 1 : Int) / (2 * s) = -1 := by
      rw [Int.ediv_eq_iff_of_pos (by omega)]
      omega
    rw [this]
    omega
  rw [this]
  split <;> omega

theorem mirror_above {s : Nat} (hs : 0 < s) : mirrorSpec (s : Int) (s : Int) = s - 1 := by
  unfold mirrorSpec
  simp only
  rw [Int.emod_eq_of_lt (by omega) (by omega)]
  split <;> omega

/-- Reading at a mirrored place. -/
theorem at2_mirrored {α : Type} {h w : Nat} {f : Nat → Nat → α} {m : List (List α)} (hm : HoldsPlane h w f m) (hh : 0 < h) (hw : 0 < w) (y x : Int) :
    at2 m (mirrorSpec y h) (mirrorSpec x w) = .ok (mirrored h w f y x) := by
  obtain ⟨a, ha, ea, ea'⟩ := mirror_nat y hh
  obtain ⟨b, hb, eb, eb'⟩ := mirror_nat x hw
  unfold mirrored
  rw [ea', eb', ea, eb]
  exact at2_sample (hm.2 a b ha hb)

theorem at2_plane {α : Type} {h w : Nat} {f : Nat → Nat → α} {m : List (List α)} (hm : HoldsPlane h w f m) {y x : Nat} (hy : y < h) (hx : x < w) :
    at2 m (y : Int) (x : Int) = .ok (f y x) := at2_sample (hm.2 y x hy hx)

/-! ## Filling a plane -/

/-- The value of every place is computed and written; the order and repetitions do not matter. -/
theorem fill_cells {α : Type} {h w : Nat} (pix : Int → Int → Res α) (g : Nat → Nat → α)
    (hp : ∀ y x, y < h → x < w → pix (y : Int) (x : Int) = .ok (g y x)) :
    ∀ (cells : List (Int × Int)) (out : List (List α)), (∀ p ∈ cells, 0 ≤ p.1 ∧ p.1 < h ∧ 0 ≤ p.2 ∧ p.2 < w) → Table h w out →
      ∃ out', runSteps (fun p out => do let v ← pix p.1 p.2; set2 out p.1 p.2 v) cells out = .ok out' ∧ Table h w out' ∧
        ∀ y x : Nat, sample out' y x = if ((y : Int), (x : Int)) ∈ cells then some (g y x) else sample out y x
  | [], out, _, ho => ⟨out, rfl, ho, fun y x => by simp⟩
  | p :: cells, out, hin, ho => by
    obtain ⟨y0, x0⟩ := p
    have hb := hin (y0, x0) (by simp)
    simp only at hb
    obtain ⟨y, rfl⟩ : ∃ y : Nat, y0 = y := ⟨y0.toNat, by omega⟩
    obtain ⟨x, rfl⟩ : ∃ x : Nat, x0 = x := ⟨x0.toNat, by omega⟩
    have hy : y < h := by omega
    have hx : x < w := by omega
    obtain ⟨o1, e1, t1, s1⟩ := set2_table ho hy hx (g y x)
    obtain ⟨o2, e2, t2, s2⟩ := fill_cells pix g hp cells o1 (fun p hp => hin p (by simp [hp])) t1
    refine ⟨o2, ?_, t2, ?_⟩
    · show ((do let v ← pix (y : Int) (x : Int); set2 out (y : Int) (x : Int) v) >>= fun s => runSteps _ cells s) = _
      rw [hp y x hy hx, Res.bind_ok, e1, Res.bind_ok]
      exact e2
    · intro j k
      rw [s2 j k, s1 j k]
      by_cases hm : ((j : Int), (k : Int)) ∈ cells
      · rw [if_pos hm, if_pos (by simp [hm])]
      · rw [if_neg hm]
        by_cases hjk : j = y ∧ k = x
        · rw [if_pos hjk, if_pos (by simp [hjk])]
          rw [hjk.1, hjk.2]
        · rw [if_neg hjk, if_neg]
          simp only [List.mem_cons, Prod.mk.injEq, hm, or_false]
          omega

/-! ## Gaborish -/

theorem gabPixel_noErr {α : Type} [Arith α] (w : α × α × α) (h wd : Int) (buf : List (List α)) (y x : Int) : NoErr (gabPixel w h wd buf y x) := by
  unfold gabPixel
  repeat' first
    | exact NoErr.ok _
    | (refine NoErr.bind (idx_noErr _ _) fun _ => ?_)

theorem gabStep_upd {α : Type} [Arith α] (w : α × α × α) (h wd : Int) (buf : List (List α)) (p : Int × Int) (out : List (List α)) :
    gabStep w h wd buf p out = updRow p.1 (fun r => gabPixel w h wd buf p.1 p.2 >>= fun v => setAt r p.2 v) out := by
  unfold gabStep updRow set2
  rw [bind_swap _ (gabPixel_noErr _ _ _ _ _ _) (idx_noErr _ _)]
  congr 1
  funext r
  rw [Res.bind_assoc']

theorem gab_commute {α : Type} [Arith α] (w : α × α × α) (h wd : Int) (buf : List (List α)) {p q : Int × Int} (hpq : p.1 ≠ q.1) :
    Commute2 (gabStep w h wd buf) p q := by
  intro s
  have e : ∀ p, gabStep w h wd buf p = updRow p.1 (fun r => gabPixel w h wd buf p.1 p.2 >>= fun v => setAt r p.2 v) := fun p => by
    funext out
    exact gabStep_upd w h wd buf p out
  rw [e, e]
  exact updRow_comm hpq (fun r => (gabPixel_noErr _ _ _ _ _ _).bind fun _ => setAt_noErr _ _ _)
    (fun r => (gabPixel_noErr _ _ _ _ _ _).bind fun _ => setAt_noErr _ _ _) s

/-- The neighbours of a row or a column. -/
theorem north_ok {y h : Nat} (hy : y < h) : (if (y : Int) = 0 then 0 else (y : Int) - 1) = mirrorSpec ((y : Int) - 1) h := by
  by_cases h0 : y = 0
  · subst h0
    rw [if_pos (by norm_num)]
    exact (mirror_zero_below (by omega)).symm
  · rw [if_neg (by omega)]
    have e : (y : Int) - 1 = ((y - 1 : Nat) : Int) := by omega
    rw [e, mirror_self (by omega)]

theorem south_ok {y h : Nat} (hy : y < h) : (if (y : Int) + 1 = h then (h : Int) - 1 else (y : Int) + 1) = mirrorSpec ((y : Int) + 1) h := by
  by_cases h0 : (y : Int) + 1 = h
  · rw [if_pos h0, h0, mirror_above (by omega)]
  · rw [if_neg h0]
    have e : (y : Int) + 1 = ((y + 1 : Nat) : Int) := by omega
    rw [e, mirror_self (by omega)]

theorem gabPixel_ok {α : Type} [Arith α] (w1 w2 : α) {h w : Nat} {f : Nat → Nat → α} {buf : List (List α)} (hb : HoldsPlane h w f buf) {y x : Nat}
    (hy : y < h) (hx : x < w) : gabPixel (gabWeights w1 w2) (h : Int) (w : Int) buf (y : Int) (x : Int) = .ok (gabValue w1 w2 h w f y x) := by
  have hh : 0 < h := by omega
  have hw : 0 < w := by omega
  have rows : ∀ y' : Int, ∃ r, idx buf (mirrorSpec y' h) = .ok r ∧ ∀ x', idx r (mirrorSpec x' w) = .ok (mirrored h w f y' x') := by
    intro y'
    have := fun x' => at2_mirrored hb hh hw y' x'
    unfold at2 at this
    cases hr : idx buf (mirrorSpec y' h) with
    | ok r =>
      refine ⟨r, rfl, fun x' => ?_⟩
      have := this x'
      rw [hr, Res.bind_ok] at this
      exact this
    | err => have := this 0; rw [hr] at this; cases this
    | panic => have := this 0; rw [hr] at this; cases this
  obtain ⟨r, hr, hr'⟩ := rows y
  obtain ⟨n, hn, hn'⟩ := rows ((y : Int) - 1)
  obtain ⟨s, hs, hs'⟩ := rows ((y : Int) + 1)
  have ex : ∀ (r : List α) (y' : Int), (∀ x', idx r (mirrorSpec x' w) = .ok (mirrored h w f y' x')) → idx r (x : Int) = .ok (mirrored h w f y' x) := by
    intro r y' hr
    have := hr x
    rw [mirror_self hx] at this
    exact this
  rw [mirror_self hy] at hr
  unfold gabPixel
  simp only
  rw [north_ok hy, south_ok hy, north_ok hx, south_ok hx, hr, Res.bind_ok, hn, Res.bind_ok, hs, Res.bind_ok, hr', Res.bind_ok, hr', Res.bind_ok,
    ex n _ hn', Res.bind_ok, ex s _ hs', Res.bind_ok, hn', Res.bind_ok, hn', Res.bind_ok, hs', Res.bind_ok, hs', Res.bind_ok, ex r _ hr', Res.bind_ok]
  rfl

end Jxl
