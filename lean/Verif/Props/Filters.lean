import Verif.Proofs.FilterUp
import Verif.Proofs.FilterEPF
import Mathlib.Tactic.Linarith
import Mathlib.Tactic.FieldSimp
import Mathlib.Tactic.NormNum
import Mathlib.Tactic.Positivity
import Mathlib.Tactic.IntervalCases

/-!
# C27 and C65: filters

The values that the filters must give are in Spec/Filters. They do not mention goroutines.
-/
namespace Jxl

/-! ## C27: the picture does not depend on the goroutines -/

/-- One goroutine after the other is one of the orders. -/
theorem Interleaving.sequential {ε : Type} : ∀ (n : Nat) (ls : List (List ε)), ls.flatten.length = n → Interleaving ls ls.flatten
  | 0, ls, h => by
    have h0 : ls.flatten = [] := List.length_eq_zero_iff.1 h
    rw [h0]
    exact .done fun l hl => List.flatten_eq_nil_iff.1 h0 l hl
  | n + 1, ls, h => by
    have key : ∃ (i : Nat) (e : ε) (rest : List ε), ls[i]? = some (e :: rest) ∧ ls.flatten = e :: (ls.set i rest).flatten := by
      have hne : ls.flatten ≠ [] := fun h0 => by rw [h0] at h; cases h
      clear h
      induction ls with
      | nil => exact absurd rfl hne
      | cons l ls ih =>
        cases l with
        | cons e rest => exact ⟨0, e, rest, rfl, rfl⟩
        | nil =>
          obtain ⟨i, e, rest, h1, h2⟩ := ih (by simpa using hne)
          exact ⟨i + 1, e, rest, by simpa using h1, by simpa using h2⟩
    obtain ⟨i, e, rest, h1, h2⟩ := key
    rw [h2]
    refine .step i e rest h1 (Interleaving.sequential n _ ?_)
    rw [h2] at h
    simpa using h

/-- The rows are shared out: every row goes to exactly one goroutine, and there are no others. -/
theorem C27_rows {h : Nat} (hh : h < 2 ^ 30) {mg : Int} (hm : mg + h < 2 ^ 31) :
    ∃ ss, spans h mg = .ok ss ∧ (∀ s ∈ ss, 0 ≤ s.1 ∧ s.2 ≤ h) ∧
      ∀ y : Nat, y < h → ∃! i : Nat, ∃ s, ss[i]? = some s ∧ s.1 ≤ y ∧ (y : Int) < s.2 := by
  obtain ⟨ss, h1, h2⟩ := spans_chain (height := h) (mg := mg) (by omega) (by omega) (by omega)
  refine ⟨ss, h1, fun s hs => ⟨(h2.mem hs).1, (h2.mem hs).2.2⟩, fun y hy => ?_⟩
  have hm : ((y : Int), (0 : Int)) ∈ (ss.map fun s => rowCells 1 s.1 s.2).flatten := by
    rw [h2.cells]
    exact mem_rowCells.2 ⟨by omega, by omega, by omega, by omega⟩
  obtain ⟨l, hl, hyl⟩ := List.mem_flatten.1 hm
  obtain ⟨s, hs, rfl⟩ := List.mem_map.1 hl
  obtain ⟨i, hi⟩ := List.mem_iff_getElem?.1 hs
  have hr := mem_rowCells.1 hyl
  refine ⟨i, ⟨s, hi, hr.1, hr.2.1⟩, ?_⟩
  rintro j ⟨t, hj, ht1, ht2⟩
  by_contra hne
  exact h2.disjoint hne hj hi ⟨ht1, ht2⟩ ⟨hr.1, hr.2.1⟩

/-- Upsampling shares the rows out as well. -/
theorem C27_up_rows (h : Nat) (options : Option Int) :
    (∀ s ∈ upSpans h options, 0 ≤ s.1 ∧ s.2 ≤ h) ∧ ∀ y : Nat, y < h → ∃! i : Nat, ∃ s, (upSpans h options)[i]? = some s ∧ s.1 ≤ y ∧ (y : Int) < s.2 := by
  have h2 := upSpans_chain h options
  refine ⟨fun s hs => ⟨(h2.mem hs).1, (h2.mem hs).2.2⟩, fun y hy => ?_⟩
  have hm : ((y : Int), (0 : Int)) ∈ ((upSpans h options).map fun s => rowCells 1 s.1 s.2).flatten := by
    rw [h2.cells]
    exact mem_rowCells.2 ⟨by omega, by omega, by omega, by omega⟩
  obtain ⟨l, hl, hyl⟩ := List.mem_flatten.1 hm
  obtain ⟨s, hs, rfl⟩ := List.mem_map.1 hl
  obtain ⟨i, hi⟩ := List.mem_iff_getElem?.1 hs
  have hr := mem_rowCells.1 hyl
  refine ⟨i, ⟨s, hi, hr.1, hr.2.1⟩, ?_⟩
  rintro j ⟨t, hj, ht1, ht2⟩
  by_contra hne
  exact h2.disjoint hne hj hi ⟨ht1, ht2⟩ ⟨hr.1, hr.2.1⟩

/-- Gaborish: with any number of goroutines and any order of their steps, nothing panics and the new plane has the filtered value at every place. -/
theorem C27_gab {α : Type} [Arith α] (w1 w2 : α) {h w : Nat} (hh : h < 2 ^ 30) {mg : Int} (hm : mg + h < 2 ^ 31) {f : Nat → Nat → α}
    {buf out : List (List α)} (hb : HoldsPlane h w f buf) (ho : Table h w out) :
    ∃ workers, gabWorkers h w mg = .ok workers ∧ ∀ order, Interleaving workers order →
      ∃ out', runSteps (gabStep (gabWeights w1 w2) h w buf) order out = .ok out' ∧ HoldsPlane h w (fun y x => gabValue w1 w2 h w f y x) out' := by
  obtain ⟨ss, h1, h2⟩ := spans_chain (height := h) (mg := mg) (by omega) (by omega) (by omega)
  refine ⟨_, by unfold gabWorkers; rw [h1, Res.bind_ok], fun order hord => ?_⟩
  rw [interleaving_run hord, h2.cells]
  · obtain ⟨o, e, t, s⟩ := fill_cells (gabPixel (gabWeights w1 w2) h w buf) (fun y x => gabValue w1 w2 h w f y x)
      (fun y x hy hx => gabPixel_ok w1 w2 hb hy hx) (rowCells w 0 h) out (by
        rintro ⟨y, x⟩ hp
        obtain ⟨a, b, c, d⟩ := mem_rowCells.1 hp
        exact ⟨a, b, c, d⟩) ho
    refine ⟨o, e, t, fun y x hy hx => ?_⟩
    rw [s, if_pos (mem_rowCells.2 ⟨by omega, by omega, by omega, by omega⟩)]
  · intro i j li lj hij hi hj e he e' he'
    rw [List.getElem?_map] at hi hj
    obtain ⟨s, hs, rfl⟩ := Option.map_eq_some_iff.1 hi
    obtain ⟨t, ht, rfl⟩ := Option.map_eq_some_iff.1 hj
    have r1 := mem_rowCells.1 (show (e.1, e.2) ∈ _ from he)
    have r2 := mem_rowCells.1 (show (e'.1, e'.2) ∈ _ from he')
    apply gab_commute
    intro heq
    rw [← heq] at r2
    exact h2.disjoint hij hs ht ⟨r1.1, r1.2.1⟩ ⟨r2.1, r2.2.1⟩

/-- A plane is held by one buffer only: two runs that hold the same plane have given the same buffer. -/
theorem C27_same {α : Type} {h w : Nat} {f : Nat → Nat → α} {a b : List (List α)} (ha : HoldsPlane h w f a) (hb : HoldsPlane h w f b) : a = b :=
  Table.ext ha.1 hb.1 fun y x hy hx => by rw [ha.2 y x hy hx, hb.2 y x hy hx]

/-- Gaborish gives the same plane for every `MaxGoroutines` and every order. -/
theorem C27_gab_same {α : Type} [Arith α] (w1 w2 : α) {h w : Nat} (hh : h < 2 ^ 30) {mg mg' : Int} (hm : mg + h < 2 ^ 31) (hm' : mg' + h < 2 ^ 31)
    {buf out out' : List (List α)} (hb : Table h w buf) (ho : Table h w out) (ho' : Table h w out') {workers workers' : List (List (Int × Int))}
    (e : gabWorkers h w mg = .ok workers) (e' : gabWorkers h w mg' = .ok workers') {order order' : List (Int × Int)} (hi : Interleaving workers order)
    (hi' : Interleaving workers' order') :
    ∃ r, runSteps (gabStep (gabWeights w1 w2) h w buf) order out = .ok r ∧ runSteps (gabStep (gabWeights w1 w2) h w buf) order' out' = .ok r := by
  have hp : HoldsPlane h w (fun y x => (sample buf y x).getD (Arith.lit 0)) buf := ⟨hb, fun y x hy hx => by
    obtain ⟨v, hv⟩ := hb.sample hy hx
    simp [hv]⟩
  obtain ⟨ws, a1, a2⟩ := C27_gab w1 w2 hh hm hp ho
  obtain ⟨ws', b1, b2⟩ := C27_gab w1 w2 hh hm' hp ho'
  obtain rfl : ws = workers := by rw [e] at a1; cases a1; rfl
  obtain rfl : ws' = workers' := by rw [e'] at b1; cases b1; rfl
  obtain ⟨r, c1, c2⟩ := a2 order hi
  obtain ⟨r', d1, d2⟩ := b2 order' hi'
  obtain rfl := C27_same c2 d2
  exact ⟨r, c1, d1⟩

/-- The edge-preserving filter, one pass: with any number of goroutines and any order of their steps, nothing panics and the new planes have at every place
the filtered value, or the old one where the inverse sigma of the block is above 1/0.3. -/
theorem C27_epf {α : Type} [Arith α] {h w : Nat} (hh : h < 2 ^ 30) (h0 : 0 < h) (w0 : 0 < w) {mg : Int} (hm : mg + h < 2 ^ 31) (p : EPF α) (p1 : p.height = h)
    (p2 : p.width = w) (pass : Nat) (sg : α) {scale : Nat → α} {s : Nat → Nat → α} {f : Nat → Nat → Nat → α} {bufs out : List (List (List α))}
    (hl : bufs.length ≤ p.scales.length) (hs : ∀ i v, p.scales[i]? = some v → v = scale i)
    (hi : ∀ y x, y < h → x < w → sample p.inverseSigma (y / 8) (x / 8) = some (s (y / 8) (x / 8)))
    (hb : ∀ (c : Nat) b, bufs[c]? = some b → HoldsPlane h w (f c) b) (ho : ∀ b ∈ out, Table h w b) (hol : out.length = bufs.length) :
    ∃ workers, epfWorkers h w bufs.length mg = .ok workers ∧ ∀ order, Interleaving workers order →
      ∃ out', runSteps (epfStep p pass sg bufs) order out = .ok out' ∧ out'.length = bufs.length ∧ ∀ (c : Nat) b, out'[c]? = some b →
        HoldsPlane h w (fun y x => if Arith.lt (Arith.lit (1 / (3 / 10))) (s (y / 8) (x / 8)) then f c y x
          else epfValue pass bufs.length h w scale p.borderSadMul (sg * s (y / 8) (x / 8)) f y x c) b := by
  obtain ⟨ss, h1, h2⟩ := spans_chain (height := h) (mg := mg) (by omega) (by omega) (by omega)
  refine ⟨_, by unfold epfWorkers; rw [h1, Res.bind_ok], fun order hord => ?_⟩
  have hflat : (ss.map fun s => (rowCells (w : Int) s.1 s.2).flatMap fun c => (List.range bufs.length).map fun (k : Nat) => (c, k)).flatten =
      (rowCells (w : Int) 0 h).flatMap fun c => (List.range bufs.length).map fun (k : Nat) => (c, k) := by
    rw [← h2.cells, List.flatMap_def, List.map_flatten, List.flatten_flatten, List.map_map, List.map_map]
    simp only [Function.comp_def, List.flatMap_def]
  have hmem : ∀ {a b : Int} {e : (Int × Int) × Nat}, (e ∈ (rowCells (w : Int) a b).flatMap fun c => (List.range bufs.length).map fun (k : Nat) => (c, k)) ↔
      (a ≤ e.1.1 ∧ e.1.1 < b ∧ 0 ≤ e.1.2 ∧ e.1.2 < w) ∧ e.2 < bufs.length := by
    rintro a b ⟨⟨y, x⟩, c⟩
    simp only [List.mem_flatMap, List.mem_map, List.mem_range, Prod.mk.injEq]
    constructor
    · rintro ⟨c', hr, k, hk, rfl, rfl⟩
      exact ⟨mem_rowCells.1 hr, hk⟩
    · rintro ⟨hr, hk⟩
      exact ⟨(y, x), mem_rowCells.2 hr, c, hk, rfl, rfl⟩
  rw [interleaving_run hord, hflat]
  · obtain ⟨o, e, l, t, v⟩ := fill_planes (h := h) (w := w) (n := bufs.length) p pass sg bufs (fun c y x => if Arith.lt (Arith.lit (1 / (3 / 10))) (s (y / 8) (x / 8)) then f c y x
          else epfValue pass bufs.length h w scale p.borderSadMul (sg * s (y / 8) (x / 8)) f y x c)
        (fun y x hy hx => epfPixel_ok h0 w0 p p1 p2 (fun i b hib => by rw [Nat.zero_add]; exact hb i b hib) scale hl hs pass sg s hi hy hx)
        ((rowCells (w : Int) 0 h).flatMap fun c => (List.range bufs.length).map fun (k : Nat) => (c, k)) out
        (fun e he => by
          have := hmem.1 he
          exact ⟨this.1.1, this.1.2.1, this.1.2.2.1, this.1.2.2.2, this.2⟩) hol ho
    refine ⟨o, e, l, fun c b hc => ⟨t b (List.mem_of_getElem? hc), fun y x hy hx => ?_⟩⟩
    have hcl : c < bufs.length := by
      by_contra hn
      rw [List.getElem?_eq_none (by omega)] at hc
      cases hc
    have := v c y x
    rw [hc, Option.bind_some, if_pos (hmem.2 ⟨⟨by simp, by simpa using hy, by simp, by simpa using hx⟩, hcl⟩)] at this
    exact this
  · intro i j li lj hij hi hj e he e' he'
    rw [List.getElem?_map] at hi hj
    obtain ⟨s, hs, rfl⟩ := Option.map_eq_some_iff.1 hi
    obtain ⟨t, ht, rfl⟩ := Option.map_eq_some_iff.1 hj
    have r1 := (hmem.1 he).1
    have r2 := (hmem.1 he').1
    apply epf_commute
    intro heq
    rw [← heq] at r2
    exact h2.disjoint hij hs ht ⟨r1.1, r1.2.1⟩ ⟨r2.1, r2.2.1⟩

/-- All passes of the edge-preserving filter, in any orders. The planes made for the passes may hold anything. -/
theorem C27_epf_passes {α : Type} [Arith α] {h w n : Nat} (hh : h < 2 ^ 30) (h0 : 0 < h) (w0 : 0 < w) {mg : Int} (hm : mg + h < 2 ^ 31) (p : EPF α)
    (p1 : p.height = h) (p2 : p.width = w) (sg : Nat → α) {scale : Nat → α} {s : Nat → Nat → α}
    (hl : n ≤ p.scales.length) (hs : ∀ i v, p.scales[i]? = some v → v = scale i)
    (hi : ∀ y x, y < h → x < w → sample p.inverseSigma (y / 8) (x / 8) = some (s (y / 8) (x / 8)))
    {workers : List (List ((Int × Int) × Nat))} (hw : epfWorkers h w n mg = .ok workers) :
    ∀ (passes : List (Nat × List (List (List α)) × List ((Int × Int) × Nat))) (f : Nat → Nat → Nat → α) (bufs : List (List (List α))),
      (∀ q ∈ passes, q.2.1.length = n ∧ (∀ b ∈ q.2.1, Table h w b) ∧ Interleaving workers q.2.2) → bufs.length = n →
      (∀ (c : Nat) b, bufs[c]? = some b → HoldsPlane h w (f c) b) →
      ∃ out, epfRun p sg passes bufs = .ok out ∧ out.length = n ∧ ∀ (c : Nat) b, out[c]? = some b →
        HoldsPlane h w (epfAll n h w scale p.borderSadMul s sg (passes.map (·.1)) f c) b
  | [], f, bufs, _, hn, hb => ⟨bufs, rfl, hn, hb⟩
  | (pass, made, order) :: passes, f, bufs, hq, hn, hb => by
    obtain ⟨q1, q2, q3⟩ := hq (pass, made, order) (by simp)
    subst hn
    obtain ⟨ws, e1, e2⟩ := C27_epf hh h0 w0 hm p p1 p2 pass (sg pass) hl hs hi hb q2 q1
    obtain rfl : ws = workers := by rw [hw] at e1; cases e1; rfl
    obtain ⟨o, r1, r2, r3⟩ := e2 order q3
    obtain ⟨o', u1, u2, u3⟩ := C27_epf_passes hh h0 w0 hm p p1 p2 sg hl hs hi hw passes _ o (fun q hq' => hq q (by simp [hq'])) r2 r3
    refine ⟨o', ?_, u2, u3⟩
    show (runSteps (epfStep p pass (sg pass) bufs) order made >>= fun bufs => epfRun p sg passes bufs) = _
    rw [r1, Res.bind_ok]
    exact u1

/-- Upsampling: with any number of goroutines and any order of their steps, nothing panics and the new plane has `k` times as many rows and columns, with the
upsampled values. -/
theorem C27_upsampling {α : Type} [Arith α] {h w k : Nat} (h0 : 0 < h) (w0 : 0 < w) (options : Option Int) {f : Nat → Nat → α}
    {buf : List (List α)} (hb : HoldsPlane h w f buf) {wt : Nat → Nat → Nat → Nat → α} {up : List (List (List (List α)))} (hup : HoldsWeights k wt up)
    {out : List (List α)} (ho : out.length = h * k) {order : List UpStep} (hord : Interleaving (upWorkers h w k options) order) :
    ∃ out', runSteps (upStep buf up k) order out = .ok out' ∧ Table (h * k) (w * k) out' ∧
      ∀ y x ky kx, y < h → x < w → ky < k → kx < k → sample out' (y * k + ky) (x * k + kx) = some (upsampled h w f (wt ky kx) y x) := by
  have h2 := upSpans_chain h options
  rw [interleaving_run hord]
  · unfold upWorkers
    rw [h2.upCells]
    obtain ⟨o, e, t, v⟩ := up_run hb h0 w0 hup ho
    refine ⟨o, e, t, fun y x ky kx hy hx hky hkx => ?_⟩
    rw [v y x ky kx hy hx hky hkx, upValue_eq]
  · intro i j li lj hij hi hj e he e' he'
    unfold upWorkers at hi hj
    rw [List.getElem?_map] at hi hj
    obtain ⟨s, hs, rfl⟩ := Option.map_eq_some_iff.1 hi
    obtain ⟨t, ht, rfl⟩ := Option.map_eq_some_iff.1 hj
    obtain ⟨y, ky, a1, a2, a3, a4⟩ := mem_upCells he
    obtain ⟨y', ky', b1, b2, b3, b4⟩ := mem_upCells he'
    apply up_commute
    rw [a4, b4]
    intro heq
    have hyy : y = y' := by
      have e1 : (y * k + ky) / (k : Int) = y := by
        rw [Int.add_comm, Int.add_mul_ediv_right _ _ (by omega), Int.ediv_eq_zero_of_lt (by omega) (by omega), Int.zero_add]
      have e2 : (y' * k + ky') / (k : Int) = y' := by
        rw [Int.add_comm, Int.add_mul_ediv_right _ _ (by omega), Int.ediv_eq_zero_of_lt (by omega) (by omega), Int.zero_add]
      rw [← e1, ← e2, heq]
    subst hyy
    exact h2.disjoint hij hs ht ⟨a1, a2⟩ ⟨b1, b2⟩

/-! ### Numbers of goroutines that do not fit -/

/-- A number of goroutines that is a multiple of 2^32 makes the filters panic. -/
theorem C27_panics (h w : Nat) {k : Nat} (hk : 0 < k) : gabWorkers h w (2 ^ 32 * k) = .panic := by
  unfold gabWorkers spans
  have h1 : ¬ ((2 : Int) ^ 32 * k < 1) := by omega
  have h2 : i32 ((2 : Int) ^ 32 * k) = 0 := by
    unfold i32
    omega
  simp only [if_neg h1, h2, if_true]
  rfl

theorem spansLoop_empty (height : Int) {rows : Int} (hr : rows = 0 ∨ rows = -1) (hh : 0 < height) : ∀ (n : Nat) (w : Nat), w + n < 2 ^ 31 →
    ∀ s ∈ spansLoop height rows n w, s.2 ≤ s.1
  | 0, w, _, s, hs => by cases hs
  | n + 1, w, hw, s, hs => by
    have e1 : i32 (w : Int) = w := by unfold i32; omega
    unfold spansLoop at hs
    simp only [e1] at hs
    rcases hr with rfl | rfl
    · have e2 : i32 ((w : Int) * 0) = 0 := by rw [Int.mul_zero]; rfl
      have e3 : i32 (0 + 0 : Int) = 0 := rfl
      rw [e2, e3, if_neg (by omega), if_neg (by omega)] at hs
      rcases List.mem_cons.1 hs with rfl | hs
      · simp
      · exact spansLoop_empty height (.inl rfl) hh n (w + 1) (by omega) s (by simpa using hs)
    · have e2 : i32 ((w : Int) * -1) = -w := by unfold i32; omega
      have e3 : i32 (-(w : Int) + -1) = -w - 1 := by unfold i32; omega
      rw [e2, e3, if_neg (by omega), if_neg (by omega)] at hs
      rcases List.mem_cons.1 hs with rfl | hs
      · simp
      · exact spansLoop_empty height (.inr rfl) hh n (w + 1) (by omega) s (by simpa using hs)

/-- With 2^31 − 1 goroutines the sum in the number of rows for each overflows: no row is filtered, and the new plane is left as it was made. -/
theorem C27_overflow {α : Type} [Arith α] (w1 w2 : α) {h w : Nat} (h2 : 2 ≤ h) (hh : h < 2 ^ 30) {buf out : List (List α)} :
    ∃ workers, gabWorkers h w (2 ^ 31 - 1) = .ok workers ∧ ∀ order, Interleaving workers order →
      runSteps (gabStep (gabWeights w1 w2) h w buf) order out = .ok out := by
  have e0 : i32 (2 ^ 31 - 1) = 2147483647 := rfl
  have e1 : i32 ((h : Int) + 2147483647) = h - 2147483649 := by unfold i32; omega
  have e2 : i32 ((h : Int) - 2147483649 - 1) = h - 2147483650 := by unfold i32; omega
  have e3 : i32 (Int.tdiv ((h : Int) - 2147483650) 2147483647) = 0 ∨ i32 (Int.tdiv ((h : Int) - 2147483650) 2147483647) = -1 := by
    have hd : Int.tdiv ((h : Int) - 2147483650) 2147483647 = -((2147483650 - (h : Int)) / 2147483647) := by
      rw [show (h : Int) - 2147483650 = -(2147483650 - (h : Int)) by omega, Int.neg_tdiv, Int.tdiv_eq_ediv_of_nonneg (by omega)]
    rw [hd]
    have : (2147483650 - (h : Int)) / 2147483647 = 0 ∨ (2147483650 - (h : Int)) / 2147483647 = 1 := by omega
    rcases this with h | h
    · left; rw [h]; rfl
    · right; rw [h]; rfl
  refine ⟨(spansLoop h (i32 (Int.tdiv ((h : Int) - 2147483650) 2147483647)) 2147483647 0).map fun s => rowCells w s.1 s.2, ?_, ?_⟩
  · unfold gabWorkers spans
    simp only [if_neg (show ¬ ((2 : Int) ^ 31 - 1 < 1) by omega), e0, e1, e2]
    rw [if_neg (by omega), Res.bind_ok]
    rfl
  · intro order hord
    have hnil : ∀ l ∈ (spansLoop h (i32 (Int.tdiv ((h : Int) - 2147483650) 2147483647)) 2147483647 0).map fun s => rowCells (w : Int) s.1 s.2, l = [] := by
      intro l hl
      obtain ⟨s, hs, rfl⟩ := List.mem_map.1 hl
      exact rowCells_nil _ (spansLoop_empty h e3 (by omega) 2147483647 0 (by omega) s (by simpa using hs))
    cases hord with
    | done _ => rfl
    | step i e rest hi _ =>
      have := hnil _ (List.mem_of_getElem? hi)
      cases this

/-! ### Examples -/

/-- A plane of three rows, shared between two goroutines. -/
example : gabWorkers 3 2 2 = .ok [[(0, 0), (0, 1), (1, 0), (1, 1)], [(2, 0), (2, 1)]] := by decide

/-- An order that is not sequential. -/
example : Interleaving [[1, 2], [3]] [1, 3, 2] :=
  .step 0 1 [2] rfl (.step 1 3 [] rfl (.step 0 2 [] rfl (.done (by decide))))

/-- A plane with one bright sample, spread by Gaborish. -/
example : HoldsPlane 3 2 (fun y x => if y = 1 ∧ x = 0 then (12 : ℚ) else 0) [[0, 0], [12, 0], [0, 0]] := by
  refine ⟨⟨rfl, by decide⟩, ?_⟩
  intro y x hy hx
  interval_cases y <;> interval_cases x <;> rfl

example : runSteps (gabStep (gabWeights (1 / 4 : ℚ) (1 / 4)) 3 2 [[0, 0], [12, 0], [0, 0]]) [(2, 0), (0, 0), (2, 1), (0, 1), (1, 0), (1, 1)]
    [[0, 0], [0, 0], [0, 0]] = .ok [[2, 1], [5, 1], [2, 1]] := by decide +kernel

/-- The hypotheses of the edge-preserving filter, with one plane of one block. -/
example : ∃ workers, epfWorkers 2 2 1 8 = .ok workers ∧ workers.length = 2 := ⟨_, rfl, rfl⟩

/-- The last pass over a plane of 2 × 2 samples that is not flat. -/
example : ∃ workers, epfWorkers 2 2 1 2 = .ok workers ∧ ∀ order, Interleaving workers order →
    ∃ out', runSteps (epfStep ⟨2, 2, [1], 1, [[1 / 8]]⟩ 2 1 [[[(0 : ℚ), 4], [4, 4]]]) order [[[0, 0], [0, 0]]] = .ok out' ∧ out'.length = 1 := by
  obtain ⟨ws, h1, h2⟩ := C27_epf (h := 2) (w := 2) (mg := 2) (by decide) (by decide) (by decide) (by decide) ⟨2, 2, [1], 1, [[1 / 8]]⟩ rfl rfl 2 1
    (scale := fun _ => (1 : ℚ)) (s := fun _ _ => 1 / 8) (f := fun _ y x => if y = 0 ∧ x = 0 then 0 else 4) (bufs := [[[0, 4], [4, 4]]])
    (out := [[[0, 0], [0, 0]]]) (by decide)
    (by intro i v hi
        match i, hi with
        | 0, hi => cases hi; rfl
        | n + 1, hi => cases hi)
    (by intro y x hy hx
        interval_cases y <;> interval_cases x <;> rfl)
    (by intro c b hc
        match c, hc with
        | 0, hc =>
          cases hc
          refine ⟨⟨rfl, by decide⟩, ?_⟩
          intro y x hy hx
          interval_cases y <;> interval_cases x <;> rfl
        | n + 1, hc => cases hc)
    (by intro b hb
        simp only [List.mem_singleton] at hb
        subst hb
        exact ⟨rfl, by decide⟩) rfl
  refine ⟨ws, h1, fun order ho => ?_⟩
  obtain ⟨o, e1, e2, -⟩ := h2 order ho
  exact ⟨o, e1, e2⟩

/-- Two times upsampling with tables of weights that take the middle. -/
example : HoldsWeights 2 (fun _ _ y x => if y = 2 ∧ x = 2 then (1 : ℚ) else 0)
    (List.replicate 2 (List.replicate 2 [[0, 0, 0, 0, 0], [0, 0, 0, 0, 0], [0, 0, 1, 0, 0], [0, 0, 0, 0, 0], [0, 0, 0, 0, 0]])) := by
  intro ky kx hy hx
  refine ⟨[[0, 0, 0, 0, 0], [0, 0, 0, 0, 0], [0, 0, 1, 0, 0], [0, 0, 0, 0, 0], [0, 0, 0, 0, 0]], ?_, ⟨rfl, by decide⟩, ?_⟩
  · interval_cases ky <;> interval_cases kx <;> rfl
  · intro y x hy hx
    interval_cases y <;> interval_cases x <;> rfl

/-! ## C65: what the filters do to pictures, in exact arithmetic -/

/-- The plane has samples from `a` to `b` only. -/
def Within {ι : Type} (a b : ℚ) (f : ι → ι → ℚ) : Prop := ∀ y x, a ≤ f y x ∧ f y x ≤ b

theorem mirrored_within {a b : ℚ} {f : Nat → Nat → ℚ} (hf : Within a b f) (h w : Nat) (y x : Int) : a ≤ mirrored h w f y x ∧ mirrored h w f y x ≤ b := hf _ _

/-- Gaborish with weights that are not negative gives no sample outside of the range of the plane. -/
theorem C65_gab_range {w1 w2 a b : ℚ} (h1 : 0 ≤ w1) (h2 : 0 ≤ w2) {f : Nat → Nat → ℚ} (hf : Within a b f) (h w : Nat) (y x : Int) :
    a ≤ gabValue w1 w2 h w f y x ∧ gabValue w1 w2 h w f y x ≤ b := by
  unfold gabValue
  have hm := mirrored_within hf h w
  have ha : (Arith.lit 1 : ℚ) = 1 := rfl
  have hb : (Arith.lit 4 : ℚ) = 4 := rfl
  simp only [ha, hb]
  generalize mirrored h w f = p at hm
  have hd : 0 < 1 + 4 * (w1 + w2) := by linarith
  have e : 1 / (1 + 4 * (w1 + w2)) * p y x + w1 * (1 / (1 + 4 * (w1 + w2))) * (p y (x - 1) + p y (x + 1) + p (y - 1) x + p (y + 1) x)
      + w2 * (1 / (1 + 4 * (w1 + w2))) * (p (y - 1) (x - 1) + p (y - 1) (x + 1) + p (y + 1) (x - 1) + p (y + 1) (x + 1)) =
      (p y x + w1 * (p y (x - 1) + p y (x + 1) + p (y - 1) x + p (y + 1) x) + w2 * (p (y - 1) (x - 1) + p (y - 1) (x + 1) + p (y + 1) (x - 1) + p (y + 1) (x + 1))) /
        (1 + 4 * (w1 + w2)) := by
    field_simp
  rw [e, le_div_iff₀ hd, div_le_iff₀ hd]
  have b1 := hm y x
  have b2 := hm y (x - 1)
  have b3 := hm y (x + 1)
  have b4 := hm (y - 1) x
  have b5 := hm (y + 1) x
  have b6 := hm (y - 1) (x - 1)
  have b7 := hm (y - 1) (x + 1)
  have b8 := hm (y + 1) (x - 1)
  have b9 := hm (y + 1) (x + 1)
  constructor <;> nlinarith

/-- Gaborish keeps flat planes, whatever its weights, if they have a sum at all. -/
theorem C65_gab_flat {w1 w2 : ℚ} (hd : 1 + 4 * (w1 + w2) ≠ 0) (v : ℚ) (h w : Nat) (y x : Int) : gabValue w1 w2 h w (fun _ _ => v) y x = v := by
  unfold gabValue mirrored
  show 1 / (1 + 4 * (w1 + w2)) * v + w1 * (1 / (1 + 4 * (w1 + w2))) * (v + v + v + v) + w2 * (1 / (1 + 4 * (w1 + w2))) * (v + v + v + v) = v
  field_simp
  ring

theorem epfDistance_self (last : Bool) (n h w : Nat) (scale : Nat → ℚ) (f : Nat → Nat → Nat → ℚ) (y x : Int) :
    epfDistance last n h w scale f y x 0 0 = 0 := by
  unfold epfDistance
  have h1 : ∀ (os : List (Int × Int)) (c : Nat), os.foldl (fun d o => d + Arith.abs (mirrored h w (f c) (y + o.1) (x + o.2) -
      mirrored h w (f c) (y + 0 + o.1) (x + 0 + o.2)) * scale c) (0 : ℚ) = 0 := by
    intro os c
    induction os with
    | nil => rfl
    | cons o os ih =>
      rw [List.foldl_cons]
      have : (0 : ℚ) + Arith.abs (mirrored h w (f c) (y + o.1) (x + o.2) - mirrored h w (f c) (y + 0 + o.1) (x + 0 + o.2)) * scale c = 0 := by
        rw [Int.add_zero, Int.add_zero, sub_self]
        show (0 : ℚ) + |(0 : ℚ)| * scale c = 0
        simp
      rw [this]
      exact ih
  have h2 : ∀ (l : List Nat), l.foldl (fun d c => (if last then [(0, 0)] else plus).foldl (fun d o =>
      d + Arith.abs (mirrored h w (f c) (y + o.1) (x + o.2) - mirrored h w (f c) (y + 0 + o.1) (x + 0 + o.2)) * scale c) d) (0 : ℚ) = 0 := by
    intro l
    induction l with
    | nil => rfl
    | cons c l ih =>
      rw [List.foldl_cons, h1]
      exact ih
  exact h2 _

theorem epfWeightOf_nonneg (b : Option ℚ) (s d : ℚ) : 0 ≤ epfWeightOf b s d := by
  have key : ∀ v : ℚ, 0 ≤ (if Arith.lt v (Arith.lit 0) then Arith.lit 0 else v : ℚ) := by
    intro v
    by_cases h : v < 0
    · rw [if_pos (show Arith.lt v (Arith.lit 0 : ℚ) = true from decide_eq_true h)]
      exact le_refl _
    · rw [if_neg (show ¬ (Arith.lt v (Arith.lit 0 : ℚ) = true) from fun hc => h (of_decide_eq_true hc))]
      exact not_lt.1 h
  exact key _

theorem epfWeightOf_zero (b : Option ℚ) (s : ℚ) : epfWeightOf b s 0 = 1 := by
  cases b <;>
  · unfold epfWeightOf
    show (if decide ((1 : ℚ) - _ * s < 0) = true then (0 : ℚ) else 1 - _ * s) = 1
    simp

/-- A weighted sum is between the least and the largest value times the sum of the weights. -/
theorem weighted_range {ι : Type} {a b : ℚ} (v wt : ι → ℚ) (hv : ∀ o, a ≤ v o ∧ v o ≤ b) (hw : ∀ o, 0 ≤ wt o) :
    ∀ (l : List ι) (t u : ℚ), a * u ≤ t → t ≤ b * u →
      a * l.foldl (fun t o => t + wt o) u ≤ l.foldl (fun t o => t + v o * wt o) t ∧ l.foldl (fun t o => t + v o * wt o) t ≤ b * l.foldl (fun t o => t + wt o) u
  | [], t, u, h1, h2 => ⟨h1, h2⟩
  | o :: l, t, u, h1, h2 => by
    rw [List.foldl_cons, List.foldl_cons]
    have := hv o
    have h3 := hw o
    apply weighted_range v wt hv hw l
    · nlinarith
    · nlinarith

theorem foldl_weight_ge {ι : Type} (wt : ι → ℚ) (hw : ∀ o, 0 ≤ wt o) : ∀ (l : List ι) (u : ℚ), u ≤ l.foldl (fun t o => t + wt o) u
  | [], u => le_refl _
  | o :: l, u => le_trans (by have := hw o; linarith) (foldl_weight_ge wt hw l (u + wt o))

/-- The edge-preserving filter never divides by zero and gives no sample outside of the range of the plane, whatever its parameters. -/
theorem C65_epf_range {a b : ℚ} (k n h w : Nat) (scale : Nat → ℚ) (borderMul s : ℚ) (f : Nat → Nat → Nat → ℚ) (c : Nat) (hf : Within a b (f c)) (y x : Nat) :
    a ≤ epfValue k n h w scale borderMul s f y x c ∧ epfValue k n h w scale borderMul s f y x c ≤ b := by
  obtain ⟨wt, hwt⟩ : ∃ wt : Int × Int → ℚ, (fun (o : Int × Int) => epfWeightOf (if onBorder y x then some borderMul else none) s
    (epfDistance (k == 2) n h w scale f y x o.1 o.2)) = wt := ⟨_, rfl⟩
  have e : epfValue k n h w scale borderMul s f y x c = (if k = 0 then diamond else plus).foldl (fun t o => t + mirrored h w (f c) ((y : Int) + o.1) ((x : Int) + o.2) * wt o)
      (Arith.lit 0) * (Arith.lit 1 / (if k = 0 then diamond else plus).foldl (fun t o => t + wt o) (Arith.lit 0)) := by
    rw [← hwt]
    rfl
  rw [e]
  have hw : ∀ o, 0 ≤ wt o := fun o => by rw [← hwt]; exact epfWeightOf_nonneg _ _ _
  have h1 : wt (0, 0) = 1 := by rw [← hwt]; simp only [epfDistance_self, epfWeightOf_zero]
  have hz : (Arith.lit 0 : ℚ) = 0 := rfl
  have ho : (Arith.lit 1 : ℚ) = 1 := rfl
  have hpos : 0 < (if k = 0 then diamond else plus).foldl (fun t o => t + wt o) (Arith.lit 0 : ℚ) := by
    have : ∃ l, (if k = 0 then diamond else plus) = (0, 0) :: l := by
      split <;> exact ⟨_, rfl⟩
    obtain ⟨l, hl⟩ := this
    rw [hl, List.foldl_cons, h1, hz]
    have := foldl_weight_ge wt hw l (0 + 1)
    linarith
  have hr := weighted_range (fun (o : Int × Int) => mirrored h w (f c) ((y : Int) + o.1) ((x : Int) + o.2)) wt (fun o => mirrored_within hf h w _ _) hw
    (if k = 0 then diamond else plus) (Arith.lit 0) (Arith.lit 0) (by rw [hz]; simp) (by rw [hz]; simp)
  rw [ho, mul_one_div, le_div_iff₀ hpos, div_le_iff₀ hpos]
  exact hr

/-- The sum of the weights, by which the filter divides, is at least 1. -/
theorem C65_epf_weights (k n h w : Nat) (scale : Nat → ℚ) (border : Option ℚ) (s : ℚ) (f : Nat → Nat → Nat → ℚ) (y x : Nat) :
    1 ≤ (if k = 0 then diamond else plus).foldl (fun t o => t + epfWeightOf border s (epfDistance (k == 2) n h w scale f y x o.1 o.2)) (0 : ℚ) := by
  have : ∃ l, (if k = 0 then diamond else plus) = (0, 0) :: l := by
    split <;> exact ⟨_, rfl⟩
  obtain ⟨l, hl⟩ := this
  have h0 : epfWeightOf border s (epfDistance (k == 2) n h w scale f y x 0 0) = 1 := by rw [epfDistance_self, epfWeightOf_zero]
  have hw : ∀ o : Int × Int, 0 ≤ epfWeightOf border s (epfDistance (k == 2) n h w scale f y x o.1 o.2) := fun o => epfWeightOf_nonneg _ _ _
  obtain ⟨wt, hwt⟩ : ∃ wt : Int × Int → ℚ, ∀ o, wt o = epfWeightOf border s (epfDistance (k == 2) n h w scale f y x o.1 o.2) := ⟨_, fun _ => rfl⟩
  simp only [← hwt] at hw ⊢
  have h1 : wt (0, 0) = 1 := by rw [hwt]; exact h0
  rw [hl, List.foldl_cons, h1]
  have := foldl_weight_ge wt hw l (0 + 1)
  linarith

/-- Flat planes stay as they are. -/
theorem C65_epf_flat (k n h w : Nat) (scale : Nat → ℚ) (borderMul s : ℚ) (f : Nat → Nat → Nat → ℚ) (c : Nat) {v : ℚ} (hf : ∀ y x, f c y x = v) (y x : Nat) :
    epfValue k n h w scale borderMul s f y x c = v := by
  have := C65_epf_range (a := v) (b := v) k n h w scale borderMul s f c (fun y x => ⟨le_of_eq (hf y x).symm, le_of_eq (hf y x)⟩) y x
  exact le_antisymm this.2 this.1

theorem foldl_min_le {ι : Type} (s : ι → ℚ) : ∀ (l : List ι) (m : ℚ),
    l.foldl (fun m o => if Arith.lt (s o) m then s o else m) m ≤ m ∧ (∀ o ∈ l, l.foldl (fun m o => if Arith.lt (s o) m then s o else m) m ≤ s o) ∧
      ∀ a, a ≤ m → (∀ o ∈ l, a ≤ s o) → a ≤ l.foldl (fun m o => if Arith.lt (s o) m then s o else m) m
  | [], m => ⟨le_refl _, fun o ho => absurd ho (by simp), fun a h _ => h⟩
  | o :: l, m => by
    rw [List.foldl_cons]
    obtain ⟨h1, h2, h3⟩ := foldl_min_le s l (if Arith.lt (s o) m then s o else m)
    have hm : (if Arith.lt (s o) m then s o else m) ≤ m ∧ (if Arith.lt (s o) m then s o else m) ≤ s o ∧
        ∀ a, a ≤ m → a ≤ s o → a ≤ (if Arith.lt (s o) m then s o else m) := by
      by_cases h : s o < m
      · rw [if_pos (show Arith.lt (s o) m = true from decide_eq_true h)]
        exact ⟨le_of_lt h, le_refl _, fun a _ h => h⟩
      · rw [if_neg (show ¬ (Arith.lt (s o) m = true) from fun hc => h (of_decide_eq_true hc))]
        exact ⟨le_refl _, not_lt.1 h, fun a h _ => h⟩
    refine ⟨le_trans h1 hm.1, ?_, ?_⟩
    · intro o' ho'
      rcases List.mem_cons.1 ho' with rfl | ho'
      · exact le_trans h1 hm.2.1
      · exact h2 o' ho'
    · intro a ha hs
      exact h3 a (hm.2.2 a ha (hs o (by simp))) fun o' ho' => hs o' (by simp [ho'])

theorem le_foldl_max {ι : Type} (s : ι → ℚ) : ∀ (l : List ι) (m : ℚ),
    m ≤ l.foldl (fun m o => if Arith.lt m (s o) then s o else m) m ∧ (∀ o ∈ l, s o ≤ l.foldl (fun m o => if Arith.lt m (s o) then s o else m) m) ∧
      ∀ b, m ≤ b → (∀ o ∈ l, s o ≤ b) → l.foldl (fun m o => if Arith.lt m (s o) then s o else m) m ≤ b
  | [], m => ⟨le_refl _, fun o ho => absurd ho (by simp), fun a h _ => h⟩
  | o :: l, m => by
    rw [List.foldl_cons]
    obtain ⟨h1, h2, h3⟩ := le_foldl_max s l (if Arith.lt m (s o) then s o else m)
    have hm : m ≤ (if Arith.lt m (s o) then s o else m) ∧ s o ≤ (if Arith.lt m (s o) then s o else m) ∧
        ∀ b, m ≤ b → s o ≤ b → (if Arith.lt m (s o) then s o else m) ≤ b := by
      by_cases h : m < s o
      · rw [if_pos (show Arith.lt m (s o) = true from decide_eq_true h)]
        exact ⟨le_of_lt h, le_refl _, fun a _ h => h⟩
      · rw [if_neg (show ¬ (Arith.lt m (s o) = true) from fun hc => h (of_decide_eq_true hc))]
        exact ⟨le_refl _, not_lt.1 h, fun a h _ => h⟩
    refine ⟨le_trans hm.1 h1, ?_, ?_⟩
    · intro o' ho'
      rcases List.mem_cons.1 ho' with rfl | ho'
      · exact le_trans hm.2.1 h1
      · exact h2 o' ho'
    · intro a ha hs
      exact h3 a (hm.2.2 a ha (hs o (by simp))) fun o' ho' => hs o' (by simp [ho'])

/-- Upsampling gives no sample outside of the range of the plane if the range has a positive number that `float32` can hold. -/
theorem C65_upsample_range_partial {a b : ℚ} (ha : a ≤ (2 ^ 24 - 1) * 2 ^ 104) (hb : 1 / 2 ^ 149 ≤ b) (h w : Nat) (f : Nat → Nat → ℚ) (hf : Within a b f)
    (wt : Nat → Nat → ℚ) (y x : Nat) : a ≤ upsampled h w f wt y x ∧ upsampled h w f wt y x ≤ b := by
  unfold upsampled
  simp only
  obtain ⟨-, l2, l3⟩ := foldl_min_le (surrounding h w f y x) square (Arith.lit ((2 ^ 24 - 1) * 2 ^ 104))
  obtain ⟨-, m2, m3⟩ := le_foldl_max (surrounding h w f y x) square (Arith.lit (1 / 2 ^ 149))
  have hl := l3 a ha fun o _ => (hf _ _).1
  have hm := m3 b hb fun o _ => (hf _ _).2
  have hlm := le_trans (l2 (0, 0) (by decide)) (m2 (0, 0) (by decide))
  generalize square.foldl (fun m o => if Arith.lt (surrounding h w f y x o) m then surrounding h w f y x o else m) (Arith.lit ((2 ^ 24 - 1) * 2 ^ 104)) = least at *
  generalize square.foldl (fun m o => if Arith.lt m (surrounding h w f y x o) then surrounding h w f y x o else m) (Arith.lit (1 / 2 ^ 149)) = most at *
  generalize upSum h w f wt y x = t at *
  by_cases h1 : t < least
  · rw [if_pos (show Arith.lt t least = true from decide_eq_true h1)]
    exact ⟨hl, le_trans hlm hm⟩
  · rw [if_neg (show ¬ (Arith.lt t least = true) from fun hc => h1 (of_decide_eq_true hc))]
    by_cases h2 : most < t
    · rw [if_pos (show Arith.lt most t = true from decide_eq_true h2)]
      exact ⟨le_trans hl hlm, hm⟩
    · rw [if_neg (show ¬ (Arith.lt most t = true) from fun hc => h2 (of_decide_eq_true hc))]
      exact ⟨le_trans hl (not_lt.1 h1), le_trans (not_lt.1 h2) hm⟩

/-- Where all samples are negative, upsampling gives samples outside of their range although it is meant to keep them in it: the search for the largest sample
starts from the smallest positive `float32`. -/
theorem C65_upsample_range_fails : ∃ (f : Nat → Nat → ℚ) (wt : Nat → Nat → ℚ), Within (-2) (-1) f ∧
    square.foldl (fun t o => t + wt o.1 o.2) 0 = 1 ∧ upsampled 1 2 f wt 0 0 = 0 := by
  refine ⟨fun _ x => if x = 0 then -1 else -2, fun y x => if (y, x) = (2, 2) then 2 else if (y, x) = (2, 3) then -1 else 0, ?_, ?_, ?_⟩
  · intro y x
    by_cases hx : x = 0
    · simp only [hx, if_true]; norm_num
    · simp only [hx, if_false]; norm_num
  · decide +kernel
  · decide +kernel

/-- A plane of the range that upsampling needs. -/
example : ∃ f : Nat → Nat → ℚ, Within (1 / 4) (3 / 4) f ∧ f 0 0 ≠ f 0 1 := by
  refine ⟨fun _ x => if x = 0 then 1 / 4 else 3 / 4, ?_, by norm_num⟩
  intro y x
  by_cases hx : x = 0
  · simp only [hx, if_true]; norm_num
  · simp only [hx, if_false]; norm_num

end Jxl
