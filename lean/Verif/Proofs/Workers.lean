import Verif.Model.Workers
import Mathlib.Algebra.BigOperators.Group.List.Basic
import Mathlib.Data.List.Nodup
import Mathlib.Data.List.Perm.Basic

/-! # Invariants of the goroutines -/
namespace Jxl

/-- What a change of one goroutine does to a sum over all of them. -/
theorem sum_map_set {α : Type} (f : α → Nat) {ws : List α} {i : Nat} {w : α} (v : α) (h : ws[i]? = some w) :
    ((ws.set i v).map f).sum + f w = (ws.map f).sum + f v := by
  induction ws generalizing i with
  | nil => simp at h
  | cons a ws ih =>
    cases i with
    | zero => simp at h; subst h; simp; omega
    | succ i =>
      simp at h
      have := ih h
      simp only [List.set_cons_succ, List.map_cons, List.sum_cons]
      omega

/-- Whether a goroutine works on a job, as a number. -/
def isBusy (j : Job) (w : Worker) : Nat := if w = .busy j then 1 else 0

/-- The steps a goroutine has still to do, apart from new jobs. -/
def stepsLeft : Worker → Nat
  | .idle => 1
  | .busy _ => 2
  | .stopped => 0

/-- Where every job is, at any time. -/
structure WorkInv {β : Type} (run : Job → Res β) (js : List Job) (n : Nat) (es : List WorkEvent) (s : WorkPool β) : Prop where
  len : s.workers.length = n
  taken : ∀ j, es.count (.took j) + s.queue.count j = js.count j
  ended : ∀ j, es.count (.stored j) + es.count (.logged j) + (s.workers.map (isBusy j)).sum = es.count (.took j)
  stopped : .stopped ∈ s.workers → s.queue = []
  stored : ∀ j, .stored j ∈ es → ∃ b, run j = .ok b ∧ s.table j = some b
  empty : ∀ j, .stored j ∉ es → s.table j = none
  logged : ∀ j, .logged j ∈ es → run j = .err
  steps : es.length + 2 * s.queue.length + (s.workers.map stepsLeft).sum = 2 * js.length + n

theorem workInv_start {β : Type} (run : Job → Res β) (js : List Job) (n : Nat) : WorkInv run js n [] (WorkPool.start js n) := by
  constructor <;> simp [WorkPool.start, isBusy, stepsLeft]

theorem workInv_step {β : Type} {run : Job → Res β} {js : List Job} {n : Nat} {es : List WorkEvent} {s s' : WorkPool β} {e : WorkEvent}
    (h : WorkInv run js n es s) (hs : WorkPool.Step run s e s') : WorkInv run js n (es ++ [e]) s' := by
  cases hs with
  | @take q j ws t i hi =>
    have h1 := fun k => sum_map_set (isBusy k) (.busy j) hi
    have h2 := sum_map_set stepsLeft (.busy j) hi
    refine ⟨by simpa using h.len, fun k => ?_, fun k => ?_, fun hm => ?_, fun k hk => h.stored k (by simpa using hk),
      fun k hk => h.empty k (by simpa using hk), fun k hk => h.logged k (by simpa using hk), ?_⟩
    · have := h.taken k
      by_cases hjk : j = k
      · subst hjk; simp at this ⊢; omega
      · simp [List.count_cons, hjk] at this ⊢; exact this
    · have := h.ended k
      have h3 := h1 k
      by_cases hjk : j = k
      · subst hjk; simp [isBusy] at this h3 ⊢; simp [isBusy, h3]; omega
      · have hne : Worker.busy j ≠ Worker.busy k := by simpa using hjk
        simp [isBusy, hne, hjk] at this h3 ⊢; simp [isBusy, h3]; omega
    · exfalso
      have : Worker.stopped ∈ ws := by
        rcases List.mem_or_eq_of_mem_set hm with h | h
        · exact h
        · cases h
      have := h.stopped this
      simp at this
    · have := h.steps
      simp [stepsLeft] at this h2 ⊢
      omega
  | @stop ws t i hi =>
    have h1 := fun k => sum_map_set (isBusy k) .stopped hi
    have h2 := sum_map_set stepsLeft .stopped hi
    refine ⟨by simpa using h.len, fun k => by simpa using h.taken k, fun k => ?_, fun _ => rfl, fun k hk => h.stored k (by simpa using hk),
      fun k hk => h.empty k (by simpa using hk), fun k hk => h.logged k (by simpa using hk), ?_⟩
    · have := h.ended k
      have h3 := h1 k
      simp [isBusy] at this h3 ⊢; simp [isBusy, h3]; omega
    · have := h.steps
      simp [stepsLeft] at this h2 ⊢
      omega
  | @store q ws t i j b hi hb =>
    have h1 := fun k => sum_map_set (isBusy k) .idle hi
    have h2 := sum_map_set stepsLeft .idle hi
    refine ⟨by simpa using h.len, fun k => by simpa using h.taken k, fun k => ?_, fun hm => ?_, fun k hk => ?_, fun k hk => ?_,
      fun k hk => h.logged k (by simpa using hk), ?_⟩
    · have := h.ended k
      have h3 := h1 k
      by_cases hjk : j = k
      · subst hjk; simp [isBusy] at this h3 ⊢; omega
      · have hne : Worker.busy j ≠ Worker.busy k := by simpa using hjk
        have hne' : ¬ WorkEvent.stored j = WorkEvent.stored k := by simpa using hjk
        simp [isBusy, hne, hne'] at this h3 ⊢
        simp [isBusy, h3, List.count_cons, hjk]; omega
    · rcases List.mem_or_eq_of_mem_set hm with hm | hm
      · exact h.stopped hm
      · cases hm
    · by_cases hjk : k = j
      · subst hjk; exact ⟨b, hb, by simp⟩
      · obtain ⟨b', h3, h4⟩ := h.stored k (by simpa [hjk] using hk)
        exact ⟨b', h3, by simpa [hjk] using h4⟩
    · have hjk : k ≠ j := fun h => hk (by simp [h])
      simpa [hjk] using h.empty k (fun h => hk (by simp [h]))
    · have := h.steps
      simp [stepsLeft] at this h2 ⊢
      omega
  | @log q ws t i j hi hb =>
    have h1 := fun k => sum_map_set (isBusy k) .idle hi
    have h2 := sum_map_set stepsLeft .idle hi
    refine ⟨by simpa using h.len, fun k => by simpa using h.taken k, fun k => ?_, fun hm => ?_, fun k hk => h.stored k (by simpa using hk),
      fun k hk => h.empty k (by simpa using hk), fun k hk => ?_, ?_⟩
    · have := h.ended k
      have h3 := h1 k
      by_cases hjk : j = k
      · subst hjk; simp [isBusy] at this h3 ⊢; omega
      · have hne : Worker.busy j ≠ Worker.busy k := by simpa using hjk
        simp [isBusy, hne] at this h3 ⊢
        simp [isBusy, h3, List.count_cons, hjk]; omega
    · rcases List.mem_or_eq_of_mem_set hm with hm | hm
      · exact h.stopped hm
      · cases hm
    · by_cases hjk : k = j
      · subst hjk; exact hb
      · exact h.logged k (by simpa [hjk] using hk)
    · have := h.steps
      simp [stepsLeft] at this h2 ⊢
      omega

theorem workInv_run {β : Type} {run : Job → Res β} {js : List Job} {n : Nat} {es : List WorkEvent} {s : WorkPool β}
    (h : WorkPool.Run run (WorkPool.start js n) es s) : WorkInv run js n es s := by
  induction h with
  | nil => exact workInv_start run js n
  | snoc _ hstep ih => exact workInv_step ih hstep

theorem busy_sum_zero {ws : List Worker} (h : ∀ w ∈ ws, w = .stopped) (j : Job) : (ws.map (isBusy j)).sum = 0 := by
  refine List.sum_eq_zero ?_
  intro x hx
  obtain ⟨w, hw, rfl⟩ := List.mem_map.1 hx
  rw [h w hw]
  rfl

theorem stepsLeft_sum_zero {ws : List Worker} (h : ∀ w ∈ ws, w = .stopped) : (ws.map stepsLeft).sum = 0 := by
  refine List.sum_eq_zero ?_
  intro x hx
  obtain ⟨w, hw, rfl⟩ := List.mem_map.1 hx
  rw [h w hw]
  rfl

theorem mem_jobs {P G : Nat} {j : Job} : j ∈ jobs P G ↔ j.1 < P ∧ j.2 < G := by
  obtain ⟨p, g⟩ := j
  simp [jobs]

theorem nodup_jobs (P G : Nat) : (jobs P G).Nodup := by
  unfold jobs
  rw [List.nodup_flatMap]
  refine ⟨fun p _ => List.Nodup.map (fun a b h => by simpa using h) List.nodup_range, ?_⟩
  refine List.Pairwise.imp ?_ (List.nodup_range (n := P))
  intro a b hab x hx hy
  simp at hx hy
  obtain ⟨g, -, rfl⟩ := hx
  obtain ⟨g', -, h⟩ := hy
  exact hab (by simpa using (congrArg Prod.fst h).symm)

theorem count_jobs (P G : Nat) (j : Job) : (jobs P G).count j = if j.1 < P ∧ j.2 < G then 1 else 0 := by
  split
  · rename_i h
    exact List.count_eq_one_of_mem (nodup_jobs P G) (mem_jobs.2 h)
  · rename_i h
    exact List.count_eq_zero_of_not_mem (fun hm => h (mem_jobs.1 hm))

/-- A goroutine that has not returned can go on, unless its job has ended the program. -/
theorem work_progress {β : Type} {run : Job → Res β} {s : WorkPool β} (hd : ¬ s.Done)
    (hp : ∀ j, .busy j ∈ s.workers → run j ≠ .panic) : ∃ e s', WorkPool.Step run s e s' := by
  obtain ⟨q, ws, t⟩ := s
  simp only [WorkPool.Done, not_forall] at hd
  obtain ⟨w, hw, hne⟩ := hd
  obtain ⟨i, hi⟩ := List.mem_iff_getElem?.1 hw
  cases w with
  | stopped => exact absurd rfl hne
  | idle =>
    cases q with
    | nil => exact ⟨_, _, .stop i hi⟩
    | cons j q => exact ⟨_, _, .take i hi⟩
  | busy j =>
    cases hr : run j with
    | ok b => exact ⟨_, _, .store i j b hi hr⟩
    | err => exact ⟨_, _, .log i j hi hr⟩
    | panic => exact absurd hr (hp j hw)

/-! ## Slots -/

/-- Where the goroutines are, at any time. -/
structure SlotsInv {β : Type} (run : Nat → Res β) (n cap k : Nat) (s : Slots β) : Prop where
  perm : List.Perm (s.waiting ++ (s.running ++ (s.leaving ++ s.finished))) (List.range n)
  cap : s.running.length + s.leaving.length ≤ cap
  errs : ∀ j, j ∈ s.errs ↔ (j ∈ s.leaving ∨ j ∈ s.finished) ∧ run j = .err
  errs_len : s.errs.length ≤ s.leaving.length + s.finished.length
  table : ∀ j v, s.table j = some v ↔ (j ∈ s.leaving ∨ j ∈ s.finished) ∧ run j = .ok v
  steps : k + 3 * s.waiting.length + 2 * s.running.length + s.leaving.length = 3 * n

theorem slotsInv_start {β : Type} (run : Nat → Res β) (n cap : Nat) : SlotsInv run n cap 0 (Slots.start n) := by
  constructor <;> simp [Slots.start]

theorem slotsInv_step {β : Type} {run : Nat → Res β} {n cap k : Nat} {o : Bool} {s s' : Slots β} (h : SlotsInv run n cap k s)
    (hs : Slots.Step run n cap o s s') : SlotsInv run n cap (k + 1) s' := by
  cases hs with
  | @begin a b r l f e t j _ hc =>
    refine ⟨?_, by simp; omega, h.errs, h.errs_len, h.table, ?_⟩
    · refine List.Perm.trans ?_ h.perm
      simp only [List.append_assoc, List.cons_append]
      refine List.Perm.append_left a ?_
      exact List.perm_middle
    · have := h.steps
      simp at this ⊢
      omega
  | @store w a b l f e t j v hv =>
    have hp : List.Perm (w ++ (a ++ b ++ (j :: l ++ f))) (List.range n) := by
      refine List.Perm.trans ?_ h.perm
      refine List.Perm.append_left w ?_
      simp only [List.append_assoc, List.cons_append]
      exact List.Perm.append_left a List.perm_middle
    have hnd := hp.nodup_iff.2 List.nodup_range
    refine ⟨hp, by have := h.cap; simp at this ⊢; omega, fun i => ?_, by have := h.errs_len; simp at this ⊢; omega, fun i u => ?_, ?_⟩
    · show i ∈ e ↔ _
      rw [h.errs i]
      simp only [List.mem_cons]
      constructor
      · rintro ⟨h1, h2⟩; exact ⟨by tauto, h2⟩
      · rintro ⟨(rfl | h1) | h1, h2⟩
        · rw [hv] at h2; cases h2
        · exact ⟨.inl h1, h2⟩
        · exact ⟨.inr h1, h2⟩
    · by_cases hij : i = j
      · subst hij
        simp [hv]
      · have := h.table i u
        simp only [hij, if_false, List.mem_cons, false_or] at this ⊢
        exact this
    · have := h.steps
      simp at this ⊢
      omega
  | @send w a b l f e t j he hl =>
    have hp : List.Perm (w ++ (a ++ b ++ (j :: l ++ f))) (List.range n) := by
      refine List.Perm.trans ?_ h.perm
      refine List.Perm.append_left w ?_
      simp only [List.append_assoc, List.cons_append]
      exact List.Perm.append_left a List.perm_middle
    refine ⟨hp, by have := h.cap; simp at this ⊢; omega, fun i => ?_, by have := h.errs_len; simp at this ⊢; omega, fun i u => ?_, ?_⟩
    · have := h.errs i
      simp only [List.mem_append, List.mem_cons, List.not_mem_nil, or_false] at this ⊢
      rw [this]
      by_cases hij : i = j
      · subst hij; simp [he]
      · simp [hij]
    · by_cases hij : i = j
      · subst hij
        have := h.table i u
        simp [he] at this ⊢
        exact this
      · have := h.table i u
        simp only [hij, List.mem_cons, false_or] at this ⊢
        exact this
    · have := h.steps
      simp at this ⊢
      omega
  | @leave w r a b f e t j =>
    have hm : ∀ i, (i ∈ a ++ b ∨ i ∈ j :: f) ↔ (i ∈ a ++ j :: b ∨ i ∈ f) := by intro i; simp; tauto
    refine ⟨?_, by have := h.cap; simp at this ⊢; omega, fun i => ?_, by have := h.errs_len; simp at this ⊢; omega, fun i u => ?_, ?_⟩
    · refine List.Perm.trans ?_ h.perm
      refine List.Perm.append_left w (List.Perm.append_left r ?_)
      simp only [List.append_assoc, List.cons_append]
      exact List.Perm.append_left a List.perm_middle
    · rw [hm i]; exact h.errs i
    · rw [hm i]; exact h.table i u
    · have := h.steps
      simp at this ⊢
      omega

theorem slotsInv_run {β : Type} {run : Nat → Res β} {n cap k : Nat} {o : Bool} {s : Slots β}
    (h : Slots.Run run n cap o (Slots.start n) k s) : SlotsInv run n cap k s := by
  induction h with
  | nil => exact slotsInv_start run n cap
  | snoc _ hstep ih => exact slotsInv_step ih hstep

theorem slots_progress {β : Type} {run : Nat → Res β} {n cap k : Nat} {o : Bool} {s : Slots β} (h : SlotsInv run n cap k s) (hc : 0 < cap)
    (hd : ¬ s.Done) (hp : ∀ j, j ∈ s.running → run j ≠ .panic) : ∃ s', Slots.Step run n cap o s s' := by
  obtain ⟨w, r, l, f, e, t⟩ := s
  cases l with
  | cons j l => exact ⟨_, Slots.Step.leave (a := []) j⟩
  | nil =>
    cases r with
    | cons j r =>
      cases hr : run j with
      | ok b => exact ⟨_, Slots.Step.store (a := []) j b hr⟩
      | err =>
        refine ⟨_, Slots.Step.send (a := []) j hr ?_⟩
        have h1 := h.errs_len
        have h2 := h.perm.length_eq
        simp at h1 h2
        omega
      | panic => exact absurd hr (hp j (by simp))
    | nil =>
      cases w with
      | cons j w => exact ⟨_, Slots.Step.begin (a := []) j (fun _ => rfl) (by simpa using hc)⟩
      | nil => exact absurd ⟨rfl, rfl, rfl⟩ hd

end Jxl
