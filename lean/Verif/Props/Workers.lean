import Verif.Proofs.Workers

/-!
# C28: each group is processed exactly once

`WorkPool.Run` and `Slots.Run` are the executions: the steps of the goroutines in any order. They are of any length and have any number of jobs and goroutines.
-/
namespace Jxl

/-- C28 (pool): when all goroutines of the pool have returned, every pass of every group has been taken exactly once and has ended exactly once, with a stored
result or a logged error, and nothing else has. -/
theorem C28_exactly_once {β : Type} (run : Job → Res β) (numPasses numGroups : Nat) (options : Option Int) {es : List WorkEvent} {s : WorkPool β}
    (hr : WorkPool.Run run (WorkPool.start (jobs numPasses numGroups) (goroutines options)) es s) (hd : s.Done) (p g : Nat) :
    es.count (.took (p, g)) = (if p < numPasses ∧ g < numGroups then 1 else 0) ∧
    es.count (.stored (p, g)) + es.count (.logged (p, g)) = (if p < numPasses ∧ g < numGroups then 1 else 0) := by
  have hi := workInv_run hr
  have hn : 0 < goroutines options := by
    cases options with
    | none => decide
    | some n =>
      show 0 < if n < 1 then 1 else n.toNat
      split <;> omega
  have hq : s.queue = [] := by
    apply hi.stopped
    cases hw : s.workers with
    | nil => have := hi.len; rw [hw] at this; simp at this; omega
    | cons w ws => rw [hd w (by simp [hw])]; simp
  have h1 := hi.taken (p, g)
  have h2 := hi.ended (p, g)
  rw [hq, count_jobs] at h1
  rw [busy_sum_zero hd] at h2
  simp only [List.count_nil, Nat.add_zero] at h1 h2
  exact ⟨h1, h2.trans h1⟩

/-- C28 (at any time): no job is ever taken twice, not even while the pool is running. -/
theorem C28_never_twice {β : Type} (run : Job → Res β) (numPasses numGroups n : Nat) {es : List WorkEvent} {s : WorkPool β}
    (hr : WorkPool.Run run (WorkPool.start (jobs numPasses numGroups) n) es s) (j : Job) :
    es.count (.took j) ≤ 1 ∧ es.count (.stored j) + es.count (.logged j) ≤ es.count (.took j) := by
  have hi := workInv_run hr
  have h1 := hi.taken j
  have h2 := hi.ended j
  rw [count_jobs] at h1
  constructor
  · split at h1 <;> omega
  · omega

/-- C28 (schedules): the table in the end does not depend on the schedule or on the number of goroutines: it holds what each job computes. -/
theorem C28_table {β : Type} (run : Job → Res β) (numPasses numGroups : Nat) (options : Option Int) {es : List WorkEvent} {s : WorkPool β}
    (hr : WorkPool.Run run (WorkPool.start (jobs numPasses numGroups) (goroutines options)) es s) (hd : s.Done) (p g : Nat) (b : β) :
    s.table (p, g) = some b ↔ p < numPasses ∧ g < numGroups ∧ run (p, g) = .ok b := by
  have hi := workInv_run hr
  have h1 := (C28_exactly_once run numPasses numGroups options hr hd p g).2
  by_cases hs : WorkEvent.stored (p, g) ∈ es
  · obtain ⟨b', h2, h3⟩ := hi.stored _ hs
    have hc : 0 < es.count (.stored (p, g)) := List.count_pos_iff.2 hs
    have hb : p < numPasses ∧ g < numGroups := by
      by_contra hn
      rw [if_neg hn] at h1
      omega
    rw [h2, h3]
    constructor
    · intro h; cases h; exact ⟨hb.1, hb.2, rfl⟩
    · rintro ⟨-, -, h⟩; cases h; rfl
  · rw [hi.empty _ hs]
    constructor
    · intro h; cases h
    · rintro ⟨h2, h3, h4⟩
      rw [if_pos ⟨h2, h3⟩] at h1
      have hz : es.count (.stored (p, g)) = 0 := List.count_eq_zero_of_not_mem hs
      have hl : WorkEvent.logged (p, g) ∈ es := List.count_pos_iff.1 (by omega)
      rw [hi.logged _ hl] at h4
      cases h4

/-- C28 (termination): no execution of the pool has more than two steps for each job and one for each goroutine, and one that has ended has exactly as many. -/
theorem C28_terminates {β : Type} (run : Job → Res β) (numPasses numGroups n : Nat) {es : List WorkEvent} {s : WorkPool β}
    (hr : WorkPool.Run run (WorkPool.start (jobs numPasses numGroups) n) es s) : es.length ≤ 2 * (numPasses * numGroups) + n ∧
    (0 < n → s.Done → es.length = 2 * (numPasses * numGroups) + n) := by
  have hi := workInv_run hr
  have hl : (jobs numPasses numGroups).length = numPasses * numGroups := by
    simp [jobs, List.length_flatMap]
  have := hi.steps
  rw [hl] at this
  refine ⟨by omega, fun hn hd => ?_⟩
  have hq : s.queue = [] := by
    apply hi.stopped
    cases hw : s.workers with
    | nil => have := hi.len; rw [hw] at this; simp at this; omega
    | cons w ws => rw [hd w (by simp [hw])]; simp
  rw [hq, stepsLeft_sum_zero hd] at this
  simpa using this

/-- C28 (no deadlock): as long as a goroutine has not returned there is a step to take, provided no job crashes. -/
theorem C28_goes_on {β : Type} (run : Job → Res β) (numPasses numGroups n : Nat) (hp : ∀ j, run j ≠ .panic) {es : List WorkEvent} {s : WorkPool β}
    (_ : WorkPool.Run run (WorkPool.start (jobs numPasses numGroups) n) es s) (hd : ¬ s.Done) : ∃ e s', WorkPool.Step run s e s' :=
  work_progress hd fun j _ => hp j

/-- Every execution can be completed, so that the theorems about completed executions are not about nothing. -/
theorem C28_completes {β : Type} (run : Job → Res β) (numPasses numGroups n : Nat) (hp : ∀ j, run j ≠ .panic) {es : List WorkEvent} {s : WorkPool β}
    (hr : WorkPool.Run run (WorkPool.start (jobs numPasses numGroups) n) es s) :
    ∃ es' s', WorkPool.Run run (WorkPool.start (jobs numPasses numGroups) n) (es ++ es') s' ∧ s'.Done := by
  generalize hk : 2 * (numPasses * numGroups) + n - es.length = k
  induction k generalizing es s with
  | zero =>
    by_cases hd : s.Done
    · exact ⟨[], s, by simpa using hr, hd⟩
    · obtain ⟨e, s', hs⟩ := C28_goes_on run _ _ _ hp hr hd
      have := (C28_terminates run _ _ _ (hr.snoc hs)).1
      simp at this
      omega
  | succ k ih =>
    by_cases hd : s.Done
    · exact ⟨[], s, by simpa using hr, hd⟩
    · obtain ⟨e, s', hs⟩ := C28_goes_on run _ _ _ hp hr hd
      obtain ⟨es', s'', h1, h2⟩ := ih (hr.snoc hs) (by simp; omega)
      exact ⟨e :: es', s'', by simpa using h1, h2⟩

example : ∃ es s, WorkPool.Run (fun j : Job => if j = (0, 1) then .err else .ok (j.1 + j.2)) (WorkPool.start (jobs 2 3) (goroutines (some 4))) es s ∧ s.Done := by
  obtain ⟨es, s, h1, h2⟩ := C28_completes (fun j : Job => if j = (0, 1) then .err else .ok (j.1 + j.2)) 2 3 (goroutines (some 4))
    (by intro j; split <;> simp) (.nil _)
  exact ⟨_, _, h1, h2⟩

/-- C28 (errors, false of the code): an error of a job is only logged. If its pass has to provide channels the program crashes instead of returning the
error. -/
theorem C28_error_crashes {β : Type} (run : Job → Res β) (numPasses numGroups : Nat) (options : Option Int) {es : List WorkEvent} {s : WorkPool β}
    (hr : WorkPool.Run run (WorkPool.start (jobs numPasses numGroups) (goroutines options)) es s) (hd : s.Done) (channels : Nat → Nat) (p g : Nat)
    (hp : p < numPasses) (hg : g < numGroups) (he : run (p, g) = .err) (hc : channels p ≠ 0) :
    collect channels numPasses numGroups s.table = .panic := by
  unfold collect
  rw [if_pos]
  refine ⟨p, hp, hc, g, hg, ?_⟩
  cases ht : s.table (p, g) with
  | none => rfl
  | some b =>
    have := ((C28_table run _ _ _ hr hd p g b).1 ht).2.2
    rw [he] at this
    cases this

/-- C28 (errors, false of the code): if the passes with errors have no channels to provide, decoding goes on as if nothing had happened. -/
theorem C28_error_ignored {β : Type} (run : Job → Res β) (numPasses numGroups : Nat) (options : Option Int) {es : List WorkEvent} {s : WorkPool β}
    (hr : WorkPool.Run run (WorkPool.start (jobs numPasses numGroups) (goroutines options)) es s) (hd : s.Done) (channels : Nat → Nat)
    (hc : ∀ p < numPasses, ∀ g < numGroups, run (p, g) = .err → channels p = 0) : collect channels numPasses numGroups s.table = .ok () := by
  unfold collect
  rw [if_neg]
  rintro ⟨p, hp, h1, g, hg, h2⟩
  have h3 := (C28_exactly_once run _ _ _ hr hd p g).2
  rw [if_pos ⟨hp, hg⟩] at h3
  have hi := workInv_run hr
  by_cases hs : WorkEvent.stored (p, g) ∈ es
  · obtain ⟨b, -, h5⟩ := hi.stored _ hs
    rw [h2] at h5
    cases h5
  · have hz : es.count (.stored (p, g)) = 0 := List.count_eq_zero_of_not_mem hs
    have hl : WorkEvent.logged (p, g) ∈ es := List.count_pos_iff.1 (by omega)
    exact h1 (hc p hp g hg (hi.logged _ hl))

/-- C28 (errors, false of the code): in a frame with transform coefficients an error in a group makes the program crash when the group is inverted. -/
theorem C28_error_crashes_vardct {β : Type} (run : Job → Res β) (numPasses numGroups : Nat) (options : Option Int) {es : List WorkEvent} {s : WorkPool β}
    (hr : WorkPool.Run run (WorkPool.start (jobs numPasses numGroups) (goroutines options)) es s) (hd : s.Done) (inv : β → Res Unit) (p g : Nat)
    (he : run (p, g) = .err) : invertGroup inv s.table p g = .panic := by
  unfold invertGroup
  cases ht : s.table (p, g) with
  | none => rfl
  | some b =>
    have := ((C28_table run _ _ _ hr hd p g b).1 ht).2.2
    rw [he] at this
    cases this

/-- C28 (not implemented): in such a frame every group of a second pass crashes the program, so that progressive pictures are never shown. -/
theorem C28_second_pass_crashes {β : Type} (inv : β → Res Unit) (t : Job → Option β) (p g : Nat) (hp : 0 < p) : invertGroup inv t p g = .panic := by
  unfold invertGroup
  split
  · rfl
  · rw [if_neg (by omega)]

/-! ## LF groups and the inversion of groups -/

/-- C28 (slots): when all goroutines have returned, each group has been processed exactly once, and there were never more of them at work than
allowed. -/
theorem C28_slots_once {β : Type} (run : Nat → Res β) (n cap k : Nat) (inOrder : Bool) {s : Slots β}
    (hr : Slots.Run run n cap inOrder (Slots.start n) k s) :
    s.running.length + s.leaving.length ≤ cap ∧ s.finished.Nodup ∧ (s.Done → ∀ j, j ∈ s.finished ↔ j < n) := by
  have hi := slotsInv_run hr
  have hnd := hi.perm.nodup_iff.2 List.nodup_range
  refine ⟨hi.cap, ?_, ?_⟩
  · exact ((hnd.of_append_right).of_append_right).of_append_right
  · rintro ⟨h1, h2, h3⟩ j
    have := hi.perm
    rw [h1, h2, h3] at this
    simpa using this.mem_iff (a := j)

/-- C28 (slots, errors): the function returns an error exactly if a group has failed, and the error is that of a group that has failed; the others have
left their results, whatever the schedule. -/
theorem C28_slots_error {β : Type} (run : Nat → Res β) (n cap k : Nat) (inOrder : Bool) {s : Slots β}
    (hr : Slots.Run run n cap inOrder (Slots.start n) k s) (hd : s.Done) :
    (s.result = none ↔ ∀ j < n, run j ≠ .err) ∧ (∀ j, s.result = some j → j < n ∧ run j = .err) ∧
    ∀ j v, s.table j = some v ↔ j < n ∧ run j = .ok v := by
  have hi := slotsInv_run hr
  have hf := (C28_slots_once run n cap k inOrder hr).2.2 hd
  have he : ∀ j, j ∈ s.errs ↔ j < n ∧ run j = .err := by
    intro j
    rw [hi.errs j, hd.2.2, ← hf j]
    simp
  refine ⟨?_, ?_, ?_⟩
  · unfold Slots.result
    rw [List.head?_eq_none_iff, List.eq_nil_iff_forall_not_mem]
    constructor
    · intro h j hj hr'
      exact h j ((he j).2 ⟨hj, hr'⟩)
    · intro h j hj
      exact h j ((he j).1 hj).1 ((he j).1 hj).2
  · intro j hj
    exact (he j).1 (List.mem_of_mem_head? hj)
  · intro j v
    rw [hi.table j v, hd.2.2, ← hf j]
    simp

/-- C28 (slots, termination): there are at most three steps for each group, and as long as a goroutine has not returned there is a step to take: slots are
given back, and the channel for errors never blocks. -/
theorem C28_slots_terminates {β : Type} (run : Nat → Res β) (n cap k : Nat) (inOrder : Bool) (hc : 0 < cap) (hp : ∀ j, run j ≠ .panic) {s : Slots β}
    (hr : Slots.Run run n cap inOrder (Slots.start n) k s) : k ≤ 3 * n ∧ (¬ s.Done → ∃ s', Slots.Step run n cap inOrder s s') := by
  have hi := slotsInv_run hr
  exact ⟨by have := hi.steps; omega, fun hd => slots_progress hi hc hd fun j _ => hp j⟩

/-- Every such execution can be completed. -/
theorem C28_slots_completes {β : Type} (run : Nat → Res β) (n cap k : Nat) (inOrder : Bool) (hc : 0 < cap) (hp : ∀ j, run j ≠ .panic) {s : Slots β}
    (hr : Slots.Run run n cap inOrder (Slots.start n) k s) : ∃ k' s', Slots.Run run n cap inOrder (Slots.start n) k' s' ∧ s'.Done := by
  generalize hm : 3 * n - k = m
  induction m generalizing k s with
  | zero =>
    by_cases hd : s.Done
    · exact ⟨k, s, hr, hd⟩
    · obtain ⟨s', hs⟩ := (C28_slots_terminates run n cap k inOrder hc hp hr).2 hd
      have := (C28_slots_terminates run n cap _ inOrder hc hp (hr.snoc hs)).1
      omega
  | succ m ih =>
    by_cases hd : s.Done
    · exact ⟨k, s, hr, hd⟩
    · obtain ⟨s', hs⟩ := (C28_slots_terminates run n cap k inOrder hc hp hr).2 hd
      exact ih _ (hr.snoc hs) (by omega)

example : ∃ k s, Slots.Run (fun j => if j = 2 then .err else .ok (j * j)) 5 (goroutines (some 2)) true (Slots.start 5) k s ∧ s.Done ∧ s.result = some 2 := by
  obtain ⟨k, s, h1, h2⟩ := C28_slots_completes (fun j => if j = 2 then Res.err else .ok (j * j)) 5 (goroutines (some 2)) 0 true (by decide)
    (by intro j; split <;> simp) (.nil _)
  refine ⟨k, s, h1, h2, ?_⟩
  have h3 := C28_slots_error _ _ _ _ _ h1 h2
  cases hr : s.result with
  | none => exact absurd rfl (h3.1.1 hr 2 (by decide))
  | some j =>
    have := (h3.2.1 j hr).2
    by_cases hj : j = 2
    · rw [hj]
    · simp [hj] at this

end Jxl
