import Verif.Model.Go
import Mathlib.Data.List.Basic

/-!
# The goroutines that decode groups (frame/Frame.go)

What a job computes is a function `run` of the job alone: a value, an error or a panic. That different jobs do not disturb each other's data is an
assumption of this file; each of them reads a section of its own and writes an entry of its own in the table of results. A panic ends the whole program,
so that there is no step for it.
-/
namespace Jxl

/-- frame/Frame.go: `Inp`, a pass and a group. -/
abbrev Job := Nat × Nat

/-- frame/Frame.go:734-743: the jobs in the order in which they enter the channel. -/
def jobs (numPasses numGroups : Nat) : List Job :=
  (List.range numPasses).flatMap fun p => (List.range numGroups).map fun g => (p, g)

/-- frame/Frame.go:747-753: the number of goroutines; no options are given as `none`. -/
def goroutines (options : Option Int) : Nat :=
  let n := match options with
    | none => 1
    | some n => n
  if n < 1 then 1 else n.toNat

/-- A goroutine of the pool (frame/Frame.go:681-688): waiting for a job, at work, or at an end because the channel is closed and empty. -/
inductive Worker where
  | idle
  | busy (j : Job)
  | stopped
  deriving DecidableEq

/-- The channel, the goroutines, and the table `passGroups`, whose entries are empty at first. -/
structure WorkPool (β : Type) where
  queue : List Job
  workers : List Worker
  table : Job → Option β

/-- frame/Frame.go:730-760: all jobs are in the channel and it is closed before the first goroutine starts. -/
def WorkPool.start {β : Type} (js : List Job) (n : Nat) : WorkPool β := ⟨js, List.replicate n .idle, fun _ => none⟩

/-- What a step of the pool does. -/
inductive WorkEvent where
  | took (j : Job)
  | stored (j : Job)
  | logged (j : Job)
  | stopped
  deriving DecidableEq

/-- frame/Frame.go:681-688 `startWorker` and the end of `doProcessing` (723): one step of one goroutine. -/
inductive WorkPool.Step {β : Type} (run : Job → Res β) : WorkPool β → WorkEvent → WorkPool β → Prop where
  | take {q : List Job} {j : Job} {ws : List Worker} {t : Job → Option β} (i : Nat) : ws[i]? = some .idle →
      Step run ⟨j :: q, ws, t⟩ (.took j) ⟨q, ws.set i (.busy j), t⟩
  | stop {ws : List Worker} {t : Job → Option β} (i : Nat) : ws[i]? = some .idle → Step run ⟨[], ws, t⟩ .stopped ⟨[], ws.set i .stopped, t⟩
  | store {q : List Job} {ws : List Worker} {t : Job → Option β} (i : Nat) (j : Job) (b : β) : ws[i]? = some (.busy j) → run j = .ok b →
      Step run ⟨q, ws, t⟩ (.stored j) ⟨q, ws.set i .idle, fun k => if k = j then some b else t k⟩
  | log {q : List Job} {ws : List Worker} {t : Job → Option β} (i : Nat) (j : Job) : ws[i]? = some (.busy j) → run j = .err →
      Step run ⟨q, ws, t⟩ (.logged j) ⟨q, ws.set i .idle, t⟩

/-- A part of an execution: any interleaving of the steps of the goroutines. -/
inductive WorkPool.Run {β : Type} (run : Job → Res β) : WorkPool β → List WorkEvent → WorkPool β → Prop where
  | nil (s) : Run run s [] s
  | snoc {s es s' e s''} : Run run s es s' → WorkPool.Step run s' e s'' → Run run s (es ++ [e]) s''

/-- frame/Frame.go:762 `wg.Wait()`: every goroutine has returned. -/
def WorkPool.Done {β : Type} (s : WorkPool β) : Prop := ∀ w ∈ s.workers, w = .stopped

/-- frame/Frame.go:764-784: the channels of every pass are put together from its groups; `channels p` is the number of them that pass `p` has to
provide. An entry that was never filled has no stream, and asking it for its channels is a panic. -/
def collect {β : Type} (channels : Nat → Nat) (numPasses numGroups : Nat) (t : Job → Option β) : Res Unit :=
  if ∃ p < numPasses, channels p ≠ 0 ∧ ∃ g < numGroups, t (p, g) = none then .panic else .ok ()

/-- frame/PassGroup.go:109-114 `invertVarDCT`: what the goroutine of a group does in a pass, where `inv` stands for the inversion of what was decoded. An
entry that was never filled has no frame, which is a panic, and so is every pass but the first. -/
def invertGroup {β : Type} (inv : β → Res Unit) (t : Job → Option β) (p : Nat) (g : Nat) : Res Unit :=
  match t (p, g) with
  | none => .panic
  | some b => if p = 0 then inv b else .panic

/-! ## Goroutines that wait for a free slot -/

/-- The goroutines of frame/Frame.go:588-633 `decodeLFGroups` and 800-825, numbered by their groups: those that have not got a slot of `sem` yet, those
at work, those that have ended their work and hold their slot, and those that have returned. `errs` is the buffered channel `errChan`. -/
structure Slots (β : Type) where
  waiting : List Nat
  running : List Nat
  leaving : List Nat
  finished : List Nat
  errs : List Nat
  table : Nat → Option β

/-- The state before the first goroutine starts. -/
def Slots.start {β : Type} (n : Nat) : Slots β := ⟨List.range n, [], [], [], [], fun _ => none⟩

/-- One step. A goroutine begins when a slot is free: LF groups take slots in order, because the loop waits for the slot before it starts the goroutine
(591), the others in any order (807). An error is sent to `errChan`, which blocks when its buffer of `n` is full. -/
inductive Slots.Step {β : Type} (run : Nat → Res β) (n cap : Nat) (inOrder : Bool) : Slots β → Slots β → Prop where
  | begin {a b r l f e t} (j : Nat) : (inOrder = true → a = []) → r.length + l.length < cap →
      Step run n cap inOrder ⟨a ++ j :: b, r, l, f, e, t⟩ ⟨a ++ b, j :: r, l, f, e, t⟩
  | store {w a b l f e t} (j : Nat) (v : β) : run j = .ok v →
      Step run n cap inOrder ⟨w, a ++ j :: b, l, f, e, t⟩ ⟨w, a ++ b, j :: l, f, e, fun k => if k = j then some v else t k⟩
  | send {w a b l f e t} (j : Nat) : run j = .err → e.length < n →
      Step run n cap inOrder ⟨w, a ++ j :: b, l, f, e, t⟩ ⟨w, a ++ b, j :: l, f, e ++ [j], t⟩
  | leave {w r a b f e t} (j : Nat) : Step run n cap inOrder ⟨w, r, a ++ j :: b, f, e, t⟩ ⟨w, r, a ++ b, j :: f, e, t⟩

/-- Part of an execution, of a number of steps. -/
inductive Slots.Run {β : Type} (run : Nat → Res β) (n cap : Nat) (inOrder : Bool) : Slots β → Nat → Slots β → Prop where
  | nil (s) : Run run n cap inOrder s 0 s
  | snoc {s k s' s''} : Run run n cap inOrder s k s' → Slots.Step run n cap inOrder s' s'' → Run run n cap inOrder s (k + 1) s''

/-- `wg.Wait()`: every goroutine has returned. -/
def Slots.Done {β : Type} (s : Slots β) : Prop := s.waiting = [] ∧ s.running = [] ∧ s.leaving = []

/-- frame/Frame.go:636-638 and 827-829: the first error in the channel, if there is one, is what the function returns. -/
def Slots.result {β : Type} (s : Slots β) : Option Nat := s.errs.head?

end Jxl
