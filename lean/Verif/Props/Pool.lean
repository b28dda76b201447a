import Verif.Proofs.Pool
/-!
# Properties C42 and C51: matrix pools
-/
namespace Jxl

/-! ## C42 -/

/-- C42. After any history of disciplined use, and whatever the runtime's pool decides to hand out, a request for a
`d × h × w` matrix gets `d` distinct `h × w` parts, all elements zero, none of them held by anyone else or still in a
pool. -/
theorem C42_pool_get3_partial {s : PoolSt} {owned : List Nat} (hr : PoolReach s owned) (d h w : Nat) (c : Option Nat) :
    Fresh owned (get3 s d h w c).1 (get3 s d h w c).2 d h w :=
  (get3_spec (reach_inv hr) d h w c).2

/-- C42. The same for two-dimensional matrices. -/
theorem C42_pool_get2_partial {s : PoolSt} {owned : List Nat} (hr : PoolReach s owned) (h w : Nat) (c : Option Nat) :
    Fresh owned (get2 s h w c).1 [(get2 s h w c).2] 1 h w :=
  (get2_spec (reach_inv hr) h w c).2

/-- A disciplined history that really recycles: get a 1×2×2 matrix, write it, put it back, get again: the same memory
comes back, cleared. -/
example :
    let s1 := poolStep {} (.get3 1 2 2 none)
    let s2 := poolStep s1.1 (.write 0 [[1, 2], [3, 4]])
    let s3 := poolStep s2.1 (.put3 [0])
    (get3 s3.1 1 2 2 (some 0)).2 = [0] ∧ (get3 s3.1 1 2 2 (some 0)).1.heap = [[[0, 0], [0, 0]]] := by decide

example : PoolReach (poolStep (poolStep {} (.get3 1 2 2 none)).1 (.put3 [0])).1 [] := by
  have h1 := PoolReach.step (.get3 1 2 2 none) PoolReach.init trivial
  have h2 := PoolReach.step (.put3 [0]) h1 ⟨by decide, by decide, 2, 2, by
    intro r hr
    simp only [List.mem_cons, List.not_mem_nil, or_false] at hr
    subst hr
    exact ⟨zeroMat 2 2, by decide, by decide, by decide⟩⟩
  exact h2

/-- C42 is not enforced by the pool: the code collects separately sized parts into one three-dimensional matrix and
returns it (frame/HFCoefficients.go:68-76 and 442-451 with subsampled channels); the pool looks at the first part only.
The next client asking for 3×2×2 gets parts of other sizes. -/
theorem C42_ragged_put_wrong :
    let s0 := (poolStep {} (.get3 3 2 2 none)).1                    -- somebody once used 3×2×2
    let s1 := (poolStep (poolStep (poolStep s0 (.alloc 2 2)).1 (.alloc 1 1)).1 (.alloc 1 1)).1
    let s2 := (poolStep s1 (.put3 [3, 4, 5])).1
    (get3 s2 3 2 2 (some 0)).2.map (fun r => (get3 s2 3 2 2 (some 0)).1.heap[r]?) =
      [some (zeroMat 2 2), some (zeroMat 1 1), some (zeroMat 1 1)] := by decide

/-! ## C51: decoding does not depend on what the process decoded before -/

/-- C51, what holds: as long as the process has not run the edge preserving filter on a frame of the same padded size,
the restoration stages see exactly the pixels that were decoded. Missing: see `C51_second_frame_black`. -/
theorem C51_first_frame_partial (s : PoolSt) (p0 p1 p2 : Mat) (h w : Nat) (e : Bool) (c1 c2 : Option Nat)
    (hd : ∀ p ∈ [p0, p1, p2], HasDims h w p) (hh : 0 < h) (hk : (3, h, w) ∉ s.keys3) :
    (frameTail s [p0, p1, p2] h w e c1 c2).2 = [p0, p1, p2] := by
  rw [frameTail_heap s p0 p1 p2 h w e c1 c2 hd hh, if_neg hk]

example : (3, 1, 1) ∉ ({} : PoolSt).keys3 := by decide

/-- C51 fails: once any frame of padded size `h × w` went through the edge preserving filter, every later VarDCT frame
of that size in the same process (the same file decoded again, or the next frame of an animation) has all its pixels
set to zero before the restoration filters see them, whatever happened in between. -/
theorem C51_second_frame_black (s : PoolSt) (pix : List Mat) (p0 p1 p2 : Mat) (h w : Nat) (e : Bool)
    (c1 c2 c3 c4 : Option Nat) (hd : ∀ p ∈ [p0, p1, p2], HasDims h w p) (hh : 0 < h) (hw : 0 < w)
    (between : List (List Mat × Nat × Nat × Bool)) :
    let s1 := (frameTail s pix h w true c1 c2).1
    let s2 := between.foldl (fun s f => (frameTail s f.1 f.2.1 f.2.2.1 f.2.2.2 none none).1) s1
    (frameTail s2 [p0, p1, p2] h w e c3 c4).2 = [zeroMat h w, zeroMat h w, zeroMat h w] := by
  intro s1 s2
  have hk1 : (3, h, w) ∈ s1.keys3 := frameTail_key s pix h w c1 c2 hh hw
  have hk2 : (3, h, w) ∈ s2.keys3 := by
    have : ∀ (l : List (List Mat × Nat × Nat × Bool)) (s : PoolSt), (3, h, w) ∈ s.keys3 →
        (3, h, w) ∈ (l.foldl (fun s f => (frameTail s f.1 f.2.1 f.2.2.1 f.2.2.2 none none).1) s).keys3 := by
      intro l
      induction l with
      | nil => intro s h; exact h
      | cons a l ih => intro s h; exact ih _ (frameTail_keys_mono _ _ _ _ _ _ _ _ h)
    exact this between s1 hk1
  rw [frameTail_heap s2 p0 p1 p2 h w e c3 c4 hd hh, if_pos hk2]

/-- C51 fails: decoding the same 1×1 picture twice from a fresh process. -/
theorem C51_repeat_decode_wrong :
    let pix : List Mat := [[[7]], [[8]], [[9]]]
    let first := frameTail {} pix 1 1 true none none
    let second := frameTail first.1 pix 1 1 true none none
    first.2 = pix ∧ second.2 = [[[0]], [[0]], [[0]]] := by decide

end Jxl
