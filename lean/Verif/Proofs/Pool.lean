import Verif.Spec.Pool
import Mathlib.Data.List.Nodup
/-!
# Proofs about the matrix pools
-/
namespace Jxl


structure PoolInv (s : PoolSt) (owned : List Nat) : Prop where
  nodup : (poolRefs s ++ owned).Nodup
  bound : ∀ r ∈ poolRefs s ++ owned, r < s.heap.length
  i3 : ∀ e ∈ s.items3, e.2.length = e.1.1 ∧ ∀ r ∈ e.2, s.heap[r]? = some (zeroMat e.1.2.1 e.1.2.2)
  i2 : ∀ e ∈ s.items2, s.heap[e.2]? = some (zeroMat e.1.1 e.1.2)

theorem clearMat_dims (h w : Nat) (m : Mat) (hm : HasDims h w m) : clearMat m = zeroMat h w := by
  obtain ⟨h1, h2⟩ := hm
  unfold clearMat zeroMat
  apply List.eq_replicate_iff.2
  refine ⟨by simp [h1], ?_⟩
  intro b hb
  obtain ⟨row, hr, rfl⟩ := List.mem_map.1 hb
  apply List.eq_replicate_iff.2
  exact ⟨by simp [h2 row hr], by intro x hx; simp at hx; exact hx.2⟩

theorem clearMat_zero (h w : Nat) : clearMat (zeroMat h w) = zeroMat h w :=
  clearMat_dims h w _ ⟨by simp [zeroMat], by intro row hr; simp [zeroMat] at hr; simp [hr.2]⟩

theorem clearRefs_length (heap : List Mat) (m : List Nat) : (clearRefs heap m).length = heap.length := by
  unfold clearRefs
  induction m generalizing heap with
  | nil => rfl
  | cons a m ih => simp [List.foldl_cons, ih]

theorem clearRefs_other (heap : List Mat) (m : List Nat) (r : Nat) (h : r ∉ m) : (clearRefs heap m)[r]? = heap[r]? := by
  unfold clearRefs
  induction m generalizing heap with
  | nil => rfl
  | cons a m ih =>
    simp only [List.mem_cons, not_or] at h
    rw [List.foldl_cons, ih _ h.2, List.getElem?_modify]
    simp [show ¬ a = r from fun e => h.1 e.symm]

theorem clearRefs_mem (heap : List Mat) (m : List Nat) (r h w : Nat) (hr : r ∈ m) (x : Mat)
    (hx : heap[r]? = some x) (hd : HasDims h w x) : (clearRefs heap m)[r]? = some (zeroMat h w) := by
  unfold clearRefs
  induction m generalizing heap x with
  | nil => cases hr
  | cons a m ih =>
    rw [List.foldl_cons]
    have hz : HasDims h w (zeroMat h w) :=
      ⟨by simp [zeroMat], by intro row hr; simp [zeroMat] at hr; simp [hr.2]⟩
    by_cases har : a = r
    · subst har
      have hx' : (heap.modify a clearMat)[a]? = some (zeroMat h w) := by
        rw [List.getElem?_modify, hx]
        simp [clearMat_dims h w x hd]
      by_cases hm : a ∈ m
      · exact ih _ hm _ hx' hz
      · have := clearRefs_other (heap.modify a clearMat) m a hm
        unfold clearRefs at this
        rw [this, hx']
    · have hm : r ∈ m := by
        rcases List.mem_cons.1 hr with h1 | h1
        · exact absurd h1.symm har
        · exact h1
      apply ih _ hm x _ hd
      rw [List.getElem?_modify, hx]; simp [har]

theorem make3_spec {s : PoolSt} {owned : List Nat} (hi : PoolInv s owned) (d h w : Nat) :
    PoolInv (makeMatrix3D s d h w).1 ((makeMatrix3D s d h w).2 ++ owned) ∧
      Fresh owned (makeMatrix3D s d h w).1 (makeMatrix3D s d h w).2 d h w := by
  have hb := hi.bound
  have hget : ∀ r, r < s.heap.length → (s.heap ++ List.replicate d (zeroMat h w))[r]? = s.heap[r]? := by
    intro r hr; rw [List.getElem?_append_left hr]
  unfold makeMatrix3D
  simp only
  refine ⟨⟨?_, ?_, ?_, ?_⟩, ?_, ?_, ?_⟩
  · have hn := hi.nodup
    show (poolRefs s ++ (List.range' s.heap.length d ++ owned)).Nodup
    rw [List.nodup_append] at hn ⊢
    refine ⟨hn.1, ?_, ?_⟩
    · rw [List.nodup_append]
      refine ⟨List.nodup_range', hn.2.1, ?_⟩
      intro a ha b hb' e
      have := List.mem_range'_1.1 ha
      have := hb b (List.mem_append_right _ hb')
      omega
    · intro a ha b hb'
      rcases List.mem_append.1 hb' with h1 | h1
      · have := List.mem_range'_1.1 h1
        have := hb a (List.mem_append_left _ ha)
        omega
      · exact hn.2.2 a ha b h1
  · intro r hr
    have : poolRefs { s with heap := s.heap ++ List.replicate d (zeroMat h w) } = poolRefs s := rfl
    rw [this] at hr
    simp only [List.length_append, List.length_replicate]
    rcases List.mem_append.1 hr with h1 | h1
    · have := hb r (List.mem_append_left _ h1); omega
    · rcases List.mem_append.1 h1 with h2 | h2
      · have := List.mem_range'_1.1 h2; omega
      · have := hb r (List.mem_append_right _ h2); omega
  · intro e he
    obtain ⟨h1, h2⟩ := hi.i3 e he
    refine ⟨h1, fun r hr => ?_⟩
    have hrb := hb r (List.mem_append_left _ (List.mem_append_left _ (List.mem_flatMap.2 ⟨e, he, hr⟩)))
    simp only [hget r hrb]; exact h2 r hr
  · intro e he
    have hrb := hb e.2 (List.mem_append_left _ (List.mem_append_right _ (List.mem_map.2 ⟨e, he, rfl⟩)))
    simp only [hget e.2 hrb]; exact hi.i2 e he
  · simp
  · exact List.nodup_range'
  · intro r hr
    have hr' := List.mem_range'_1.1 hr
    refine ⟨fun h1 => ?_, fun h1 => ?_, ?_⟩
    · have := hb r (List.mem_append_right _ h1); omega
    · have := hb r (List.mem_append_left _ h1); omega
    · rw [List.getElem?_append_right (by omega), List.getElem?_replicate, if_pos (by omega)]

theorem make2_spec {s : PoolSt} {owned : List Nat} (hi : PoolInv s owned) (h w : Nat) :
    PoolInv (makeMatrix2D s h w).1 ([(makeMatrix2D s h w).2] ++ owned) ∧
      Fresh owned (makeMatrix2D s h w).1 [(makeMatrix2D s h w).2] 1 h w := by
  have := make3_spec hi 1 h w
  exact this

/-- Adding a key changes nothing else. -/
theorem inv_keys {s : PoolSt} {owned : List Nat} (hi : PoolInv s owned) (k3 : List (Nat × Nat × Nat))
    (k2 : List (Nat × Nat)) : PoolInv { s with keys3 := k3, keys2 := k2 } owned :=
  ⟨hi.nodup, hi.bound, hi.i3, hi.i2⟩

theorem flatMap_eraseIdx_perm {α β : Type} (l : List α) (f : α → List β) (i : Nat) (e : α) (h : l[i]? = some e) :
    (l.flatMap f).Perm (f e ++ (l.eraseIdx i).flatMap f) := by
  induction l generalizing i with
  | nil => simp at h
  | cons a l ih =>
    cases i with
    | zero => simp at h; subst h; simp
    | succ i =>
      simp only [List.getElem?_cons_succ] at h
      simp only [List.flatMap_cons, List.eraseIdx_cons_succ]
      exact ((ih i h).append_left (f a)).trans (by
        rw [← List.append_assoc, ← List.append_assoc]
        exact List.perm_append_comm.append_right _)

theorem take3_spec {s : PoolSt} {owned : List Nat} (hi : PoolInv s owned) (i : Nat) (d h w : Nat) (m : List Nat)
    (he : s.items3[i]? = some ((d, h, w), m)) :
    PoolInv { s with items3 := s.items3.eraseIdx i } (m ++ owned) ∧
      Fresh owned { s with items3 := s.items3.eraseIdx i } m d h w := by
  have hmem : ((d, h, w), m) ∈ s.items3 := List.mem_of_getElem? he
  have hperm := flatMap_eraseIdx_perm s.items3 (·.2) i _ he
  simp only at hperm
  have hp2 : (poolRefs s ++ owned).Perm
      (poolRefs { s with items3 := s.items3.eraseIdx i } ++ (m ++ owned)) := by
    unfold poolRefs
    simp only
    refine ((hperm.append_right _).append_right _).trans ?_
    rw [List.append_assoc, List.append_assoc, List.append_assoc, ← List.append_assoc (bs := m) (cs := owned)]
    refine (List.perm_append_comm).trans ?_
    rw [List.append_assoc, List.append_assoc]
    refine List.Perm.append_left _ ?_
    rw [List.append_assoc]
    refine List.Perm.append_left _ ?_
    exact List.perm_append_comm
  have hn : (poolRefs { s with items3 := s.items3.eraseIdx i } ++ (m ++ owned)).Nodup := hp2.nodup_iff.1 hi.nodup
  obtain ⟨hlen, hz⟩ := hi.i3 _ hmem
  refine ⟨⟨hn, ?_, ?_, hi.i2⟩, hlen, ?_, ?_⟩
  · intro r hr; exact hi.bound r (hp2.mem_iff.2 hr)
  · intro e he'
    exact hi.i3 e (List.mem_of_mem_eraseIdx he')
  · rw [List.nodup_append, List.nodup_append] at hn
    exact hn.2.1.1
  · intro r hr
    rw [List.nodup_append, List.nodup_append] at hn
    refine ⟨fun h1 => ?_, fun h1 => ?_, hz r hr⟩
    · exact hn.2.1.2.2 r hr r h1 rfl
    · exact hn.2.2 r h1 r (List.mem_append_left _ hr) rfl

theorem take2_spec {s : PoolSt} {owned : List Nat} (hi : PoolInv s owned) (i : Nat) (h w : Nat) (m : Nat)
    (he : s.items2[i]? = some ((h, w), m)) :
    PoolInv { s with items2 := s.items2.eraseIdx i } ([m] ++ owned) ∧
      Fresh owned { s with items2 := s.items2.eraseIdx i } [m] 1 h w := by
  have hmem : ((h, w), m) ∈ s.items2 := List.mem_of_getElem? he
  have hperm := flatMap_eraseIdx_perm s.items2 (fun e => [e.2]) i _ he
  have hfm : ∀ l : List ((Nat × Nat) × Nat), l.flatMap (fun e => [e.2]) = l.map (·.2) := by
    intro l; induction l with
    | nil => rfl
    | cons a l ih => simp [ih]
  rw [hfm, hfm] at hperm
  have hp2 : (poolRefs s ++ owned).Perm
      (poolRefs { s with items2 := s.items2.eraseIdx i } ++ ([m] ++ owned)) := by
    unfold poolRefs
    simp only
    rw [List.append_assoc, List.append_assoc]
    refine List.Perm.append_left _ ?_
    refine (hperm.append_right _).trans ?_
    rw [← List.append_assoc]
    exact List.perm_append_comm.append_right _
  have hn : (poolRefs { s with items2 := s.items2.eraseIdx i } ++ ([m] ++ owned)).Nodup := hp2.nodup_iff.1 hi.nodup
  refine ⟨⟨hn, ?_, hi.i3, ?_⟩, rfl, by simp, ?_⟩
  · intro r hr; exact hi.bound r (hp2.mem_iff.2 hr)
  · intro e he'
    exact hi.i2 e (List.mem_of_mem_eraseIdx he')
  · intro r hr
    rw [List.nodup_append, List.nodup_append] at hn
    refine ⟨fun h1 => ?_, fun h1 => ?_, ?_⟩
    · exact hn.2.1.2.2 r hr r h1 rfl
    · exact hn.2.2 r h1 r (List.mem_append_left _ hr) rfl
    · simp at hr; subst hr; exact hi.i2 _ hmem

theorem get3_spec {s : PoolSt} {owned : List Nat} (hi : PoolInv s owned) (d h w : Nat) (c : Option Nat) :
    PoolInv (get3 s d h w c).1 ((get3 s d h w c).2 ++ owned) ∧
      Fresh owned (get3 s d h w c).1 (get3 s d h w c).2 d h w := by
  unfold get3
  split
  · exact make3_spec hi d h w
  · simp only
    generalize hs' : (if (d, h, w) ∈ s.keys3 then s else { s with keys3 := (d, h, w) :: s.keys3 }) = s'
    have hi' : PoolInv s' owned := by
      subst hs'; split
      · exact hi
      · exact inv_keys hi _ s.keys2
    split
    · rename_i i k m heq
      split
      · rename_i hk
        subst hk
        cases c with
        | none => simp at heq
        | some j =>
          simp only [Option.bind_some, Option.map_eq_some_iff] at heq
          obtain ⟨e, he, hh⟩ := heq
          cases hh
          exact take3_spec hi' _ d h w m he
      · exact make3_spec hi' d h w
    · exact make3_spec hi' d h w

theorem get2_spec {s : PoolSt} {owned : List Nat} (hi : PoolInv s owned) (h w : Nat) (c : Option Nat) :
    PoolInv (get2 s h w c).1 ([(get2 s h w c).2] ++ owned) ∧
      Fresh owned (get2 s h w c).1 [(get2 s h w c).2] 1 h w := by
  unfold get2
  split
  · exact make2_spec hi h w
  · simp only
    generalize hs' : (if (h, w) ∈ s.keys2 then s else { s with keys2 := (h, w) :: s.keys2 }) = s'
    have hi' : PoolInv s' owned := by
      subst hs'; split
      · exact hi
      · exact inv_keys hi s.keys3 _
    split
    · rename_i i k m heq
      split
      · rename_i hk
        subst hk
        cases c with
        | none => simp at heq
        | some j =>
          simp only [Option.bind_some, Option.map_eq_some_iff] at heq
          obtain ⟨e, he, hh⟩ := heq
          cases hh
          exact take2_spec hi' _ h w m he
      · exact make2_spec hi' h w
    · exact make2_spec hi' h w

/-- Giving up references keeps the invariant. -/
theorem inv_drop {s : PoolSt} {owned : List Nat} (hi : PoolInv s owned) (p : Nat → Bool) : PoolInv s (owned.filter p) := by
  refine ⟨?_, ?_, hi.i3, hi.i2⟩
  · exact hi.nodup.sublist (List.Sublist.append_left List.filter_sublist _)
  · intro r hr
    apply hi.bound r
    rcases List.mem_append.1 hr with h | h
    · exact List.mem_append_left _ h
    · exact List.mem_append_right _ (List.mem_of_mem_filter h)

/-- Changing only matrices that clients own keeps the invariant. -/
theorem inv_heap {s : PoolSt} {owned : List Nat} (hi : PoolInv s owned) (heap : List Mat)
    (hl : heap.length = s.heap.length) (ho : ∀ r, r ∉ owned → heap[r]? = s.heap[r]?) :
    PoolInv { s with heap := heap } owned := by
  have hno : ∀ r ∈ poolRefs s, r ∉ owned := by
    intro r hr h
    have := hi.nodup
    rw [List.nodup_append] at this
    exact this.2.2 r hr r h rfl
  refine ⟨hi.nodup, ?_, ?_, ?_⟩
  · intro r hr; simp only [hl]; exact hi.bound r hr
  · intro e he
    obtain ⟨h1, h2⟩ := hi.i3 e he
    refine ⟨h1, fun r hr => ?_⟩
    have := hno r (List.mem_append_left _ (List.mem_flatMap.2 ⟨e, he, hr⟩))
    simp only [ho r this]; exact h2 r hr
  · intro e he
    have := hno e.2 (List.mem_append_right _ (List.mem_map.2 ⟨e, he, rfl⟩))
    simp only [ho e.2 this]; exact hi.i2 e he

theorem perm_take_owned (owned m : List Nat) (ho : owned.Nodup) (hm : ∀ r ∈ m, r ∈ owned) (hn : m.Nodup) :
    (m ++ owned.filter (· ∉ m)).Perm owned := by
  rw [List.perm_ext_iff_of_nodup]
  · intro a
    simp only [List.mem_append, List.mem_filter, decide_eq_true_eq]
    constructor
    · rintro (h | h)
      · exact hm a h
      · exact h.1
    · intro h
      by_cases h2 : a ∈ m
      · exact .inl h2
      · exact .inr ⟨h, h2⟩
  · rw [List.nodup_append]
    refine ⟨hn, ho.filter _, ?_⟩
    intro a ha b hb e
    subst e
    simp at hb
    exact hb.2 ha
  · exact ho

theorem put3_inv {s : PoolSt} {owned : List Nat} (hi : PoolInv s owned) (m : List Nat)
    (ha : Allowed s owned (.put3 m)) : PoolInv (put3 s m) (owned.filter (· ∉ m)) := by
  obtain ⟨hsub, hnd, h, w, hdim⟩ := ha
  have hon : owned.Nodup := by
    have := hi.nodup; rw [List.nodup_append] at this; exact this.2.1
  unfold put3
  split
  · exact inv_drop hi _
  · rename_i r0 rest
    split
    · rename_i row0 rows hrow
      obtain ⟨x, hx, hxd⟩ := hdim r0 (by simp)
      rw [hrow] at hx
      cases hx
      have hh : (row0 :: rows).length = h := hxd.1
      have hw : row0.length = w := hxd.2 row0 (by simp)
      dsimp only
      split
      · have hbase : PoolInv { s with heap := clearRefs s.heap (r0 :: rest) } owned := by
          apply inv_heap hi _ (clearRefs_length _ _)
          intro r hr
          apply clearRefs_other
          intro hrm; exact hr (hsub r hrm)
        have hp := perm_take_owned owned (r0 :: rest) hon hsub hnd
        have hp2 : ∀ (hp : List Mat) (k : Nat × Nat × Nat),
            (poolRefs { s with heap := hp, items3 := (k, r0 :: rest) :: s.items3 } ++
            owned.filter (· ∉ r0 :: rest)).Perm (poolRefs s ++ owned) := by
          intro hp' k
          unfold poolRefs
          simp only [List.flatMap_cons, List.append_assoc]
          refine List.perm_append_comm.trans ?_
          rw [List.append_assoc, List.append_assoc]
          refine List.Perm.append_left _ (List.Perm.append_left _ ?_)
          exact List.perm_append_comm.trans hp
        refine ⟨(hp2 _ _).nodup_iff.2 hi.nodup, ?_, ?_, hbase.i2⟩
        · intro r hr
          simp only [clearRefs_length]
          exact hi.bound r ((hp2 _ _).mem_iff.1 hr)
        · intro e he
          rcases List.mem_cons.1 he with he | he
          · subst he
            refine ⟨rfl, fun r hr => ?_⟩
            obtain ⟨y, hy, hyd⟩ := hdim r hr
            rw [hh, hw]
            exact clearRefs_mem _ _ r h w hr y hy hyd
          · exact hbase.i3 e he
      · exact inv_drop hi _
    · exact inv_drop hi _

theorem put2_inv {s : PoolSt} {owned : List Nat} (hi : PoolInv s owned) (r : Nat)
    (ha : Allowed s owned (.put2 r)) : PoolInv (put2 s r) (owned.filter (· ≠ r)) := by
  obtain ⟨hsub, h, w, x, hx, hxd⟩ := ha
  have hon : owned.Nodup := by
    have := hi.nodup; rw [List.nodup_append] at this; exact this.2.1
  unfold put2
  split
  · rename_i row0 rows hrow
    rw [hrow] at hx
    cases hx
    have hh : (row0 :: rows).length = h := hxd.1
    have hw : row0.length = w := hxd.2 row0 (by simp)
    dsimp only
    split
    · have hbase : PoolInv { s with heap := clearRefs s.heap [r] } owned := by
        apply inv_heap hi _ (clearRefs_length _ _)
        intro r' hr
        apply clearRefs_other
        intro hrm; simp at hrm; subst hrm; exact hr hsub
      have hp := perm_take_owned owned [r] hon (by simp [hsub]) (by simp)
      have hfe : owned.filter (· ∉ [r]) = owned.filter (· ≠ r) := by
        apply List.filter_congr; intro a _; simp
      rw [hfe] at hp
      have hp2 : ∀ (hp : List Mat) (k : Nat × Nat),
          (poolRefs { s with heap := hp, items2 := (k, r) :: s.items2 } ++
          owned.filter (· ≠ r)).Perm (poolRefs s ++ owned) := by
        intro hp' k
        unfold poolRefs
        simp only [List.map_cons, List.append_assoc]
        refine List.Perm.append_left _ ?_
        refine List.perm_append_comm.trans ?_
        refine (List.Perm.append_left _ (List.perm_append_comm (l₁ := [r]))).trans ?_
        rw [← List.append_assoc]
        refine List.perm_append_comm.trans ?_
        rw [← List.append_assoc]
        exact List.perm_append_comm.trans (List.Perm.append_left _ hp)
      refine ⟨(hp2 _ _).nodup_iff.2 hi.nodup, ?_, hbase.i3, ?_⟩
      · intro r hr
        simp only [clearRefs_length]
        exact hi.bound r ((hp2 _ _).mem_iff.1 hr)
      · intro e he
        rcases List.mem_cons.1 he with he | he
        · subst he
          rw [hh, hw]
          exact clearRefs_mem _ _ r h w (by simp) _ hrow hxd
        · exact hbase.i2 e he
    · exact inv_drop hi _
  · exact inv_drop hi _

theorem reach_inv {s : PoolSt} {owned : List Nat} (h : PoolReach s owned) : PoolInv s owned := by
  induction h with
  | init => exact ⟨by simp [poolRefs], by simp [poolRefs], by simp, by simp⟩
  | @step s owned op _ ha ih =>
    cases op with
    | get3 d h w c => exact (get3_spec ih d h w c).1
    | get2 h w c => exact (get2_spec ih h w c).1
    | put3 m => exact put3_inv ih m ha
    | put2 r => exact put2_inv ih r ha
    | alloc h w => exact (make2_spec ih h w).1
    | write r m =>
      apply inv_heap ih
      · simp
      · intro r' hr'
        rw [List.getElem?_set, if_neg]
        intro e; subst e; exact hr' ha

theorem get3_keys (s : PoolSt) (d h w : Nat) (c : Option Nat) (k : Nat × Nat × Nat) (hk : k ∈ s.keys3) :
    k ∈ (get3 s d h w c).1.keys3 := by
  unfold get3 makeMatrix3D
  split
  · exact hk
  · simp only
    split
    · split
      · simp only; split <;> simp [hk]
      · simp only; split <;> simp [hk]
    · simp only; split <;> simp [hk]

theorem get3_key_made (s : PoolSt) (d h w : Nat) (c : Option Nat) (h0 : 0 < d ∧ 0 < h ∧ 0 < w) :
    (d, h, w) ∈ (get3 s d h w c).1.keys3 := by
  unfold get3 makeMatrix3D
  rw [if_neg (by omega)]
  simp only
  split
  · split
    · simp only; split <;> simp [*]
    · simp only; split <;> simp [*]
  · simp only; split <;> simp [*]

theorem put3_keys (s : PoolSt) (m : List Nat) : (put3 s m).keys3 = s.keys3 := by
  unfold put3
  split
  · rfl
  · split
    · simp only; split <;> rfl
    · rfl

/-- After a frame of padded size `h × w` with the edge preserving filter, a pool for such frames exists. -/
theorem frameTail_key (s : PoolSt) (pix : List Mat) (h w : Nat) (c1 c2 : Option Nat) (hh : 0 < h) (hw : 0 < w) :
    (3, h, w) ∈ (frameTail s pix h w true c1 c2).1.keys3 := by
  simp only [frameTail, if_true]
  rw [put3_keys]
  apply get3_keys
  exact get3_key_made _ _ _ _ _ ⟨by decide, hh, hw⟩

theorem frameTail_keys_mono (s : PoolSt) (pix : List Mat) (h w : Nat) (e : Bool) (c1 c2 : Option Nat)
    (k : Nat × Nat × Nat) (hk : k ∈ s.keys3) : k ∈ (frameTail s pix h w e c1 c2).1.keys3 := by
  have h1 : k ∈ (put3 (get3 { s with heap := s.heap ++ pix } 3 0 0 none).1 (List.range' s.heap.length 3)).keys3 := by
    rw [put3_keys]; exact get3_keys _ _ _ _ _ _ hk
  unfold frameTail
  simp only
  split
  · rw [put3_keys]
    exact get3_keys _ _ _ _ _ _ (get3_keys _ _ _ _ _ _ h1)
  · exact h1

theorem frameTail_heap (s : PoolSt) (p0 p1 p2 : Mat) (h w : Nat) (e : Bool) (c1 c2 : Option Nat)
    (hd : ∀ p ∈ [p0, p1, p2], HasDims h w p) (hh : 0 < h) :
    (frameTail s [p0, p1, p2] h w e c1 c2).2 =
      if (3, h, w) ∈ s.keys3 then [zeroMat h w, zeroMat h w, zeroMat h w] else [p0, p1, p2] := by
  set hp := s.heap ++ [p0, p1, p2] ++ List.replicate 3 (zeroMat 0 0) with hhp
  have hg : (get3 { s with heap := s.heap ++ [p0, p1, p2] } 3 0 0 none).1 = { s with heap := hp } := by
    simp [get3, makeMatrix3D, hhp]
  have e0 : hp[s.heap.length]? = some p0 := by simp [hhp]
  have e1 : hp[s.heap.length + 1]? = some p1 := by simp [hhp]
  have e2 : hp[s.heap.length + 2]? = some p2 := by simp [hhp]
  have hrange : List.range' s.heap.length 3 = [s.heap.length, s.heap.length + 1, s.heap.length + 2] := rfl
  have hp0 := hd p0 (by simp)
  obtain ⟨row0, rows, hrows⟩ : ∃ row0 rows, p0 = row0 :: rows := by
    cases hc : p0 with
    | nil => rw [hc] at hp0; have := hp0.1; simp at this; omega
    | cons a b => exact ⟨a, b, rfl⟩
  have hk1 : (row0 :: rows).length = h := by rw [← hrows]; exact hp0.1
  have hk2 : row0.length = w := hp0.2 row0 (by simp [hrows])
  have hput : put3 { s with heap := hp } (List.range' s.heap.length 3) =
      if (3, h, w) ∈ s.keys3 then
        { s with heap := clearRefs hp (List.range' s.heap.length 3),
                 items3 := ((3, h, w), List.range' s.heap.length 3) :: s.items3 }
      else { s with heap := hp } := by
    rw [hrange]
    simp only [put3, e0, hrows]
    simp only [hk1, hk2, List.length_cons, List.length_nil, Nat.zero_add, Nat.reduceAdd]
  unfold frameTail
  simp only [hg, hput]
  split
  · simp only [hrange, List.map_cons, List.map_nil]
    rw [clearRefs_mem hp _ s.heap.length h w (by simp) p0 e0 hp0,
      clearRefs_mem hp _ (s.heap.length + 1) h w (by simp) p1 e1 (hd p1 (by simp)),
      clearRefs_mem hp _ (s.heap.length + 2) h w (by simp) p2 e2 (hd p2 (by simp))]
    rfl
  · simp only [hrange, List.map_cons, List.map_nil, e0, e1, e2]
    rfl

end Jxl
