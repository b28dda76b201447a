import Verif.Proofs.Safe
import Verif.Spec.Stream
/-!
# Cluster maps
-/
namespace Jxl
open Spec

theorem countClusters_aux (m : List Int) : ∀ (n : Int), n ≤ m.foldl (fun n c => if n ≤ c then c + 1 else n) n ∧
    (∀ c ∈ m, c < m.foldl (fun n c => if n ≤ c then c + 1 else n) n) ∧
    (m.foldl (fun n c => if n ≤ c then c + 1 else n) n = n ∨ (m.foldl (fun n c => if n ≤ c then c + 1 else n) n - 1) ∈ m) := by
  induction m with
  | nil => intro n; simp
  | cons x m ih =>
    intro n
    simp only [List.foldl_cons]
    obtain ⟨h1, h2, h3⟩ := ih (if n ≤ x then x + 1 else n)
    refine ⟨?_, ?_, ?_⟩
    · refine Int.le_trans ?_ h1
      split <;> omega
    · intro c hc
      rcases List.mem_cons.1 hc with rfl | hc
      · split at h1 <;> rename_i h
        · rw [if_pos h]; omega
        · rw [if_neg h]; omega
      · exact h2 c hc
    · rcases h3 with h3 | h3
      · rw [h3]
        by_cases h : n ≤ x
        · rw [if_pos h]; right; simp
        · rw [if_neg h]; exact Or.inl rfl
      · exact Or.inr (List.mem_cons_of_mem _ h3)

theorem countClusters_spec (m : List Int) : 0 ≤ countClusters m ∧ (∀ c ∈ m, c < countClusters m) ∧
    (countClusters m = 0 ∨ (countClusters m - 1) ∈ m) := countClusters_aux m 0

theorem checkClusters_ok {m : List Int} {k : Nat} {r : List Int × Int} (h : checkClusters m k = .ok r) :
    r.1 = m ∧ r.2 = countClusters m ∧ r.2 ≤ k := by
  unfold checkClusters at h
  split at h
  · cases h
  · rename_i hk
    cases h
    exact ⟨rfl, rfl, by simp only; omega⟩

theorem readFixed_ok (bits n : Nat) : Safe (readFixed bits n) (fun m => m.length = n ∧ ∀ c ∈ m, 0 ≤ c) := by
  induction n with
  | zero => exact Safe.pure ⟨rfl, by simp⟩
  | succ n ih =>
    refine Safe.bind (safe_bits bits) (fun v _ => Safe.bind ih (fun vs hvs => Safe.pure ⟨by simp [hvs.1], ?_⟩))
    intro c hc
    rcases List.mem_cons.1 hc with rfl | hc
    · omega
    · exact hvs.2 c hc

/-- Success gives `Q` (nothing is said about panics). -/
def OnOk {α : Type} (m : Rd α) (Q : α → Prop) : Prop := ∀ s a s', m s = (.ok a, s') → Q a

theorem Safe.onOk {α : Type} {m : Rd α} {Q : α → Prop} (h : Safe m Q) : OnOk m Q := fun _ _ _ e => h.of_ok e

theorem OnOk.bind {α β : Type} {m : Rd α} {f : α → Rd β} {P : α → Prop} {Q : β → Prop} (h : OnOk m P)
    (g : ∀ a, P a → OnOk (f a) Q) : OnOk (m >>= f) Q := by
  intro s b s' e
  rw [Rd.bind_eq] at e
  rcases hm : m s with ⟨_ | _ | _, s1⟩ <;> rw [hm] at e
  · exact g _ (h s _ _ hm) s1 b s' e
  · cases e
  · cases e

theorem OnOk.trivial {α : Type} (m : Rd α) : OnOk m (fun _ => True) := fun _ _ _ _ => True.intro

theorem OnOk.pure {α : Type} {a : α} {Q : α → Prop} (h : Q a) : OnOk (Pure.pure a : Rd α) Q := by
  intro s b s' e
  cases e
  exact h

theorem OnOk.fail {α : Type} {Q : α → Prop} : OnOk (Rd.fail : Rd α) Q := by intro s b s' e; cases e
theorem OnOk.crash {α : Type} {Q : α → Prop} : OnOk (Rd.crash : Rd α) Q := by intro s b s' e; cases e

theorem OnOk.lift {α : Type} {r : Res α} {Q : α → Prop} (h : ∀ a, r = .ok a → Q a) : OnOk (Rd.lift r) Q := by
  intro s b s' e
  simp only [Rd.lift] at e
  exact h b (by cases e; rfl)

theorem readMany_ok (n : Nat) (es : ES) : OnOk (ES.readMany n es) (fun r => r.1.length = n) := by
  induction n generalizing es with
  | zero => exact OnOk.pure rfl
  | succ n ih =>
    unfold ES.readMany
    refine OnOk.bind (OnOk.trivial _) (fun r _ => ?_)
    exact OnOk.bind (ih r.2) (fun r' h => OnOk.pure (by simp [h]))

/-- The values of a table that an inverse move-to-front gives are values of the table. -/
theorem inverseMTF_ok (l : List Int) : ∀ (t r : List Int), inverseMTF t l = .ok r → r.length = l.length ∧ ∀ c ∈ r, c ∈ t := by
  induction l with
  | nil => intro t r h; cases h; simp
  | cons i l ih =>
    intro t r h
    unfold inverseMTF at h
    cases hv : idx t i with
    | ok v =>
      rw [hv, Res.bind_ok] at h
      cases hr : inverseMTF (v :: (t.take i.toNat ++ t.drop (i.toNat + 1))) l with
      | ok vs =>
        rw [hr, Res.bind_ok] at h
        cases h
        obtain ⟨h1, h2⟩ := ih _ _ hr
        have hvt : v ∈ t := by
          unfold idx at hv
          split at hv
          · cases hv
          · split at hv
            · rename_i hg
              cases hv
              exact List.mem_of_getElem? hg
            · cases hv
        refine ⟨by simp [h1], ?_⟩
        intro c hc
        rcases List.mem_cons.1 hc with rfl | hc
        · exact hvt
        · have := h2 c hc
          simp only [List.mem_cons, List.mem_append] at this
          rcases this with rfl | this | this
          · exact hvt
          · exact List.mem_of_mem_take this
          · exact List.mem_of_mem_drop this
      | err => rw [hr] at h; cases h
      | panic => rw [hr] at h; cases h
    | err => rw [hv] at h; cases h
    | panic => rw [hv] at h; cases h

theorem nestedMap_ok (n : Nat) (b : Bool) (es : ES) :
    OnOk (nestedMap n b es) (fun m => m.length = n ∧ (b = true → ∀ c ∈ m, 0 ≤ c ∧ c < 256)) := by
  unfold nestedMap
  refine OnOk.bind (readMany_ok n es) (fun r hr => ?_)
  obtain ⟨m, es'⟩ := r
  simp only at hr ⊢
  split
  · exact OnOk.fail
  · split
    · refine OnOk.lift (fun a ha => ?_)
      obtain ⟨h1, h2⟩ := inverseMTF_ok _ _ _ ha
      refine ⟨by rw [h1, hr], fun _ c hc => ?_⟩
      have := h2 c hc
      simp only [List.mem_map, List.mem_range] at this
      obtain ⟨k, hk, rfl⟩ := this
      show (0 : Int) ≤ (k : Int) ∧ (k : Int) < 256
      omega
    · rename_i hb
      exact OnOk.pure ⟨hr, fun h => absurd h hb⟩

/-- What a successfully read cluster map satisfies. -/
theorem readClusterMap_ok (fuel numDists maxClusters : Nat) :
    OnOk (readClusterMap fuel numDists maxClusters) (fun r => r.1.length = numDists ∧ (∀ c ∈ r.1, c < r.2) ∧ 0 ≤ r.2 ∧ r.2 ≤ maxClusters ∧
      (r.2 = 0 ∨ (r.2 - 1) ∈ r.1)) := by
  have hchk : ∀ m : List Int, m.length = numDists → OnOk (Rd.lift (checkClusters m maxClusters)) (fun r => r.1.length = numDists ∧ (∀ c ∈ r.1, c < r.2) ∧ 0 ≤ r.2 ∧ r.2 ≤ maxClusters ∧
      (r.2 = 0 ∨ (r.2 - 1) ∈ r.1)) := by
    intro m hm
    refine OnOk.lift (fun r hr => ?_)
    obtain ⟨h1, h2, h3⟩ := checkClusters_ok hr
    obtain ⟨c0, c1, c2⟩ := countClusters_spec m
    rw [h2] at h3 ⊢
    rw [h1]
    exact ⟨hm, c1, c0, h3, c2⟩
  unfold readClusterMap
  split
  · rename_i h1
    exact hchk [0] (by simp [h1])
  · refine OnOk.bind (OnOk.trivial _) (fun b _ => ?_)
    split
    · refine OnOk.bind (OnOk.trivial _) (fun nb _ => ?_)
      exact OnOk.bind (readFixed_ok nb numDists).onOk (fun m hm => hchk m hm.1)
    · refine OnOk.bind (OnOk.trivial _) (fun b _ => ?_)
      cases fuel with
      | zero => exact OnOk.crash
      | succ fuel =>
        refine OnOk.bind (OnOk.trivial _) (fun es _ => ?_)
        exact OnOk.bind (nestedMap_ok numDists b es) (fun m hm => hchk m hm.1)

theorem take_drop_idxOf (t : List Int) (v : Int) (h : v ∈ t) : t.take (t.idxOf v) ++ t.drop (t.idxOf v + 1) = t.erase v := by
  rw [List.erase_eq_eraseIdx_of_idxOf (i := t.idxOf v) rfl]
  rw [List.eraseIdx_eq_take_drop_succ]

theorem inverseMTF_encode (vs : List Int) : ∀ t : List Int, (∀ v ∈ vs, v ∈ t) → inverseMTF t (mtfEncode t vs) = .ok vs := by
  induction vs with
  | nil => intro t _; rfl
  | cons v vs ih =>
    intro t h
    have hv : v ∈ t := h v (by simp)
    unfold mtfEncode inverseMTF
    have hidx : idx t (t.idxOf v : Int) = .ok v := by
      have hlt := List.idxOf_lt_length_of_mem hv
      unfold idx
      rw [if_neg (by omega), Int.toNat_natCast, List.getElem?_eq_getElem hlt]
      simp
    rw [hidx, Res.bind_ok, Int.toNat_natCast, take_drop_idxOf t v hv]
    rw [ih (v :: t.erase v) (by
      intro w hw
      have := h w (by simp [hw])
      by_cases e : w = v
      · simp [e]
      · simp only [List.mem_cons]; right
        exact (List.mem_erase_of_ne e).2 this)]
    rfl

theorem bind_congr_ok {α β : Type} (m : Rd α) (f g : α → Rd β) (h : ∀ s a s', m s = (.ok a, s') → f a s' = g a s') : (m >>= f) = (m >>= g) := by
  funext s
  rw [Rd.bind_eq, Rd.bind_eq]
  rcases hm : m s with ⟨_ | _ | _, s'⟩
  · exact h _ _ _ hm
  · rfl
  · rfl

theorem bind_congr_fun {α β : Type} (m : Rd α) (f g : α → Rd β) (h : ∀ a, f a = g a) : (m >>= f) = (m >>= g) :=
  bind_congr_ok m f g (fun _ a _ _ => by rw [h a])

/-- With LZ77 disallowed the nested stream has one context and its map is not read. -/
theorem loadWith_disallow (r1 r2 : Nat → Nat → Rd (List Int × Int)) (h : r1 1 1 = r2 1 1) : loadWith r1 1 true = loadWith r2 1 true := by
  unfold loadWith
  rw [if_neg (by decide), if_neg (by decide)]
  apply bind_congr_ok
  intro s a s' e
  have ha : a = none := by
    unfold readLZ at e
    rw [Rd.bind_eq] at e
    rcases hm : readBool s with ⟨_ | _ | _, s1⟩ <;> rw [hm] at e
    · simp only at e
      split at e
      · rw [if_pos True.intro] at e; cases e
      · cases e; rfl
    · cases e
    · cases e
  subst ha
  simp only [Option.isSome_none, Bool.false_eq_true, if_false]
  rw [h]

theorem loadWith_congr (r1 r2 : Nat → Nat → Rd (List Int × Int)) (h1 : r1 1 1 = r2 1 1) (h2 : r1 2 2 = r2 2 2) (b : Bool) :
    loadWith r1 1 b = loadWith r2 1 b := by
  unfold loadWith
  rw [if_neg (by decide), if_neg (by decide)]
  apply bind_congr_fun
  intro a
  cases a with
  | none => simp only [Option.isSome_none, Bool.false_eq_true, if_false]; rw [h1]
  | some p => simp only [Option.isSome_some, if_true]; rw [h2]

theorem readClusterMap_one (f g : Nat) : readClusterMap f 1 1 = readClusterMap g 1 1 := by
  unfold readClusterMap
  rw [if_pos rfl, if_pos rfl]

theorem readClusterMap_two (f g : Nat) : readClusterMap (f + 1) 2 2 = readClusterMap (g + 1) 2 2 := by
  unfold readClusterMap
  rw [if_neg (by decide), if_neg (by decide)]
  apply bind_congr_fun
  intro b
  split
  · rfl
  · apply bind_congr_fun
    intro b
    simp only
    rw [show (decide (2 ≤ 2)) = true by decide, loadWith_disallow (readClusterMap f) (readClusterMap g) (readClusterMap_one f g)]

/-- The bound on the nesting of cluster maps is never reached. -/
theorem readClusterMap_fuel (f n m : Nat) : readClusterMap (f + 2) n m = readClusterMap 2 n m := by
  unfold readClusterMap
  split
  · rfl
  · apply bind_congr_fun
    intro b
    split
    · rfl
    · apply bind_congr_fun
      intro b
      simp only
      rw [loadWith_congr (readClusterMap (f + 1)) (readClusterMap 1) (readClusterMap_one _ _) (readClusterMap_two f 0)]

end Jxl
