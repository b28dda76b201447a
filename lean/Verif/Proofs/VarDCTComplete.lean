import Verif.Proofs.Coefficients
import Verif.Model.VarDCTFrame

/-! Frames that decode are complete (C91): VarDCT frames. -/

namespace Jxl

variable {α : Type} [Arith α]

theorem allRead_ok {β : Type} : ∀ {l : List (Option β)} {r : List β}, allRead l = .ok r → l = r.map some
  | [], r, h => by
    cases r with
    | nil => rfl
    | cons => cases h
  | none :: _, r, h => by cases h
  | some a :: l, r, h => by
    rw [allRead] at h
    obtain ⟨r', h1, h2⟩ := Res.of_bind h
    cases h2
    rw [allRead_ok h1]
    rfl

theorem invertVarGroups_all (V : VarParts α) (h : ImageHeader) (f : FrameHeader) (l : Layout) (g : VarGlobal) (weights : List (List (List (List α)))) (pass : Nat) :
    ∀ (gs : List (Option (VarGroup α))) (i : Nat) (fb r : List (List (List α))), invertVarGroups V h f l g weights pass gs i fb = .ok r → none ∉ gs
  | [], _, _, _, _ => by simp
  | none :: _, _, _, _, e => by cases e
  | some vg :: gs, i, fb, r, e => by
    rw [invertVarGroups] at e
    obtain ⟨fb', -, e⟩ := Res.of_bind e
    have := invertVarGroups_all V h f l g weights pass gs _ _ _ e
    simpa using this

theorem invertVarPasses_all (V : VarParts α) (h : ImageHeader) (f : FrameHeader) (l : Layout) (g : VarGlobal) (weights : List (List (List (List α)))) :
    ∀ (ps : List (List (Option (VarGroup α)))) (i : Nat) (fb r : List (List (List α))), invertVarPasses V h f l g weights ps i fb = .ok r → ∀ gs ∈ ps, none ∉ gs
  | [], _, _, _, _ => by simp
  | gs :: ps, i, fb, r, e => by
    rw [invertVarPasses] at e
    obtain ⟨fb', e1, e⟩ := Res.of_bind e
    intro gs' h'
    rcases List.mem_cons.mp h' with rfl | h'
    · exact invertVarGroups_all V h f l g weights i _ _ _ _ e1
    · exact invertVarPasses_all V h f l g weights ps _ _ _ e gs' h'

theorem orEmpty_some {β : Type} {m : Rd β} {s s' : BR} {b : β} (h : orEmpty m s = (.ok (some b), s')) : m s = (.ok b, s') := by
  unfold orEmpty at h
  rcases e : m s with ⟨a | _ | _, s1⟩
  · rw [e] at h
    cases h
    rfl
  · rw [e] at h
    cases h
  · rw [e] at h
    cases h

theorem readVarLFGroups_all {h : ImageHeader} {f : FrameHeader} {l : Layout} {toc : TOC} {readers : List SectionReader} {padded : Dim} {g : VarGlobal} {lfBuffer : List (List (List α))} :
    ∀ (n k : Nat) {lfs : List (VarLFGroup α)} {s s' : BR}, readVarLFGroups h f l toc readers padded g lfBuffer n k s = (.ok (lfs.map some), s') →
      lfs.length = n ∧ ∀ i (hi : i < lfs.length), ∃ t t', readVarLFGroup h f l toc readers padded g lfBuffer (k + i) t = (.ok lfs[i], t') := by
  intro n
  induction n with
  | zero =>
    intro k lfs s s' e
    cases lfs with
    | nil => exact ⟨rfl, fun i hi => absurd hi (by simp)⟩
    | cons a lfs => exact absurd (Res.ok.inj (congrArg Prod.fst e)) (by simp)
  | succ n ih =>
    intro k lfs s s' e
    rw [readVarLFGroups] at e
    obtain ⟨a, s1, e1, e⟩ := Rd.of_bind e
    obtain ⟨rest, s2, e2, e⟩ := Rd.of_bind e
    have e3 : a :: rest = lfs.map some := Res.ok.inj (congrArg Prod.fst e)
    cases lfs with
    | nil => cases e3
    | cons b lfs =>
      obtain ⟨rfl, rfl⟩ := List.cons.inj e3
      obtain ⟨h1, h2⟩ := ih (k + 1) e2
      refine ⟨by rw [List.length_cons, h1], fun i hi => ?_⟩
      cases i with
      | zero => exact ⟨_, _, orEmpty_some e1⟩
      | succ i =>
        obtain ⟨t, t', e4⟩ := h2 i (by simpa using hi)
        refine ⟨t, t', ?_⟩
        rw [← Nat.add_assoc, Nat.add_right_comm]
        exact e4

omit [Arith α] in
theorem readVarGroups_all {h : ImageHeader} {f : FrameHeader} {l : Layout} {toc : TOC} {readers : List SectionReader} {g : VarGlobal} {lfs : List (VarLFGroup α)} {presets : Nat}
    {passes : List HFPass} {sh : Nat × Nat} {pass : Nat} :
    ∀ (n k : Nat) {gs : List (Option (VarGroup α))} {s s' : BR}, readVarGroups h f l toc readers g lfs presets passes sh pass n k s = (.ok gs, s') → none ∉ gs →
      ∀ i, i < n → ∃ a t t', readVarGroup h f l toc readers g lfs presets passes sh pass (k + i) t = (.ok a, t')
  | 0, _, _, _, _, _, _, i, hi => absurd hi (by omega)
  | n + 1, k, gs, s, s', e, hn, i, hi => by
    rw [readVarGroups] at e
    obtain ⟨a, s1, e1, e⟩ := Rd.of_bind e
    obtain ⟨rest, s2, e2, e⟩ := Rd.of_bind e
    have e3 : a :: rest = gs := Res.ok.inj (congrArg Prod.fst e)
    subst e3
    cases a with
    | none => simp at hn
    | some a =>
      cases i with
      | zero => exact ⟨_, _, _, orEmpty_some e1⟩
      | succ i =>
        obtain ⟨a, t, t', e4⟩ := readVarGroups_all n (k + 1) e2 (by simpa using hn) i (by omega)
        refine ⟨a, t, t', ?_⟩
        rw [← Nat.add_assoc, Nat.add_right_comm]
        exact e4

omit [Arith α] in
theorem readVarPasses_all {h : ImageHeader} {f : FrameHeader} {l : Layout} {toc : TOC} {readers : List SectionReader} {g : VarGlobal} {lfs : List (VarLFGroup α)} {presets : Nat}
    {passes : List HFPass} :
    ∀ (shs : List (Nat × Nat)) (k : Nat) {ps : List (List (Option (VarGroup α)))} {s s' : BR}, readVarPasses h f l toc readers g lfs presets passes shs k s = (.ok ps, s') →
      (∀ gs ∈ ps, none ∉ gs) → ∀ i (hi : i < shs.length), ∀ j, j < l.numGroups → ∃ a t t', readVarGroup h f l toc readers g lfs presets passes shs[i] (k + i) j t = (.ok a, t')
  | [], _, _, _, _, _, _, i, hi => absurd hi (by simp)
  | sh :: shs, k, ps, s, s', e, hn, i, hi => by
    rw [readVarPasses] at e
    obtain ⟨a, s1, e1, e⟩ := Rd.of_bind e
    obtain ⟨rest, s2, e2, e⟩ := Rd.of_bind e
    have e3 : a :: rest = ps := Res.ok.inj (congrArg Prod.fst e)
    subst e3
    intro j hj
    cases i with
    | zero =>
      obtain ⟨b, t, t', e4⟩ := readVarGroups_all l.numGroups 0 e1 (hn _ List.mem_cons_self) j hj
      rw [Nat.zero_add] at e4
      exact ⟨b, t, t', e4⟩
    | succ i =>
      obtain ⟨a, t, t', e4⟩ := readVarPasses_all shs (k + 1) e2 (fun gs hg => hn gs (List.mem_cons_of_mem _ hg)) i (by simpa using hi) j hj
      refine ⟨a, t, t', ?_⟩
      rw [← Nat.add_assoc, Nat.add_right_comm]
      exact e4

theorem passShifts_length (p : Passes) : ∀ (n i prev : Nat) {l : List (Nat × Nat)}, passShifts p n i prev = .ok l → l.length = n
  | 0, _, _, _, e => by cases e; rfl
  | n + 1, i, prev, l, e => by
    rw [passShifts] at e
    obtain ⟨m, -, e⟩ := Res.of_bind e
    obtain ⟨l', e1, e⟩ := Res.of_bind e
    cases e
    rw [List.length_cons, passShifts_length p n _ _ e1]

theorem decodeVarGroups_all {V : VarParts α} {h : ImageHeader} {f : FrameHeader} {l : Layout} {toc : TOC} {readers : List SectionReader} {padded : Dim} {g : VarGlobal}
    {lfBuffer fb : List (List (List α))} {s s' : BR} {r : List (List (List α)) × List MChan × List (VarLFGroup α)} (e : decodeVarGroups V h f l toc readers padded g lfBuffer fb s = (.ok r, s')) :
    ∃ lfs presets passes,
      lfs.length = l.numLFGroups ∧
      (∀ i (hi : i < lfs.length), ∃ t t', readVarLFGroup h f l toc readers padded g lfBuffer i t = (.ok lfs[i], t')) ∧
      ∀ pass, pass < f.passes.numPasses → ∀ group, group < l.numGroups → ∃ sh a t t', readVarGroup h f l toc readers g lfs presets passes sh pass group t = (.ok a, t') := by
  unfold decodeVarGroups at e
  obtain ⟨lfs, s1, e1, e⟩ := Rd.of_bind e
  obtain ⟨lfs', e2, e⟩ := Rd.of_lift_bind e
  obtain ⟨rest, e3, e⟩ := Rd.of_lift_bind e
  obtain ⟨hf, s2, e4, e⟩ := Rd.of_bind e
  obtain ⟨shs, e5, e⟩ := Rd.of_lift_bind e
  obtain ⟨groups, s3, e6, e⟩ := Rd.of_bind e
  obtain ⟨rest', e7, e⟩ := Rd.of_lift_bind e
  obtain ⟨fb', e8, e⟩ := Rd.of_lift_bind e
  rw [allRead_ok e2] at e1
  obtain ⟨h1, h2⟩ := readVarLFGroups_all _ _ e1
  refine ⟨lfs', hf.1.2, hf.2, h1, fun i hi => ?_, fun pass hp group hg => ?_⟩
  · obtain ⟨t, t', e⟩ := h2 i hi
    rw [Nat.zero_add] at e
    exact ⟨t, t', e⟩
  · obtain ⟨a, t, t', e⟩ := readVarPasses_all _ _ e6 (invertVarPasses_all V h f l g _ _ _ _ _ e8) pass (by rw [passShifts_length _ _ _ _ e5]; exact hp) group hg
    rw [Nat.zero_add] at e
    exact ⟨_, a, t, t', e⟩

end Jxl
