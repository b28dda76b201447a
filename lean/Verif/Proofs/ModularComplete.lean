import Verif.Proofs.VarDCTComplete
import Verif.Props.ModularWitness

/-! Frames that decode are complete (C91): modular frames. -/
namespace Jxl

/-- The shifts of channels. -/
def shiftsOf (cs : List MChan) : List (Int × Int) := cs.map fun c => (c.hshift, c.vshift)

theorem allocated_shifts (c : MChan) : c.allocated.hshift = c.hshift ∧ c.allocated.vshift = c.vshift := by
  unfold MChan.allocated
  split
  · exact ⟨rfl, rfl⟩
  · split <;> exact ⟨rfl, rfl⟩

theorem pasteLFChannel_shifts (i : Nat) : ∀ (gs : List (List (MChan × Origin))) (c c' : MChan), pasteLFChannel i gs c = .ok c' → c'.hshift = c.hshift ∧ c'.vshift = c.vshift
  | [], c, c', e => by cases e; exact ⟨rfl, rfl⟩
  | g :: gs, c, c', e => by
    rw [pasteLFChannel] at e
    obtain ⟨a, -, e⟩ := Res.of_bind e
    obtain ⟨b, -, e⟩ := Res.of_bind e
    exact pasteLFChannel_shifts i gs { c with buffer := b } _ e

theorem pasteChannel_shifts (i : Nat) : ∀ (gs : List (Option (List (MChan × Origin)))) (c c' : MChan), pasteChannel i gs c = .ok c' → c'.hshift = c.hshift ∧ c'.vshift = c.vshift
  | [], c, c', e => by cases e; exact ⟨rfl, rfl⟩
  | none :: _, _, _, e => by cases e
  | some g :: gs, c, c', e => by
    rw [pasteChannel] at e
    obtain ⟨a, -, e⟩ := Res.of_bind e
    obtain ⟨b, -, e⟩ := Res.of_bind e
    exact pasteChannel_shifts i gs { c with buffer := b } _ e

theorem pasteLF_shifts (gs : List (List (MChan × Origin))) : ∀ (cs : List MChan) (i : Nat) (cs' : List MChan), pasteLF gs cs i = .ok cs' → shiftsOf cs' = shiftsOf cs
  | [], _, _, e => by cases e; rfl
  | c :: cs, i, r, e => by
    have key : ∀ c', c'.hshift = c.hshift ∧ c'.vshift = c.vshift → (do let cs ← pasteLF gs cs (i + 1); Res.ok (c' :: cs)) = .ok r → shiftsOf r = shiftsOf (c :: cs) := by
      intro c' h1 e
      obtain ⟨cs', e2, e⟩ := Res.of_bind e
      cases e
      have h := pasteLF_shifts gs cs _ _ e2
      unfold shiftsOf at h ⊢
      rw [List.map_cons, List.map_cons, h, h1.1, h1.2]
    rw [pasteLF] at e
    split at e
    · obtain ⟨c', e1, e⟩ := Res.of_bind e
      obtain ⟨a, b⟩ := pasteLFChannel_shifts _ _ _ _ e1
      obtain ⟨a', b'⟩ := allocated_shifts c
      exact key c' ⟨a.trans a', b.trans b'⟩ e
    · exact key c ⟨rfl, rfl⟩ e

theorem pastePass_shifts (sh : Nat × Nat) (gs : List (Option (List (MChan × Origin)))) : ∀ (cs : List MChan) (j : Nat) (cs' : List MChan), pastePass sh gs cs j = .ok cs' → shiftsOf cs' = shiftsOf cs
  | [], _, _, e => by cases e; rfl
  | c :: cs, i, r, e => by
    rw [pastePass] at e
    split at e
    · obtain ⟨c', e1, e⟩ := Res.of_bind e
      obtain ⟨cs', e2, e⟩ := Res.of_bind e
      cases e
      have h := pastePass_shifts sh gs cs _ _ e2
      obtain ⟨a, b⟩ := pasteChannel_shifts _ _ _ _ e1
      obtain ⟨a', b'⟩ := allocated_shifts c
      unfold shiftsOf at h ⊢
      rw [List.map_cons, List.map_cons, h, a, a', b, b']
    · obtain ⟨cs', e2, e⟩ := Res.of_bind e
      cases e
      have h := pastePass_shifts sh gs cs _ _ e2
      unfold shiftsOf at h ⊢
      rw [List.map_cons, List.map_cons, h]

theorem inPass_shifts {sh : Nat × Nat} {cs cs' : List MChan} (h : shiftsOf cs' = shiftsOf cs) (hc : ∃ c ∈ cs, inPass sh c = true) : ∃ c ∈ cs', inPass sh c = true := by
  obtain ⟨c, h1, h2⟩ := hc
  have : (c.hshift, c.vshift) ∈ shiftsOf cs' := by
    rw [h]
    exact List.mem_map_of_mem h1
  obtain ⟨c', h3, h4⟩ := List.mem_map.mp this
  refine ⟨c', h3, ?_⟩
  unfold inPass at h2 ⊢
  rw [show c'.hshift = c.hshift from congrArg Prod.fst h4, show c'.vshift = c.vshift from congrArg Prod.snd h4]
  exact h2

theorem pastePasses_all : ∀ (shs : List (Nat × Nat)) (ps : List (List (Option (List (MChan × Origin))))) (cs cs' : List MChan), pastePasses shs ps cs = .ok cs' → ps.length = shs.length →
    ∀ i (h1 : i < shs.length) (h2 : i < ps.length), (∃ c ∈ cs, inPass shs[i] c = true) → none ∉ ps[i]
  | [], _, _, _, _, _, i, hi, _, _ => absurd hi (by simp)
  | sh :: shs, [], _, _, _, hl, _, _, h2, _ => absurd h2 (by simp)
  | sh :: shs, p :: ps, cs, cs', e, hl, i, h1, h2, hc => by
    rw [pastePasses] at e
    obtain ⟨cs1, e1, e⟩ := Res.of_bind e
    cases i with
    | zero =>
      intro hn
      rw [C84_failed_group_panics sh p hn cs hc] at e1
      cases e1
    | succ i =>
      exact pastePasses_all shs ps cs1 cs' e (by simpa using hl) i (by simpa using h1) (by simpa using h2) (inPass_shifts (pastePass_shifts _ _ _ _ _ e1) hc)

theorem readLFGroups_all {h : ImageHeader} {f : FrameHeader} {l : Layout} {toc : TOC} {readers : List SectionReader} {padded : Dim} {g : ModGlobal} :
    ∀ (n k : Nat) {lfs : List (List (MChan × Origin))} {s s' : BR}, readLFGroups h f l toc readers padded g n k s = (.ok (lfs.map some), s') →
      ∀ i, i < n → ∃ a t t', readLFGroup h f l toc readers padded g (k + i) t = (.ok a, t') := by
  intro n
  induction n with
  | zero => intro k lfs s s' e i hi; omega
  | succ n ih =>
    intro k lfs s s' e i hi
    rw [readLFGroups] at e
    obtain ⟨a, s1, e1, e⟩ := Rd.of_bind e
    obtain ⟨rest, s2, e2, e⟩ := Rd.of_bind e
    have e3 : a :: rest = lfs.map some := Res.ok.inj (congrArg Prod.fst e)
    cases lfs with
    | nil => cases e3
    | cons b lfs =>
      obtain ⟨rfl, rfl⟩ := List.cons.inj e3
      cases i with
      | zero => exact ⟨_, _, _, orEmpty_some e1⟩
      | succ i =>
        obtain ⟨a, t, t', e4⟩ := ih (k + 1) e2 i (by omega)
        refine ⟨a, t, t', ?_⟩
        rw [← Nat.add_assoc, Nat.add_right_comm]
        exact e4

theorem readPassGroups_all {h : ImageHeader} {f : FrameHeader} {l : Layout} {toc : TOC} {readers : List SectionReader} {g : ModGlobal} {sh : Nat × Nat} {pass : Nat} :
    ∀ (n k : Nat) {gs : List (Option (List (MChan × Origin)))} {s s' : BR}, readPassGroups h f l toc readers g sh pass n k s = (.ok gs, s') → none ∉ gs →
      ∀ i, i < n → ∃ a t t', readPassGroup h f l toc readers g sh pass (k + i) t = (.ok a, t')
  | 0, _, _, _, _, _, _, i, hi => absurd hi (by omega)
  | n + 1, k, gs, s, s', e, hn, i, hi => by
    rw [readPassGroups] at e
    obtain ⟨a, s1, e1, e⟩ := Rd.of_bind e
    obtain ⟨rest, s2, e2, e⟩ := Rd.of_bind e
    have e3 : a :: rest = gs := Res.ok.inj (congrArg Prod.fst e)
    subst e3
    cases a with
    | none => simp at hn
    | some a =>
      cases i with
      | zero => exact ⟨_, _, _, orEmpty_some e1⟩
      | succ i =>
        obtain ⟨a, t, t', e4⟩ := readPassGroups_all n (k + 1) e2 (by simpa using hn) i (by omega)
        refine ⟨a, t, t', ?_⟩
        rw [← Nat.add_assoc, Nat.add_right_comm]
        exact e4

theorem readPassesGroups_all {h : ImageHeader} {f : FrameHeader} {l : Layout} {toc : TOC} {readers : List SectionReader} {g : ModGlobal} :
    ∀ (shs : List (Nat × Nat)) (k : Nat) {ps : List (List (Option (List (MChan × Origin))))} {s s' : BR}, readPassesGroups h f l toc readers g shs k s = (.ok ps, s') →
      ps.length = shs.length ∧ ∀ i (hi : i < shs.length) (h2 : i < ps.length), none ∉ ps[i] → ∀ j, j < l.numGroups → ∃ a t t', readPassGroup h f l toc readers g shs[i] (k + i) j t = (.ok a, t')
  | [], _, _, _, _, e => by
    cases e
    exact ⟨rfl, fun i hi => absurd hi (by simp)⟩
  | sh :: shs, k, ps, s, s', e => by
    rw [readPassesGroups] at e
    obtain ⟨a, s1, e1, e⟩ := Rd.of_bind e
    obtain ⟨rest, s2, e2, e⟩ := Rd.of_bind e
    have e3 : a :: rest = ps := Res.ok.inj (congrArg Prod.fst e)
    subst e3
    obtain ⟨hl, ih⟩ := readPassesGroups_all shs (k + 1) e2
    refine ⟨by rw [List.length_cons, List.length_cons, hl], fun i hi h2 hn j hj => ?_⟩
    cases i with
    | zero =>
      obtain ⟨b, t, t', e4⟩ := readPassGroups_all l.numGroups 0 e1 hn j hj
      rw [Nat.zero_add] at e4
      exact ⟨b, t, t', e4⟩
    | succ i =>
      obtain ⟨a, t, t', e4⟩ := ih i (by simpa using hi) (by simpa using h2) hn j hj
      refine ⟨a, t, t', ?_⟩
      rw [← Nat.add_assoc, Nat.add_right_comm]
      exact e4

theorem decodeModularGroups_all {h : ImageHeader} {f : FrameHeader} {l : Layout} {toc : TOC} {readers : List SectionReader} {padded : Dim} {g : ModGlobal} {s s' : BR} {r : List MChan}
    (e : decodeModularGroups h f l toc readers padded g s = (.ok r, s')) :
    (∀ i, i < l.numLFGroups → ∃ a t t', readLFGroup h f l toc readers padded g i t = (.ok a, t')) ∧
    ∃ shs, passShifts f.passes f.passes.numPasses 0 3 = .ok shs ∧ ∀ pass (hp : pass < shs.length), (∃ c ∈ g.stream.rest, inPass shs[pass] c = true) →
      ∀ group, group < l.numGroups → ∃ a t t', readPassGroup h f l toc readers g shs[pass] pass group t = (.ok a, t') := by
  unfold decodeModularGroups at e
  obtain ⟨lfs, s1, e1, e⟩ := Rd.of_bind e
  obtain ⟨lfs', e2, e⟩ := Rd.of_lift_bind e
  obtain ⟨rest, e3, e⟩ := Rd.of_lift_bind e
  obtain ⟨hf, e4, e⟩ := Rd.of_lift_bind e
  obtain ⟨shs, e5, e⟩ := Rd.of_lift_bind e
  obtain ⟨groups, s3, e6, e⟩ := Rd.of_bind e
  obtain ⟨rest', e7, e⟩ := Rd.of_lift_bind e
  rw [allRead_ok e2] at e1
  refine ⟨fun i hi => ?_, shs, e5, fun pass hp hc group hg => ?_⟩
  · obtain ⟨a, t, t', e⟩ := readLFGroups_all _ _ e1 i hi
    rw [Nat.zero_add] at e
    exact ⟨a, t, t', e⟩
  · obtain ⟨hl, h6⟩ := readPassesGroups_all _ _ e6
    obtain ⟨a, t, t', e⟩ := h6 pass hp (by omega) (pastePasses_all _ _ _ _ e7 hl pass hp (by omega) (inPass_shifts (pasteLF_shifts _ _ _ _ e3) hc)) group hg
    rw [Nat.zero_add] at e
    exact ⟨a, t, t', e⟩
end Jxl
