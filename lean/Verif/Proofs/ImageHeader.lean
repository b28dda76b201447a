import Verif.Spec.ImageHeader
import Verif.Proofs.Ints
import Verif.Props.F16
import Mathlib.Tactic.Positivity
/-! Lemmas on the image header. -/
namespace Jxl
open Spec

theorem Implements.follows {α : Type} {m : Rd α} {d : Dec α} (h : Implements m d) : Follows m d := by
  intro s p hs a r hd
  have := h s p hs
  rw [hd] at this
  exact this

theorem Follows.pure {α : Type} (a : α) : Follows (Pure.pure a : Rd α) (Pure.pure a : Dec α) := (Implements.pure a).follows

theorem Follows.bind' {α β : Type} {m : Rd α} {f : α → Rd β} {d : Dec α} {e : α → Dec β} (P : α → Prop)
    (h1 : Follows m d) (hP : ∀ l a r, d l = some (a, r) → P a) (h2 : ∀ a, P a → Follows (f a) (e a)) : Follows (m >>= f) (d >>= e) := by
  intro s p h b r hb
  have hb' : (match d (bitsFrom s.data p) with | some (a, r) => e a r | none => none) = some (b, r) := hb
  cases hd : d (bitsFrom s.data p) with
  | none => rw [hd] at hb'; cases hb'
  | some x =>
    obtain ⟨a, r1⟩ := x
    rw [hd] at hb'
    simp only at hb'
    obtain ⟨s', p', e1, e2, e3, e4, e5⟩ := h1 s p h a r1 hd
    rw [Rd.bind_ok e1]
    subst e4
    rw [← e3] at hb'
    obtain ⟨s2, p2, f1, f2, f3, f4, f5⟩ := h2 a (hP _ _ _ hd) s' p' e2 b r hb'
    exact ⟨s2, p2, f1, f2, by rw [f3, e3], by rw [f4, e3], by omega⟩

theorem Follows.bind {α β : Type} {m : Rd α} {f : α → Rd β} {d : Dec α} {e : α → Dec β}
    (h1 : Follows m d) (h2 : ∀ a, Follows (f a) (e a)) : Follows (m >>= f) (d >>= e) :=
  Follows.bind' (fun _ => True) h1 (fun _ _ _ _ => trivial) (fun a _ => h2 a)

theorem Follows.if {α : Type} {c c' : Bool} {m : Rd α} {d : Dec α} {a a' : α} (hc : c = c') (ha : a = a') (h : c = true → Follows m d) :
    Follows (readIf c m a) (decIf c' d a') := by
  subst hc; subst ha
  unfold readIf decIf
  cases c
  · exact Follows.pure _
  · exact h rfl

theorem Follows.list {α : Type} {m : Rd α} {d : Dec α} (h : Follows m d) : ∀ n, Follows (readList m n) (decList d n)
  | 0 => Follows.pure _
  | n + 1 => Follows.bind h (fun a => Follows.bind (Follows.list h n) (fun l => Follows.pure _))

theorem Implements.list {α : Type} {m : Rd α} {d : Dec α} (h : Implements m d) : ∀ n, Implements (readList m n) (decList d n)
  | 0 => Implements.pure _
  | n + 1 => Implements.bind h (fun a => Implements.bind (Implements.list h n) (fun l => Implements.pure _))

theorem Follows.check {α : Type} {c c' : Bool} (a : α) (hc : c' = true → c = true) : Follows (check c a) (decCheck c' a) := by
  intro s p h b r hb
  unfold decCheck at hb
  cases hc' : c'
  · rw [hc'] at hb; cases hb
  · rw [hc'] at hb
    unfold Jxl.check
    rw [hc hc', if_pos rfl]
    exact Follows.pure a s p h b r hb

/-- A test of the format that the code makes elsewhere or not at all. -/
theorem Follows.check_left {α β : Type} {c : Bool} {a : α} {m : Rd β} {e : α → Dec β} (h : c = true → Follows m (e a)) : Follows m (decCheck c a >>= e) := by
  cases hc : c
  · intro s p _ b r hb
    cases hb
  · have h := h hc
    have : (decCheck true a >>= e) = e a := rfl
    rw [this]; exact h

theorem Follows.check_pure {α : Type} {c : Bool} {a : α} {m : Rd α} (h : c = true → Follows m (Pure.pure a : Dec α)) : Follows m (decCheck c a) := by
  cases hc : c
  · intro s p _ b r hb
    cases hb
  · exact h hc

theorem Follows.lift {α : Type} {r : Res α} {a : α} (h : r = .ok a) : Follows (Rd.lift r) (Pure.pure a : Dec α) := by
  subst h
  exact Follows.pure a

theorem decU32_lt {d : Fin 4 → Nat × Nat} {l r : List Bool} {v N : Nat} (h : decU32 d l = some (v, r)) (hN : ∀ k, (d k).1 + 2 ^ (d k).2 ≤ N) : v < N := by
  unfold decU32 at h
  rw [Dec.bind_eq] at h
  split at h
  · rename_i sel r1 h1
    rw [Dec.bind_eq] at h
    split at h
    · rename_i v1 r2 h2
      rw [Dec.pure_eq] at h
      simp only [Option.some.injEq, Prod.mk.injEq] at h
      have := decBits_lt h2
      have := hN ⟨sel % 4, Nat.mod_lt _ (by decide)⟩
      have hle := Nat.mod_le ((d ⟨sel % 4, Nat.mod_lt _ (by decide)⟩).1 + v1) (2 ^ 32)
      omega
    · cases h
  · cases h

theorem implements_side (div8 : Bool) : Implements (readSide div8) (decSide div8) := by
  unfold readSide decSide
  refine Implements.ite (fun _ => ?_) (fun _ => ?_)
  · refine Implements.bind' (fun v => v < 2 ^ 5) (implements_bits 5 (by decide)) (fun _ _ _ h => decBits_lt h) (fun v hv => ?_)
    have : u32 (u32 (1 + u32 v) <<< 3) = 8 * (v + 1) := by
      simp only [u32, Nat.shiftLeft_eq]; omega
    rw [this]
    exact Implements.pure _
  · exact implements_u32 (fun k => match k with | 0 => (1, 9) | 1 => (1, 13) | 2 => (1, 18) | 3 => (1, 30)) (by decide)

theorem decSide_lt {div8 : Bool} {l r : List Bool} {v : Nat} (h : decSide div8 l = some (v, r)) : 0 < v ∧ v ≤ 2 ^ 30 := by
  unfold decSide at h
  cases div8
  · simp only [Bool.false_eq_true, if_false] at h
    have h2 := decU32_lt h (N := 2 ^ 30 + 1) (by decide)
    refine ⟨?_, by omega⟩
    unfold decU32 at h
    rw [Dec.bind_eq] at h
    split at h
    · rename_i sel r1 h1
      dsimp only at h
      rw [Dec.bind_eq] at h
      split at h
      · rename_i v1 r2 h2
        rw [Dec.pure_eq] at h
        simp only [Option.some.injEq, Prod.mk.injEq] at h
        have hs := decBits_lt h1
        have hv := decBits_lt h2
        have hsel : sel = 0 ∨ sel = 1 ∨ sel = 2 ∨ sel = 3 := by omega
        rcases hsel with rfl | rfl | rfl | rfl
        · have hv' : v1 < 2 ^ 9 := hv
          have h' : (1 + v1) % 2 ^ 32 = v := h.1
          omega
        · have hv' : v1 < 2 ^ 13 := hv
          have h' : (1 + v1) % 2 ^ 32 = v := h.1
          omega
        · have hv' : v1 < 2 ^ 18 := hv
          have h' : (1 + v1) % 2 ^ 32 = v := h.1
          omega
        · have hv' : v1 < 2 ^ 30 := hv
          have h' : (1 + v1) % 2 ^ 32 = v := h.1
          omega
      · cases h
    · cases h
  · simp only [if_true] at h
    rw [Dec.bind_eq] at h
    split at h
    · rename_i a r1 h1
      have := decBits_lt h1
      rw [Dec.pure_eq] at h
      simp only [Option.some.injEq, Prod.mk.injEq] at h
      omega
    · cases h

theorem ratio_exact (ratio h num den : Nat) (ha : aspect ratio = some (num, den)) (hh : ratio = 5 → h < 2 ^ 28) (hh2 : h ≤ 2 ^ 28) :
    getWidthFromRatio ratio h = .ok (h * num / den) := by
  unfold aspect at ha
  split at ha <;> simp only [Option.some.injEq, Prod.mk.injEq, reduceCtorEq] at ha <;> obtain ⟨rfl, rfl⟩ := ha <;>
    simp only [getWidthFromRatio, u32, if_true, Nat.reduceEqDiff, if_false] <;> congr 1 <;> omega

/-- The width of an image. -/
theorem follows_width (side : Rd Nat) (dside : Dec Nat) (hs : Follows side dside) (h : Nat) (hh : h < 2 ^ 28) :
    Follows (readWidth side h) (decWidth dside h) := by
  unfold readWidth decWidth
  refine Follows.bind' (fun v => v < 2 ^ 3) (implements_bits 3 (by decide)).follows (fun _ _ _ h => decBits_lt h) (fun ratio hr => ?_)
  by_cases h0 : ratio = 0
  · subst h0
    exact hs
  · rw [if_pos h0]
    have : ∃ q, aspect ratio = some q := by
      have : ratio = 1 ∨ ratio = 2 ∨ ratio = 3 ∨ ratio = 4 ∨ ratio = 5 ∨ ratio = 6 ∨ ratio = 7 := by omega
      rcases this with rfl | rfl | rfl | rfl | rfl | rfl | rfl <;> exact ⟨_, rfl⟩
    obtain ⟨⟨num, den⟩, hq⟩ := this
    rw [hq]
    exact Follows.lift (ratio_exact ratio h num den hq (fun _ => hh) (by omega))

theorem Dec.of_bind {α β : Type} {m : Dec α} {f : α → Dec β} {l : List Bool} {b : β} {r : List Bool} (h : (m >>= f) l = some (b, r)) :
    ∃ a l', m l = some (a, l') ∧ f a l' = some (b, r) := by
  rw [Dec.bind_eq] at h
  split at h
  · rename_i a l' hm
    exact ⟨a, l', hm, h⟩
  · cases h

theorem Dec.of_check {α : Type} {c : Bool} {a b : α} {l r : List Bool} (h : decCheck c a l = some (b, r)) : c = true ∧ a = b ∧ l = r := by
  unfold decCheck at h
  cases c
  · cases h
  · have h' : some (a, l) = some (b, r) := h
    simp only [Option.some.injEq, Prod.mk.injEq] at h'
    exact ⟨rfl, h'.1, h'.2⟩

theorem maxSide_le (level : Int) : maxSide level ≤ 2 ^ 28 := by
  unfold maxSide; split <;> decide

/-- Every size within the limits is read as the format says. -/
theorem follows_size (level : Int) : Follows (readSizeHeader level) (decSizeLimited level) := by
  intro s p hs d r hd
  obtain ⟨d1, l1, e1, e2⟩ := Dec.of_bind hd
  obtain ⟨hc, rfl, rfl⟩ := Dec.of_check e2
  rw [decide_eq_true_eq] at hc
  obtain ⟨hw, hh, ht⟩ := hc
  obtain ⟨div8, l2, e3, e4⟩ := Dec.of_bind e1
  obtain ⟨h, l3, e5, e6⟩ := Dec.of_bind e4
  obtain ⟨w, l4, e7, e8⟩ := Dec.of_bind e6
  have e8' : some ((⟨w, h⟩ : Dim), l4) = some (d1, l1) := e8
  simp only [Option.some.injEq, Prod.mk.injEq] at e8'
  obtain ⟨rfl, rfl⟩ := e8'
  dsimp only at hw hh ht
  have hm := maxSide_le level
  obtain ⟨s1, p1, a1, a2, a3, a4, a5⟩ := implements_bool.follows s p hs _ _ e3
  unfold readSizeHeader
  rw [Rd.bind_ok a1]
  subst a4
  rw [← a3] at e5
  obtain ⟨s2, p2, b1, b2, b3, b4, b5⟩ := (implements_side div8).follows s1 p1 a2 _ _ e5
  rw [Rd.bind_ok b1]
  subst b4
  rw [← b3] at e7
  have hlast : ∃ s3 p3, readWidth (readSide div8) h s2 = (.ok w, s3) ∧ AtBit s3 p3 ∧ s3.data = s2.data ∧ l4 = bitsFrom s2.data p3 ∧ p2 ≤ p3 := by
    by_cases hlt : h < 2 ^ 28
    · exact follows_width _ _ (implements_side div8).follows h hlt s2 p2 b2 w l4 e7
    · have hh28 : h = 2 ^ 28 := by omega
      obtain ⟨ratio, l5, f1, f2⟩ := Dec.of_bind e7
      have hr := decBits_lt f1
      obtain ⟨s3, p3, c1, c2, c3, c4, c5⟩ := (implements_bits 3 (by decide)).follows s2 p2 b2 _ _ f1
      unfold readWidth
      rw [Rd.bind_ok c1]
      by_cases h0 : ratio = 0
      · subst h0
        rw [if_neg (by decide)]
        have f2' : decSide div8 l5 = some (w, l4) := f2
        rw [c4, ← c3] at f2'
        obtain ⟨s4, p4, g1, g2, g3, g4, g5⟩ := (implements_side div8).follows s3 p3 c2 _ _ f2'
        exact ⟨s4, p4, g1, g2, by rw [g3, c3], by rw [g4, c3], by omega⟩
      · rw [if_pos h0]
        cases hq : aspect ratio with
        | none =>
          have : ratio = 1 ∨ ratio = 2 ∨ ratio = 3 ∨ ratio = 4 ∨ ratio = 5 ∨ ratio = 6 ∨ ratio = 7 := by omega
          rcases this with rfl | rfl | rfl | rfl | rfl | rfl | rfl <;> cases hq
        | some q =>
          obtain ⟨num, den⟩ := q
          rw [hq] at f2
          have f2' : some (h * num / den, l5) = some (w, l4) := f2
          simp only [Option.some.injEq, Prod.mk.injEq] at f2'
          obtain ⟨rfl, rfl⟩ := f2'
          have : ratio ≠ 5 := by
            rintro rfl
            cases hq
            rw [hh28] at hw
            norm_num at hw
            omega
          refine ⟨s3, p3, ?_, c2, c3, c4, c5⟩
          rw [ratio_exact ratio h num den hq (fun h5 => absurd h5 this) (by omega)]
          rfl
  obtain ⟨s3, p3, g1, g2, g3, g4, g5⟩ := hlast
  rw [Rd.bind_ok g1]
  refine ⟨s3, p3, ?_, g2, by rw [g3, b3, a3], by rw [g4, b3, a3], by omega⟩
  have hck : checkSize level ⟨w, h⟩ = .ok ⟨w, h⟩ := by
    unfold checkSize
    have m1 : (if level ≤ 5 then 2 ^ 18 else 2 ^ 28) = maxSide level := rfl
    have m2 : (if level ≤ 5 then 2 ^ 30 else 2 ^ 40) = maxPixels level := rfl
    rw [m1, m2, if_neg (by dsimp only; omega), if_neg ?_]
    have := Nat.mod_le (w * h) 4294967296
    simp only [u32]
    omega
  rw [hck]
  rfl

theorem Follows.congr {α : Type} {m : Rd α} {d d' : Dec α} (h : Follows m d) (e : d = d') : Follows m d' := e ▸ h

theorem follows_bits (n : Nat) (hn : n ≤ 64) : Follows (readBits n) (decBits n) := (implements_bits n hn).follows

theorem implements_previewSide : Implements (readPreviewSide false) (decPreviewSide false) :=
  implements_u32 (fun k => match k with | 0 => (1, 6) | 1 => (65, 8) | 2 => (321, 10) | 3 => (1345, 12)) (by decide)

theorem decPreviewSide_lt (l : List Bool) (h : Nat) (r : List Bool) (e : decPreviewSide false l = some (h, r)) : h < 5442 := by
  have e' : decU32 (fun k => match k with | 0 => (1, 6) | 1 => (65, 8) | 2 => (321, 10) | 3 => (1345, 12)) l = some (h, r) := e
  exact decU32_lt e' (by decide)

theorem follows_preview : Follows readPreviewHeader decPreviewExact := by
  unfold readPreviewHeader decPreviewExact
  refine Follows.bind implements_bool.follows (fun div8 => Follows.check_left (fun hd => ?_))
  cases div8
  · refine Follows.bind' (fun h => h < 5442) implements_previewSide.follows decPreviewSide_lt (fun h hh => ?_)
    refine Follows.bind (follows_width _ _ implements_previewSide.follows h (by omega)) (fun w => Follows.check_pure (fun hc => ?_))
    rw [decide_eq_true_eq] at hc
    rw [if_neg (by omega)]
    exact Follows.pure _
  · cases hd

theorem follows_bitDepth : Follows readBitDepth decBitDepth := by
  unfold readBitDepth decBitDepth
  refine Follows.bind implements_bool.follows (fun f => ?_)
  cases f
  · simp only [Bool.false_eq_true, if_false, decIf]
    refine Follows.bind (implements_u32 _ (by decide)).follows (fun b => ?_)
    exact Follows.pure _
  · simp only [if_true, decIf]
    refine Follows.bind (implements_u32 _ (by decide)).follows (fun b => ?_)
    refine Follows.bind' (fun v => v < 2 ^ 4) (follows_bits 4 (by decide)) (fun _ _ _ h => decBits_lt h) (fun e he => ?_)
    have : u32 (1 + u32 e) = e + 1 := by simp only [u32]; omega
    rw [this]
    exact Follows.pure _

theorem implements_byte8 : Implements readByte8 (decBits 8) := by
  have : Implements readByte8 (decBits 8 >>= fun v => Pure.pure v) := by
    refine Implements.bind' (fun v => v < 2 ^ 8) (implements_bits 8 (by decide)) (fun _ _ _ h => decBits_lt h) (fun v hv => ?_)
    have : u8 v = v := by simp only [u8]; omega
    rw [this]
    exact Implements.pure _
  refine this.congr_dec (fun l => ?_)
  rw [Dec.bind_eq]
  cases decBits 8 l <;> rfl

theorem implements_name : Implements (readU32 0 0 0 4 16 5 48 10) (decU32 distName) := implements_u32 distName (by decide)

theorem follows_extraFields : Follows readExtraFields decExtraFields := by
  unfold readExtraFields decExtraFields
  refine Follows.bind implements_enum.follows (fun t => Follows.check_left (fun ht => ?_))
  have hv : validExtraChannel t = true := by
    rw [decide_eq_true_eq] at ht
    simp only [List.mem_cons, List.not_mem_nil, or_false] at ht
    rcases ht with rfl | rfl | rfl | rfl | rfl | rfl | rfl | rfl | rfl <;> rfl
  rw [hv, if_neg (by decide)]
  refine Follows.bind follows_bitDepth (fun b => ?_)
  refine Follows.bind (implements_u32 (fun k => match k with | 0 => (0, 0) | 1 => (3, 0) | 2 => (4, 0) | 3 => (1, 3)) (by decide)).follows (fun d => ?_)
  refine Follows.bind implements_name.follows (fun n => ?_)
  refine Follows.bind (Follows.list implements_byte8.follows n) (fun name => ?_)
  refine Follows.bind (Follows.if ?_ rfl (fun _ => implements_bool.follows)) (fun a => Follows.pure _)
  cases t <;> rfl

theorem beq_decide (a b : Nat) : (a == b) = decide (a = b) := rfl

theorem follows_extraChannel : Follows readExtraChannel decExtraChannel := by
  unfold readExtraChannel decExtraChannel
  refine Follows.bind implements_bool.follows (fun dA => ?_)
  refine Follows.bind (Follows.if rfl rfl (fun _ => follows_extraFields)) (fun f => ?_)
  refine Follows.bind (Follows.if (beq_decide _ _) rfl (fun _ => Follows.list C08_readF16.follows 4)) (fun spot => ?_)
  refine Follows.bind (Follows.if (beq_decide _ _) rfl (fun _ => ?_)) (fun cfa => Follows.pure _)
  exact (implements_u32 (fun k => match k with | 0 => (1, 0) | 1 => (0, 2) | 2 => (3, 4) | 3 => (19, 8)) (by decide)).follows

/-- Extension lengths that are all zero. -/
theorem follows_extLengths (key : Nat) : ∀ n i, ∀ s p, AtBit s p → ∀ r, decExtLengths key n i (bitsFrom s.data p) = some (List.replicate n 0, r) →
    ∃ s' p', readExtLengths key n i s = (.ok (List.replicate n 0), s') ∧ AtBit s' p' ∧ s'.data = s.data ∧ r = bitsFrom s.data p' ∧ p ≤ p'
  | 0, i, s, p, hs, r, hd => by
    have hd' : some (([] : List Nat), bitsFrom s.data p) = some ([], r) := hd
    simp only [Option.some.injEq, Prod.mk.injEq, true_and] at hd'
    exact ⟨s, p, rfl, hs, rfl, hd'.symm, Nat.le_refl _⟩
  | n + 1, i, s, p, hs, r, hd => by
    obtain ⟨l, l1, e1, e2⟩ := Dec.of_bind hd
    obtain ⟨ls, l2, e3, e4⟩ := Dec.of_bind e2
    have e4' : some (l :: ls, l2) = some (List.replicate (n + 1) 0, r) := e4
    rw [List.replicate_succ] at e4'
    simp only [Option.some.injEq, Prod.mk.injEq, List.cons.injEq] at e4'
    obtain ⟨⟨rfl, rfl⟩, rfl⟩ := e4'
    have hf : Follows (readIf (key.testBit i) readU64 0) (decIf (key.testBit i) decU64 0) := Follows.if rfl rfl (fun _ => implements_u64.follows)
    obtain ⟨s1, p1, a1, a2, a3, a4, a5⟩ := hf s p hs _ _ e1
    subst a4
    rw [← a3] at e3
    obtain ⟨s2, p2, b1, b2, b3, b4, b5⟩ := follows_extLengths key n (i + 1) s1 p1 a2 _ e3
    refine ⟨s2, p2, ?_, b2, by rw [b3, a3], by rw [b4, a3], by omega⟩
    unfold readExtLengths
    rw [Rd.bind_ok a1, if_neg (by decide), Rd.bind_ok b1]
    rfl

theorem decList_length {α : Type} {m : Dec α} {n : Nat} {l r : List Bool} {a : List α} (h : decList m n l = some (a, r)) : a.length = n := by
  induction n generalizing l r a with
  | zero =>
    have h' : some (([] : List α), l) = some (a, r) := h
    simp only [Option.some.injEq, Prod.mk.injEq] at h'
    rw [← h'.1]; rfl
  | succ n ih =>
    obtain ⟨x, l1, e1, e2⟩ := Dec.of_bind h
    obtain ⟨xs, l2, e3, e4⟩ := Dec.of_bind e2
    have e4' : some (x :: xs, l2) = some (a, r) := e4
    simp only [Option.some.injEq, Prod.mk.injEq] at e4'
    rw [← e4'.1, List.length_cons, ih e3]

theorem decExtBits_lengths {ls : List Nat} {l r : List Bool} {bs : List (List Bool)} (h : decExtBits ls l = some (bs, r)) : bs.map List.length = ls := by
  induction ls generalizing l r bs with
  | nil =>
    have h' : some (([] : List (List Bool)), l) = some (bs, r) := h
    simp only [Option.some.injEq, Prod.mk.injEq] at h'
    rw [← h'.1]; rfl
  | cons n ls ih =>
    obtain ⟨x, l1, e1, e2⟩ := Dec.of_bind h
    obtain ⟨xs, l2, e3, e4⟩ := Dec.of_bind e2
    have e4' : some (x :: xs, l2) = some (bs, r) := e4
    simp only [Option.some.injEq, Prod.mk.injEq] at e4'
    rw [← e4'.1, List.map_cons, ih e3, decList_length e1]

theorem decExtBits_zero (n : Nat) (l r : List Bool) (bs : List (List Bool)) (h : decExtBits (List.replicate n 0) l = some (bs, r)) : l = r := by
  induction n generalizing l r bs with
  | zero =>
    have h' : some (([] : List (List Bool)), l) = some (bs, r) := h
    simp only [Option.some.injEq, Prod.mk.injEq] at h'
    exact h'.2
  | succ n ih =>
    rw [List.replicate_succ] at h
    obtain ⟨x, l1, e1, e2⟩ := Dec.of_bind h
    obtain ⟨xs, l2, e3, e4⟩ := Dec.of_bind e2
    have e4' : some (x :: xs, l2) = some (bs, r) := e4
    simp only [Option.some.injEq, Prod.mk.injEq] at e4'
    have e1' : some (([] : List Bool), l) = some (x, l1) := e1
    simp only [Option.some.injEq, Prod.mk.injEq] at e1'
    rw [e1'.2, ← e4'.2]
    exact ih _ _ _ e3

theorem readPayloads_zero (s : BR) : ∀ n, readPayloads (List.replicate n 0) s = (.ok (List.replicate n []), s)
  | 0 => rfl
  | n + 1 => by
    rw [List.replicate_succ, readPayloads]
    rw [Rd.bind_ok (show readList readByte8 0 s = (.ok [], s) from rfl), Rd.bind_ok (readPayloads_zero s n)]
    rfl

theorem follows_noPayload : Follows readExtensions decNoPayload := by
  intro s p hs x r hd
  obtain ⟨kb, l1, e1, e2⟩ := Dec.of_bind hd
  obtain ⟨hc, rfl, rfl⟩ := Dec.of_check e2
  rw [decide_eq_true_eq] at hc
  obtain ⟨key, l2, e3, e4⟩ := Dec.of_bind e1
  obtain ⟨ls, l3, e5, e6⟩ := Dec.of_bind e4
  obtain ⟨bs, l4, e7, e8⟩ := Dec.of_bind e6
  have e8' : some ((key, bs), l4) = some (kb, l1) := e8
  simp only [Option.some.injEq, Prod.mk.injEq] at e8'
  obtain ⟨rfl, rfl⟩ := e8'
  dsimp only at hc
  have hls := decExtBits_lengths e7
  rw [hc, List.map_replicate, List.length_nil] at hls
  subst hls
  obtain rfl := decExtBits_zero _ _ _ _ e7
  obtain ⟨s1, p1, a1, a2, a3, a4, a5⟩ := implements_u64.follows s p hs _ _ e3
  subst a4
  rw [← a3] at e5
  obtain ⟨s2, p2, b1, b2, b3, b4, b5⟩ := follows_extLengths key 64 0 s1 p1 a2 _ e5
  refine ⟨s2, p2, ?_, b2, by rw [b3, a3], by rw [b4, a3], by omega⟩
  unfold readExtensions
  rw [Rd.bind_ok a1, Rd.bind_ok b1, Rd.bind_ok (readPayloads_zero s2 64)]
  rfl

theorem follows_tone : Follows readToneMapping decToneMapping := by
  unfold readToneMapping decToneMapping
  refine Follows.bind implements_bool.follows (fun d => ?_)
  cases d
  · simp only [Bool.false_eq_true, if_false, decIf, Bool.not_false, if_true]
    intro s p hs t r hd
    obtain ⟨it, l1, e1, d1⟩ := Dec.of_bind hd
    obtain ⟨mn, l2, e2, d2⟩ := Dec.of_bind d1
    obtain ⟨rl, l3, e3, d3⟩ := Dec.of_bind d2
    obtain ⟨lb, l4, e4, d4⟩ := Dec.of_bind d3
    obtain ⟨hc, rfl, rfl⟩ := Dec.of_check d4
    rw [decide_eq_true_eq] at hc
    obtain ⟨h1, h2, h3, h4, h5⟩ := hc
    obtain ⟨s1, p1, a1, a2, a3, a4, a5⟩ := C08_readF16.follows s p hs _ _ e1
    rw [Rd.bind_ok a1, if_neg (not_le.mpr h1)]
    subst a4
    rw [← a3] at e2
    obtain ⟨s2, p2, b1, b2, b3, b4, b5⟩ := C08_readF16.follows s1 p1 a2 _ _ e2
    rw [Rd.bind_ok b1, if_neg (not_lt.mpr h2), if_neg (not_lt.mpr h3)]
    subst b4
    rw [← b3] at e3
    obtain ⟨s3, p3, c1, c2, c3, c4, c5⟩ := implements_bool.follows s2 p2 b2 _ _ e3
    rw [Rd.bind_ok c1]
    subst c4
    rw [← c3] at e4
    obtain ⟨s4, p4, g1, g2, g3, g4, g5⟩ := C08_readF16.follows s3 p3 c2 _ _ e4
    rw [Rd.bind_ok g1, if_neg, if_neg]
    · exact ⟨s4, p4, rfl, g2, by rw [g3, c3, b3, a3], by rw [g4, c3, b3, a3], by omega⟩
    · rintro ⟨_, h⟩; exact absurd h4 (not_le.mpr h)
    · rintro ⟨hr, h | h⟩
      · exact absurd h4 (not_le.mpr h)
      · exact absurd (h5 hr) (not_le.mpr h)
  · simp only [if_true, decIf, Bool.not_true, Bool.false_eq_true, if_false]
    exact Follows.pure _

theorem unpack_custom (u : Nat) (hu : u < 2 ^ 23) : unpackSigned u = if u % 2 = 0 then ((u / 2 : Nat) : Int) else -(((u + 1) / 2 : Nat) : Int) := by
  unfold unpackSigned
  split
  · simp only [i32]; omega
  · simp only [i32]; omega

theorem follows_custom : Follows readCustom decCustom := by
  unfold readCustom decCustom
  refine Follows.bind' (fun u => u < 2 ^ 23) (implements_u32 (fun k => match k with | 0 => (0, 19) | 1 => (524288, 19) | 2 => (1048576, 20) | 3 => (2097152, 21)) (by decide)).follows
    (fun _ _ _ h => decU32_lt h (by decide)) (fun u hu => ?_)
  rw [unpack_custom u hu]
  exact Follows.pure _

theorem Follows.check_both {α β : Type} {c c' : Bool} {a : α} {f : α → Rd β} {e : α → Dec β} (hc : c' = true → c = true) (h : c' = true → Follows (f a) (e a)) :
    Follows (Jxl.check c a >>= f) (decCheck c' a >>= e) := by
  refine Follows.check_left (fun h' => ?_)
  rw [hc h']
  exact h h'

theorem bind_assoc3 {α β γ : Type} (m : Rd α) (f : α → Rd β) (g : β → Rd γ) : (m >>= f) >>= g = m >>= fun a => f a >>= g := by
  funext s
  simp only [Rd.bind_eq]
  rcases m s with ⟨_ | _ | _, s'⟩ <;> rfl

theorem dec_bind_assoc {α β γ : Type} (m : Dec α) (f : α → Dec β) (g : β → Dec γ) : (m >>= f) >>= g = m >>= fun a => f a >>= g := by
  funext l
  simp only [Dec.bind_eq]
  rcases m l with _ | ⟨a, r⟩ <;> rfl

theorem dec_pure_bind {α β : Type} (a : α) (f : α → Dec β) : ((Pure.pure a : Dec α) >>= f) = f a := rfl
theorem rd_pure_bind {α β : Type} (a : α) (f : α → Rd β) : ((Pure.pure a : Rd α) >>= f) = f a := rfl

theorem follows_transfer : Follows (do let t ← readTransfer; check (validTransfer t) t) decTransfer := by
  unfold decTransfer
  unfold readTransfer
  rw [bind_assoc3]
  refine Follows.bind implements_bool.follows (fun g => ?_)
  cases g
  · simp only [Bool.false_eq_true, if_false]
    rw [bind_assoc3]
    refine Follows.bind implements_enum.follows (fun e => Follows.check _ (fun he => ?_))
    rw [decide_eq_true_eq] at he
    simp only [List.mem_cons, List.not_mem_nil, or_false] at he
    rcases he with rfl | rfl | rfl | rfl | rfl | rfl | rfl <;> rfl
  · simp only [if_true]
    refine Follows.bind (follows_bits 24 (by decide)) (fun v => Follows.check _ (fun hv => ?_))
    rw [decide_eq_true_eq] at hv
    unfold validTransfer
    rw [if_pos hv]

theorem follows_tfIntent : Follows readTfIntent (do
    let tf ← decTransfer
    let ri ← decEnum
    let ri ← decCheck (decide (ri ≤ 3)) ri
    Pure.pure (tf, ri)) := by
  unfold readTfIntent
  rw [← bind_assoc3]
  refine Follows.bind follows_transfer (fun tf => ?_)
  refine Follows.bind implements_enum.follows (fun ri => ?_)
  refine Follows.check_both (fun h => h) (fun _ => Follows.pure _)

theorem follows_colour : Follows readColourEncoding decColourEncoding := by
  unfold readColourEncoding decColourEncoding
  refine Follows.bind implements_bool.follows (fun ad => ?_)
  refine Follows.bind (Follows.if rfl rfl (fun _ => implements_bool.follows)) (fun icc => ?_)
  refine Follows.bind (Follows.if rfl rfl (fun _ => implements_enum.follows)) (fun space => ?_)
  refine Follows.check_both (fun h => by rw [decide_eq_true_eq] at h ⊢; exact h.1) (fun hsp => ?_)
  rw [decide_eq_true_eq] at hsp
  dsimp only
  have hne : (!ad && !icc && space != 2) = (!ad && !icc) := by
    cases ad <;> cases icc <;> simp
    intro h2; exact absurd (hsp.2 h2) (by decide)
  refine Follows.bind (Follows.if hne rfl (fun _ => implements_enum.follows)) (fun wp => ?_)
  refine Follows.check_both (fun h => ?_) (fun _ => ?_)
  · rw [decide_eq_true_eq] at h
    simp only [List.mem_cons, List.not_mem_nil, or_false] at h
    rcases h with rfl | rfl | rfl | rfl <;> rfl
  refine Follows.bind (Follows.if (beq_decide _ _) rfl (fun _ => Follows.list follows_custom 2)) (fun white => ?_)
  refine Follows.bind (Follows.if ?_ rfl (fun _ => implements_enum.follows)) (fun pr => ?_)
  · rw [hne]
    congr 1
    simp only [bne, beq_decide, decide_not]
  refine Follows.check_both (fun h => ?_) (fun _ => ?_)
  · rw [decide_eq_true_eq] at h
    simp only [List.mem_cons, List.not_mem_nil, or_false] at h
    rcases h with rfl | rfl | rfl | rfl <;> rfl
  refine Follows.bind (Follows.if (beq_decide _ _) rfl (fun _ => Follows.list follows_custom 6)) (fun prim => ?_)
  cases hdesc : (!ad && !icc)
  · simp only [readIf, decIf, Bool.false_eq_true, if_false]
    exact Follows.pure _
  · simp only [readIf, decIf, if_true]
    refine (Follows.bind follows_tfIntent (fun ti => Follows.pure _)).congr ?_
    simp only [dec_bind_assoc, dec_pure_bind]

theorem follows_opsin : Follows readOpsin decOpsin := by
  unfold readOpsin decOpsin
  refine Follows.bind implements_bool.follows (fun d => ?_)
  cases d
  · simp only [Bool.false_eq_true, if_false, decIf, Bool.not_false, if_true]
    exact Follows.bind (Follows.list C08_readF16.follows 16) (fun l => Follows.pure _)
  · simp only [if_true, decIf, Bool.not_true, Bool.false_eq_true, if_false]
    exact Follows.pure _

theorem follows_extraImage (level : Int) : Follows (readExtraImageFields level) (decExtraImageFields level) := by
  unfold readExtraImageFields decExtraImageFields
  refine Follows.bind (follows_bits 3 (by decide)) (fun o => ?_)
  refine Follows.bind implements_bool.follows (fun hasI => ?_)
  refine Follows.bind (Follows.if rfl rfl (fun _ => Follows.bind (follows_size level) (fun d => Follows.pure _))) (fun intr => ?_)
  refine Follows.bind implements_bool.follows (fun hasP => ?_)
  refine Follows.bind (Follows.if rfl rfl (fun _ => Follows.bind follows_preview (fun d => Follows.pure _))) (fun prev => ?_)
  refine Follows.bind implements_bool.follows (fun anim => Follows.check_pure (fun h => ?_))
  cases anim
  · exact Follows.pure _
  · cases h

theorem follows_imageFields : Follows readImageFields decImageFields := by
  unfold readImageFields decImageFields
  refine Follows.bind follows_bitDepth (fun b => ?_)
  refine Follows.bind implements_bool.follows (fun m16 => ?_)
  refine Follows.bind (implements_u32 (fun k => match k with | 0 => (0, 0) | 1 => (1, 0) | 2 => (2, 4) | 3 => (1, 12)) (by decide)).follows (fun n => ?_)
  refine Follows.bind (Follows.list follows_extraChannel n) (fun ecs => ?_)
  refine Follows.bind implements_bool.follows (fun xyb => ?_)
  exact Follows.bind follows_colour (fun ce => Follows.pure _)

theorem follows_weights {c c' : Bool} (hc : c = c') (n : Nat) : Follows (readWeights c n) (decWeights c' n) :=
  Follows.if hc rfl (fun _ => Follows.bind (Follows.list C08_readF16.follows n) (fun l => Follows.pure _))

theorem alphaPositions_eq (l : List ExtraChannel) : ∀ i, alphaPositions i l = (alphaChannels l).map (· + i) := by
  induction l with
  | nil => intro i; rfl
  | cons c cs ih =>
    intro i
    have hstep : alphaChannels (c :: cs) = (if c.ecType = 0 then [0] else []) ++ (alphaChannels cs).map (· + 1) := by
      unfold alphaChannels
      rw [List.length_cons, List.range_succ_eq_map, List.filter_cons, List.filter_map]
      simp only [List.getElem?_cons_zero, Option.map_some, Option.some.injEq]
      have hcomp : ((fun j => decide (Option.map (fun x => x.ecType) (c :: cs)[j]? = some 0)) ∘ Nat.succ) = fun j => decide (Option.map (fun x => x.ecType) cs[j]? = some 0) := by
        funext j
        simp
      rw [hcomp]
      split <;> simp_all
    rw [hstep, alphaPositions, ih (i + 1)]
    split
    · simp only [List.cons_append, List.nil_append, List.map_cons, List.map_map, Nat.zero_add]
      congr 1
      refine List.map_congr_left (fun x _ => ?_)
      simp only [Function.comp]; omega
    · simp only [List.nil_append, List.map_map]
      refine List.map_congr_left (fun x _ => ?_)
      simp only [Function.comp]; omega

theorem testBit_decide (m i : Nat) : m.testBit i = decide (m / 2 ^ i % 2 = 1) := Nat.testBit_eq_decide_div_mod_eq

theorem follows_header (level : Int) (hl : level = 5 ∨ level = 10) : Follows (readImageHeaderFields level) (decImageHeader level) := by
  unfold readImageHeaderFields decImageHeader
  refine Follows.bind (follows_bits 16 (by decide)) (fun magic => ?_)
  refine Follows.check_both (fun h => h) (fun _ => ?_)
  have hlv : (level == 5 || level == 10) = true := by
    rcases hl with rfl | rfl <;> rfl
  rw [hlv]
  refine Follows.bind (follows_size level) (fun size => ?_)
  refine Follows.bind implements_bool.follows (fun ad => ?_)
  refine Follows.bind (Follows.if rfl rfl (fun _ => implements_bool.follows)) (fun ef => ?_)
  refine Follows.bind (Follows.if rfl rfl (fun _ => follows_extraImage level)) (fun x => ?_)
  refine Follows.bind (Follows.if rfl rfl (fun _ => follows_imageFields)) (fun f => ?_)
  refine Follows.bind (Follows.if rfl rfl (fun _ => follows_tone)) (fun tone => ?_)
  refine Follows.bind (Follows.if rfl rfl (fun _ => follows_noPayload)) (fun ext => ?_)
  refine Follows.bind implements_bool.follows (fun dm => ?_)
  refine Follows.bind (Follows.if rfl rfl (fun _ => follows_opsin)) (fun opsin => ?_)
  refine Follows.bind (Follows.if rfl rfl (fun _ => follows_bits 3 (by decide))) (fun cw => ?_)
  refine Follows.bind (follows_weights (by rw [testBit_decide, pow_zero, Nat.div_one]) 15) (fun up2 => ?_)
  refine Follows.bind (follows_weights (by rw [testBit_decide, pow_one]) 55) (fun up4 => ?_)
  refine Follows.bind (follows_weights (testBit_decide cw 2) 210) (fun up8 => ?_)
  have h1 : alphaPositions 0 f.2.2.1 = alphaChannels f.2.2.1 := by
    rw [alphaPositions_eq]
    simp
  rw [h1]
  exact Follows.pure _

end Jxl
