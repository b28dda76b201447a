import Verif.Spec.CodeCoding
import Verif.Props.BitReader
import Mathlib.Tactic.NormNum
import Mathlib.Tactic.Ring

/-!
# Reading descriptions of codes
-/
namespace Jxl
open Spec

/-! ## Distributions -/

theorem logCount_has (c : Nat) (hc : c ≤ 13) : distPrefixTable.Has (logCountWord c) c := by
  have : ∀ c : Fin 14, (logCountWord c).length ≤ 7 ∧ ∀ v : Fin 128, logCountWord c <+: bitsOf 7 v → distPrefixTable.table[v.val]? = some (((c.val : Nat) : Int), (logCountWord c).length) := by
    decide +kernel
  obtain ⟨h1, h2⟩ := this ⟨c, by omega⟩
  exact ⟨h1, by decide, fun v hv hp => h2 ⟨v, hv⟩ hp⟩

theorem logCount_read (c : Nat) (hc : c ≤ 13) : ReadsPad 15 (getVLC distPrefixTable) (logCountWord c) c :=
  getVLC_has (logCount_has c hc) 15 (by show 7 ≤ _; omega)

/-- The log counts of items, as the decoder stores them. -/
def itemLogs : List HistItem → List Int
  | [] => []
  | .count log _ :: l => (log : Int) :: itemLogs l
  | .run n :: l => 13 :: (List.replicate (n + 3) 0 ++ itemLogs l)

/-- The runs of items, as the decoder stores them. -/
def itemRuns : List HistItem → List Nat
  | [] => []
  | .count _ _ :: l => 0 :: itemRuns l
  | .run n :: l => (n + 5) :: (List.replicate (n + 3) 0 ++ itemRuns l)

theorem itemLogs_length (shift : Nat) (l : List HistItem) : ∀ prev, (itemLogs l).length = (histValues shift l prev).length := by
  induction l with
  | nil => intro _; rfl
  | cons i l ih =>
    intro prev
    cases i with
    | count a b => simp only [itemLogs, histValues, List.length_cons]; rw [ih]
    | run n => simp only [itemLogs, histValues, List.length_cons, List.length_append, List.length_replicate]; rw [ih prev]; omega

theorem itemRuns_length (l : List HistItem) : (itemRuns l).length = (itemLogs l).length := by
  induction l with
  | nil => rfl
  | cons i l ih =>
    cases i with
    | count a b => simp only [itemLogs, itemRuns, List.length_cons]; rw [ih]
    | run n => simp only [itemLogs, itemRuns, List.length_cons, List.length_append, List.length_replicate]; rw [ih]

theorem set_at_end {α : Type} (d : List α) (x v : α) (k : Nat) : (d ++ List.replicate (k + 1) x).set d.length v = d ++ v :: List.replicate k x := by
  rw [List.set_append, if_neg (by omega), Nat.sub_self]
  rfl

theorem logCountLoop_items (A : Nat) (P : Int → Int → Prop) : ∀ (items : List HistItem) (fuel i k : Nat) (dl : List Int) (ds : List Nat) (ol op : Int),
    (∀ a b, HistItem.count a b ∈ items → a ≤ 12 ∧ ∀ ol op : Int, ∀ i : Nat, P ol op → P (if ol < (a : Int) then (a : Int) else ol) (if ol < (a : Int) then (i : Int) else op)) →
    (∀ n, HistItem.run n ∈ items → n < 256) → P ol op → i = dl.length → i = ds.length → A = i + (itemLogs items).length + k →
    ∃ ol' op', P ol' op' ∧ ∀ (rest : List Bool) (r : LogCounts),
      ReadsPad 15 (logCountLoop A fuel ((i + (itemLogs items).length : Nat) : Int) ⟨dl ++ itemLogs items ++ List.replicate k 0, ds ++ itemRuns items ++ List.replicate k 0, ol', op'⟩) rest r →
      ReadsPad 15 (logCountLoop A (items.length + fuel) (i : Int) ⟨dl ++ List.replicate ((itemLogs items).length + k) 0, ds ++ List.replicate ((itemLogs items).length + k) 0, ol, op⟩)
        (items.flatMap HistItem.word ++ rest) r := by
  intro items
  induction items with
  | nil =>
    intro fuel i k dl ds ol op _ _ hP _ _ _
    refine ⟨ol, op, hP, fun rest r h => ?_⟩
    simpa [itemLogs, itemRuns] using h
  | cons it items ih =>
    intro fuel i k dl ds ol op hc hr hP hdl hds hA
    cases it with
    | count a b =>
      obtain ⟨ha, hstep⟩ := hc a b (by simp)
      simp only [itemLogs, List.length_cons] at hA ⊢
      obtain ⟨ol', op', hP', hrec⟩ := ih fuel (i + 1) k (dl ++ [(a : Int)]) (ds ++ [0]) _ _ (fun a b h => hc a b (by simp [h])) (fun n h => hr n (by simp [h]))
        (hstep ol op i hP) (by simp [hdl]) (by simp [hds]) (by omega)
      refine ⟨ol', op', hP', fun rest r h => ?_⟩
      rw [show items.length + 1 + fuel = (items.length + fuel) + 1 by omega]
      simp only [logCountLoop]
      rw [if_pos (by omega), List.flatMap_cons, List.append_assoc]
      refine ReadsPad.bind (logCount_read a (by omega)) ?_
      have e1 : setAt (dl ++ List.replicate ((itemLogs items).length + 1 + k) (0 : Int)) (i : Int) (a : Int) = .ok (dl ++ (a : Int) :: List.replicate ((itemLogs items).length + k) 0) := by
        rw [setAt_nat' _ _ _ (by simp; omega), show (itemLogs items).length + 1 + k = ((itemLogs items).length + k) + 1 by omega, hdl, set_at_end]
      refine ReadsPad.bind_lift e1 ?_
      rw [if_neg (by omega)]
      have h2 := hrec rest r (by
        convert h using 2
        · push_cast; omega
        · simp [itemRuns])
      convert h2 using 2
      · simp
      · simp only [List.append_assoc, List.singleton_append, LogCounts.mk.injEq, List.append_cancel_left_eq, true_and, and_true]
        rw [show (itemLogs items).length + 1 + k = ((itemLogs items).length + k) + 1 by omega]; rfl
    | run n =>
      have hn := hr n (by simp)
      simp only [itemLogs, List.length_cons, List.length_append, List.length_replicate] at hA ⊢
      obtain ⟨ol', op', hP', hrec⟩ := ih fuel (i + (n + 4)) k (dl ++ (13 : Int) :: List.replicate (n + 3) 0) (ds ++ (n + 5) :: List.replicate (n + 3) 0) ol op (fun a b h => hc a b (by simp [h])) (fun n h => hr n (by simp [h]))
        hP (by simp; omega) (by simp; omega) (by omega)
      refine ⟨ol', op', hP', fun rest r h => ?_⟩
      rw [show items.length + 1 + fuel = (items.length + fuel) + 1 by omega]
      simp only [logCountLoop]
      rw [if_pos (by omega), List.flatMap_cons, HistItem.word, List.append_assoc, List.append_assoc]
      refine ReadsPad.bind (logCount_read 13 (by omega)) ?_
      have e1 : setAt (dl ++ List.replicate (n + 3 + (itemLogs items).length + 1 + k) (0 : Int)) (i : Int) ((13 : Nat) : Int) = .ok (dl ++ (13 : Int) :: List.replicate ((n + 3) + ((itemLogs items).length + k)) 0) := by
        rw [setAt_nat' _ _ _ (by simp; omega), show n + 3 + (itemLogs items).length + 1 + k = ((n + 3) + ((itemLogs items).length + k)) + 1 by omega, hdl, set_at_end]; rfl
      refine ReadsPad.bind_lift e1 ?_
      rw [if_pos (by rfl)]
      refine ReadsPad.bind ((C06_u8_roundtrip n hn).pad 15) ?_
      have e2 : setAt (ds ++ List.replicate (n + 3 + (itemLogs items).length + 1 + k) (0 : Nat)) (i : Int) (n + 5) = .ok (ds ++ (n + 5) :: List.replicate ((n + 3) + ((itemLogs items).length + k)) 0) := by
        rw [setAt_nat' _ _ _ (by simp; omega), show n + 3 + (itemLogs items).length + 1 + k = ((n + 3) + ((itemLogs items).length + k)) + 1 by omega, hds, set_at_end]
      refine ReadsPad.bind_lift e2 ?_
      have h2 := hrec rest r (by
        convert h using 2
        · push_cast; omega
        · simp [itemRuns])
      convert h2 using 2
      · push_cast; omega
      · simp only [List.append_assoc, List.cons_append, LogCounts.mk.injEq, List.append_cancel_left_eq, true_and, and_true, List.cons.injEq]
        rw [← List.replicate_append_replicate]
        exact ⟨rfl, by rw [← List.replicate_append_replicate]⟩

theorem freqBits_eq (shift log : Nat) (h2 : 2 ≤ log) (hl : log ≤ 12) : freqBits (shift : Int) (log : Int) = (precision shift log : Nat) := by
  unfold freqBits precision
  dsimp only
  have e : ((13 : Int) - log) / 2 = (((13 - log) / 2 : Nat) : Int) := by omega
  rw [e]
  generalize (13 - log) / 2 = m
  split <;> split <;> omega

/-- The rest of a run. -/
theorem freqLoop_run (shift : Nat) (om : Int) (rest : List (Int × Nat)) : ∀ (k i : Nat) (fs : List Int) (total p : Int) (bits : List Bool) (r : FreqSt),
    ReadsPad 15 (freqLoop shift om rest (i + k) ⟨List.replicate k p ++ fs, total + k * p, 0, p⟩) bits r →
    ReadsPad 15 (freqLoop shift om (List.replicate k (0, 0) ++ rest) i ⟨fs, total, k, p⟩) bits r := by
  intro k
  induction k with
  | zero => intro i fs total p bits r h; simpa using h
  | succ k ih =>
    intro i fs total p bits r h
    rw [List.replicate_succ, List.cons_append, freqLoop]
    have e : freqStep shift om i 0 0 ⟨fs, total, k + 1, p⟩ = Pure.pure ⟨p :: fs, total + p, k, p⟩ := by
      unfold freqStep
      simp
    rw [e]
    refine ReadsPad.bind (e1 := []) (ReadsPad.pure 15 _) (ih (i + 1) _ _ _ _ _ ?_)
    convert h using 2
    · omega
    · rw [List.replicate_succ']; simp; ring

theorem freqLoop_items (shift : Nat) (om : Int) (rest : List (Int × Nat)) : ∀ (items : List HistItem) (i prev : Nat) (fs : List Int) (total p : Int),
    (∀ a b, HistItem.count a b ∈ items → a ≤ 12 ∧ b < 2 ^ precision shift a) → (∀ j : Nat, i ≤ j → j < i + (itemLogs items).length → (j : Int) ≠ om) → fs.headD 0 = (prev : Int) →
    ∃ p', ∀ (bits : List Bool) (r : FreqSt),
    ReadsPad 15 (freqLoop shift om rest (i + (itemLogs items).length) ⟨((histValues shift items prev).map Int.ofNat).reverse ++ fs, total + (histValues shift items prev).sum, 0, p'⟩) bits r →
    ReadsPad 15 (freqLoop shift om ((itemLogs items).zip (itemRuns items) ++ rest) i ⟨fs, total, 0, p⟩) (items.flatMap (HistItem.extra shift) ++ bits) r := by
  intro items
  induction items with
  | nil =>
    intro i prev fs total p _ _ _
    refine ⟨p, fun bits r h => ?_⟩
    simpa [itemLogs, itemRuns, histValues] using h
  | cons it items ih =>
    intro i prev fs total p hc ho hhead
    cases it with
    | count a b =>
      obtain ⟨ha, hb⟩ := hc a b (by simp)
      have hne : (i : Int) ≠ om := ho i (le_refl _) (by simp [itemLogs])
      have step : ReadsPad 15 (freqStep shift om i (a : Int) 0 ⟨fs, total, 0, p⟩) (HistItem.extra shift (.count a b)) ⟨(countValue shift a b : Int) :: fs, total + (countValue shift a b : Nat), 0, p⟩ := by
        unfold freqStep HistItem.extra countValue
        simp only [ne_eq, not_true_eq_false, if_false]
        by_cases h0 : a = 0
        · subst h0
          rw [if_pos (show (i : Int) = om ∨ ((0 : Nat) : Int) = 0 from Or.inr rfl), if_neg (by omega), if_pos rfl]
          simpa using ReadsPad.pure 15 _
        · rw [if_neg (by omega)]
          by_cases h1 : a = 1
          · subst h1
            rw [if_pos (by rfl), if_neg (by omega), if_neg (by omega), if_pos rfl]
            exact ReadsPad.pure 15 _
          · rw [if_neg (by omega), if_pos (by omega), if_neg h0, if_neg h1, freqBits_eq shift a (by omega) ha]
            have hp : precision shift a ≤ a - 1 := Nat.min_le_left _ _
            rw [← List.append_nil (bitsOf _ _)]
            rw [Int.toNat_natCast]
            refine ReadsPad.bind ((reads_bitsOf _ b (by omega) hb).pad 15) ?_
            have e1 : ((a : Int) - 1).toNat = a - 1 := by omega
            have e2 : ((a : Int) - 1 - (precision shift a : Nat)).toNat = a - 1 - precision shift a := by omega
            rw [e1, e2]
            push_cast
            exact ReadsPad.pure 15 _
      obtain ⟨p', hrec⟩ := ih (i + 1) (countValue shift a b) ((countValue shift a b : Int) :: fs) (total + (countValue shift a b : Nat)) p (fun a b h => hc a b (by simp [h]))
        (fun j h1 h2 => ho j (by omega) (by simp [itemLogs]; omega)) (by simp)
      refine ⟨p', fun bits r h => ?_⟩
      simp only [itemLogs, itemRuns, List.zip_cons_cons, List.cons_append, freqLoop, List.flatMap_cons, List.append_assoc]
      refine ReadsPad.bind step (hrec _ _ ?_)
      convert h using 2
      · simp [itemLogs]; omega
      · simp [histValues]; ring
    | run n =>
      have hhead' : (List.replicate (n + 3) (prev : Int) ++ (prev : Int) :: fs).headD 0 = (prev : Int) := by
        rw [show n + 3 = (n + 2) + 1 by omega, List.replicate_succ]; rfl
      obtain ⟨p', hrec⟩ := ih (i + 1 + (n + 3)) prev (List.replicate (n + 3) (prev : Int) ++ (prev : Int) :: fs) (total + prev + ((n + 3 : Nat) : Int) * prev) prev (fun a b h => hc a b (by simp [h]))
        (fun j h1 h2 => ho j (by omega) (by simp [itemLogs]; omega)) hhead'
      refine ⟨p', fun bits r h => ?_⟩
      simp only [itemLogs, itemRuns, List.zip_cons_cons, List.cons_append, freqLoop, List.flatMap_cons, HistItem.extra, List.nil_append]
      have e : freqStep shift om i 13 (n + 5) ⟨fs, total, 0, p⟩ = Pure.pure ⟨(prev : Int) :: fs, total + prev, n + 3, prev⟩ := by
        unfold freqStep
        simp only [ne_eq, Nat.succ_ne_zero, not_false_eq_true, if_true, hhead, Nat.add_one_sub_one]
      rw [e]
      refine ReadsPad.bind (e1 := []) (ReadsPad.pure 15 _) ?_
      rw [List.zip_append (by simp), List.append_assoc]
      have hz : (List.replicate (n + 3) (0 : Int)).zip (List.replicate (n + 3) (0 : Nat)) = List.replicate (n + 3) (0, 0) := by simp
      rw [hz]
      refine freqLoop_run shift om _ (n + 3) (i + 1) _ _ _ _ _ ?_
      refine hrec _ _ ?_
      · convert h using 2
        · simp [itemLogs]; omega
        · have e4 : (List.replicate (n + 4) (prev : Int)) = List.replicate (n + 3) (prev : Int) ++ [(prev : Int)] := by rw [← List.replicate_succ']
          have e5 : (histValues shift (.run n :: items) prev).sum = (n + 4) * prev + (histValues shift items prev).sum := by
            rw [histValues, List.sum_append]; simp
          have e6 : ((histValues shift (.run n :: items) prev).map Int.ofNat).reverse ++ fs =
              ((histValues shift items prev).map Int.ofNat).reverse ++ (List.replicate (n + 3) (prev : Int) ++ (prev : Int) :: fs) := by
            rw [histValues, List.map_append, List.reverse_append, List.append_assoc, List.map_replicate, List.reverse_replicate]
            show _ ++ (List.replicate (n + 4) (prev : Int) ++ fs) = _
            rw [e4, List.append_assoc]; rfl
          rw [e5, e6]
          congr 1
          push_cast
          ring

theorem reads_shiftLen : ∀ n l, l ≤ n → Reads (readShiftLen n) (List.replicate l true ++ if l < n then [false] else []) l := by
  intro n
  induction n with
  | zero =>
    intro l hl
    obtain rfl : l = 0 := by omega
    exact Reads.pure 0
  | succ n ih =>
    intro l hl
    unfold readShiftLen
    cases l with
    | zero =>
      rw [if_pos (by omega)]
      refine Reads.bind (e1 := [false]) (e2 := []) (reads_bool false) ?_
      exact Reads.pure 0
    | succ l =>
      rw [List.replicate_succ, List.cons_append]
      refine Reads.bind (e1 := [true]) (reads_bool true) ?_
      rw [if_pos rfl]
      have := Reads.bind (ih l (by omega)) (e2 := []) (f := fun r => Pure.pure (r + 1)) (Reads.pure (l + 1))
      rw [List.append_nil] at this
      refine this.congr ?_ rfl
      simp

theorem shift_value (shift : Nat) (h : shift ≤ 13) : Nat.log2 (shift + 1) ≤ 3 ∧ shift + 1 - 2 ^ Nat.log2 (shift + 1) < 2 ^ Nat.log2 (shift + 1) ∧
    ((shift + 1 - 2 ^ Nat.log2 (shift + 1)) ||| 1 <<< Nat.log2 (shift + 1)) - 1 = shift := by
  have : ∀ s : Fin 14, Nat.log2 (s.val + 1) ≤ 3 ∧ s.val + 1 - 2 ^ Nat.log2 (s.val + 1) < 2 ^ Nat.log2 (s.val + 1) ∧
    ((s.val + 1 - 2 ^ Nat.log2 (s.val + 1)) ||| 1 <<< Nat.log2 (s.val + 1)) - 1 = s.val := by decide +kernel
  exact this ⟨shift, by omega⟩

theorem logCountLoop_end (A fuel : Nat) (i : Int) (st : LogCounts) (h : ¬ i < A) : ReadsPad 15 (logCountLoop A fuel i st) [] st := by
  cases fuel with
  | zero => exact ReadsPad.pure 15 st
  | succ f =>
    rw [logCountLoop, if_neg h]
    exact ReadsPad.pure 15 st

theorem items_le {items : List HistItem} {shift : Nat} : ∀ prev, items.length ≤ (histValues shift items prev).length := by
  induction items with
  | nil => intro _; simp [histValues]
  | cons i l ih =>
    intro prev
    cases i with
    | count a b => simp only [histValues, List.length_cons]; have := ih (countValue shift a b); omega
    | run n => simp only [histValues, List.length_cons, List.length_append, List.length_replicate]; have := ih prev; omega

theorem readLogCountFreqs_ok (L shift : Nat) (before : List HistItem) (log : Nat) (after : List HistItem) (h : (Hist.counts shift before log after).Valid L) :
    ReadsPad 15 (readLogCountFreqs L) (shiftBits shift ++ encU8 ((histValues shift before 0).length + 1 + (histValues shift after 0).length - 3) ++
      before.flatMap HistItem.word ++ logCountWord log ++ after.flatMap HistItem.word ++ before.flatMap (HistItem.extra shift) ++ after.flatMap (HistItem.extra shift))
      ((Hist.counts shift before log after).freqs.map Int.ofNat) := by
  obtain ⟨h1, h2, h3, h4, h5, h6, h7, h8⟩ := h
  obtain ⟨s1, s2, s3⟩ := shift_value shift h1
  have lb := itemLogs_length shift before 0
  have la := itemLogs_length shift after 0
  have ib : before.length ≤ (histValues shift before 0).length := items_le 0
  have ia : after.length ≤ (histValues shift after 0).length := items_le 0
  generalize hA : (histValues shift before 0).length + 1 + (histValues shift after 0).length = A at h7 h8
  unfold readLogCountFreqs shiftBits
  simp only [List.append_assoc]
  rw [← List.append_assoc (List.replicate _ _)]
  refine ReadsPad.bind ((reads_shiftLen 3 _ s1).pad 15) ?_
  refine ReadsPad.bind ((reads_bitsOf _ _ (by omega) s2).pad 15) ?_
  rw [s3, if_neg (by omega)]
  refine ReadsPad.bind ((C06_u8_roundtrip _ (by omega)).pad 15) ?_
  rw [show 3 + (A - 3) = A by omega, if_neg (by omega)]
  -- the log counts
  have hb1 : ∀ a b, HistItem.count a b ∈ before → a < log ∧ b < 2 ^ precision shift a := fun a b hm => h3 _ hm
  have ha1 : ∀ a b, HistItem.count a b ∈ after → a < log + 1 ∧ b < 2 ^ precision shift a := fun a b hm => h4 _ hm
  obtain ⟨ol1, op1, g1, k1⟩ := logCountLoop_items A (fun ol _ => ol < (log : Int)) before (A - before.length) 0 (A - (itemLogs before).length) [] [] (-1) (-1)
    (fun a b hm => ⟨by have := (hb1 a b hm).1; omega, fun ol op i hp => by have := (hb1 a b hm).1; split <;> omega⟩) (fun n hm => h3 _ hm) (by omega) rfl rfl (by omega)
  obtain ⟨ol2, op2, g2, k2⟩ := logCountLoop_items A (fun ol op => ol = (log : Int) ∧ op = ((histValues shift before 0).length : Nat)) after (A - before.length - 1 - after.length)
    ((itemLogs before).length + 1) 0 (itemLogs before ++ [(log : Int)]) (itemRuns before ++ [0]) log ((histValues shift before 0).length : Nat)
    (fun a b hm => ⟨by have := (ha1 a b hm).1; omega, fun ol op i hp => by have := (ha1 a b hm).1; rw [if_neg (by omega), if_neg (by omega)]; exact hp⟩)
    (fun n hm => h4 _ hm) ⟨rfl, rfl⟩ (by simp) (by simp [itemRuns_length]) (by omega)
  obtain ⟨rfl, rfl⟩ := g2
  have hloop : ReadsPad 15 (logCountLoop A A 0 ⟨List.replicate A 0, List.replicate A 0, -1, -1⟩)
      (before.flatMap HistItem.word ++ (logCountWord log ++ after.flatMap HistItem.word))
      ⟨itemLogs before ++ (log : Int) :: itemLogs after, itemRuns before ++ 0 :: itemRuns after, log, ((histValues shift before 0).length : Nat)⟩ := by
    have q1 := k1 (logCountWord log ++ after.flatMap HistItem.word)
      ⟨itemLogs before ++ (log : Int) :: itemLogs after, itemRuns before ++ 0 :: itemRuns after, log, ((histValues shift before 0).length : Nat)⟩ ?_
    · convert q1 using 2
      · omega
      · simp
      · rw [show (itemLogs before).length + (A - (itemLogs before).length) = A by omega]; rfl
    · rw [show A - before.length = (A - before.length - 1) + 1 by omega, logCountLoop, if_pos (by simp; omega)]
      refine ReadsPad.bind (logCount_read log (by omega)) ?_
      have e1 : setAt ([] ++ itemLogs before ++ List.replicate (A - (itemLogs before).length) (0 : Int)) ((0 + (itemLogs before).length : Nat) : Int) (log : Int) =
          .ok (itemLogs before ++ (log : Int) :: List.replicate (itemLogs after).length 0) := by
        rw [setAt_nat' _ _ _ (by simp; omega), Nat.zero_add, show A - (itemLogs before).length = (itemLogs after).length + 1 by omega, List.nil_append, set_at_end]
      refine ReadsPad.bind_lift e1 ?_
      rw [if_neg (by omega)]
      dsimp only
      rw [if_pos g1, if_pos g1]
      have q2 := k2 [] ⟨itemLogs before ++ (log : Int) :: itemLogs after, itemRuns before ++ 0 :: itemRuns after, log, ((histValues shift before 0).length : Nat)⟩ ?_
      · rw [List.append_nil] at q2
        convert q2 using 2
        · omega
        · push_cast; omega
        · rw [show A - (itemLogs before).length = (itemLogs after).length + 1 by omega]
          simp [lb, List.replicate_succ]
      · have q3 := logCountLoop_end A (A - before.length - 1 - after.length) (((itemLogs before).length + 1 + (itemLogs after).length : Nat) : Int)
          ⟨itemLogs before ++ (log : Int) :: itemLogs after, itemRuns before ++ 0 :: itemRuns after, log, ((histValues shift before 0).length : Nat)⟩ (by omega)
        convert q3 using 2
        simp
  have hassoc : before.flatMap HistItem.word ++ (logCountWord log ++ (after.flatMap HistItem.word ++ (before.flatMap (HistItem.extra shift) ++ after.flatMap (HistItem.extra shift)))) =
      (before.flatMap HistItem.word ++ (logCountWord log ++ after.flatMap HistItem.word)) ++ (before.flatMap (HistItem.extra shift) ++ after.flatMap (HistItem.extra shift)) := by simp
  rw [hassoc]
  refine ReadsPad.bind hloop ?_
  -- the omitted frequency
  have hom : omitInvalid A ⟨itemLogs before ++ (log : Int) :: itemLogs after, itemRuns before ++ 0 :: itemRuns after, log, ((histValues shift before 0).length : Nat)⟩ = false := by
    unfold omitInvalid
    simp only [Bool.or_eq_false_iff, Bool.and_eq_false_imp, decide_eq_false_iff_not, beq_eq_false_iff_ne]
    refine ⟨by omega, fun hlt => ?_⟩
    have e : ((((histValues shift before 0).length : Nat) : Int) + 1).toNat = (itemLogs before).length + 1 := by omega
    rw [e, List.getD_eq_getElem?_getD, List.getElem?_append_right (by omega), show (itemLogs before).length + 1 - (itemLogs before).length = 1 by omega]
    cases after with
    | nil => simp [itemLogs]
    | cons i l =>
      cases i with
      | run n => exact absurd rfl (h5 n l)
      | count a b =>
        have := (ha1 a b (by simp)).1
        simp only [itemLogs, List.getElem?_cons_succ, List.getElem?_cons_zero, Option.getD_some]
        omega
  rw [hom, if_neg (by decide)]
  -- the frequencies
  obtain ⟨p1, f1⟩ := freqLoop_items shift (((histValues shift before 0).length : Nat) : Int) (((log : Int), 0) :: (itemLogs after).zip (itemRuns after)) before 0 0 [] 0 0
    (fun a b hm => ⟨by have := (hb1 a b hm).1; omega, (hb1 a b hm).2⟩) (fun j _ hj => by omega) rfl
  obtain ⟨p2, f2⟩ := freqLoop_items shift (((histValues shift before 0).length : Nat) : Int) [] after (0 + (itemLogs before).length + 1) 0
    (0 :: (((histValues shift before 0).map Int.ofNat).reverse ++ [])) (0 + (histValues shift before 0).sum) p1
    (fun a b hm => ⟨by have := (ha1 a b hm).1; omega, (ha1 a b hm).2⟩) (fun j hj _ => by omega) rfl
  have hfreq : ReadsPad 15 (freqLoop shift (((histValues shift before 0).length : Nat) : Int)
      ((itemLogs before ++ (log : Int) :: itemLogs after).zip (itemRuns before ++ 0 :: itemRuns after)) 0 ⟨[], 0, 0, 0⟩)
      (before.flatMap (HistItem.extra shift) ++ after.flatMap (HistItem.extra shift))
      ⟨((histValues shift after 0).map Int.ofNat).reverse ++ 0 :: ((histValues shift before 0).map Int.ofNat).reverse, (othersSum shift before after : Nat), 0, p2⟩ := by
    rw [List.zip_append (itemRuns_length before).symm, List.zip_cons_cons]
    refine f1 _ _ ?_
    rw [freqLoop]
    have e : freqStep shift (((histValues shift before 0).length : Nat) : Int) (0 + (itemLogs before).length) (log : Int) 0
        ⟨((histValues shift before 0).map Int.ofNat).reverse ++ [], 0 + (histValues shift before 0).sum, 0, p1⟩ =
        Pure.pure ⟨0 :: (((histValues shift before 0).map Int.ofNat).reverse ++ []), 0 + (histValues shift before 0).sum, 0, p1⟩ := by
      unfold freqStep
      simp [lb]
    rw [e]
    refine ReadsPad.bind (e1 := []) (ReadsPad.pure 15 _) ?_
    have := f2 [] _ (ReadsPad.pure 15 _)
    rw [List.append_nil ((itemLogs after).zip _), List.append_nil (after.flatMap _)] at this
    refine this.congr rfl ?_
    simp [othersSum]
  rw [← List.append_nil (before.flatMap (HistItem.extra shift) ++ after.flatMap (HistItem.extra shift))]
  refine ReadsPad.bind hfreq (ReadsPad.lift 15 ?_)
  dsimp only
  rw [List.reverse_append, List.reverse_cons, List.reverse_reverse, List.reverse_reverse, List.append_assoc, setAt_nat' _ _ _ (by simp)]
  have hlen : (histValues shift before 0).length = ((histValues shift before 0).map Int.ofNat).length := by simp
  rw [hlen, List.set_append, if_neg (by omega), Nat.sub_self]
  simp only [Hist.freqs, List.map_append, List.map_cons, List.singleton_append, List.set_cons_zero]
  rw [show ((4096 : Int) - (othersSum shift before after : Nat)) = Int.ofNat (4096 - othersSum shift before after) by show _ = ((_ : Nat) : Int); omega]

theorem sum_others (shift : Nat) (before after : List HistItem) (h : othersSum shift before after ≤ 4096) :
    (histValues shift before 0 ++ (4096 - othersSum shift before after) :: histValues shift after 0).sum = 4096 := by
  rw [List.sum_append, List.sum_cons]
  unfold othersSum at h ⊢
  omega

theorem getD_set_replicate (n x v s : Nat) (hx : x < n) : ((List.replicate n 0).set x v).getD s 0 = if s = x then v else 0 := by
  rw [List.getD_eq_getElem?_getD, List.getElem?_set]
  by_cases h : x = s
  · subst h
    simp [hx]
  · rw [if_neg h, if_neg (fun e => h e.symm), List.getElem?_replicate]
    split <;> rfl

theorem sum_set_zeros (n x v : Nat) (hx : x < n) : ((List.replicate n 0).set x v).sum = v := by
  induction n generalizing x with
  | zero => omega
  | succ n ih =>
    cases x with
    | zero => simp [List.replicate_succ]
    | succ x => simp only [List.replicate_succ, List.set_cons_succ, List.sum_cons, Nat.zero_add]; exact ih x (by omega)

theorem sum_set_two (n a b u v : Nat) (ha : a < n) (hb : b < n) (hab : a ≠ b) : (((List.replicate n 0).set a u).set b v).sum = u + v := by
  induction n generalizing a b with
  | zero => omega
  | succ n ih =>
    cases a with
    | zero =>
      cases b with
      | zero => omega
      | succ b => simp only [List.replicate_succ, List.set_cons_zero, List.set_cons_succ, List.sum_cons]; rw [sum_set_zeros n b v (by omega)]
    | succ a =>
      cases b with
      | zero => simp only [List.replicate_succ, List.set_cons_zero, List.set_cons_succ, List.sum_cons]; rw [sum_set_zeros n a u (by omega)]; omega
      | succ b => simp only [List.replicate_succ, List.set_cons_succ, List.sum_cons, Nat.zero_add]; exact ih a b (by omega) (by omega) (by omega)

theorem sum_flat (n : Nat) (hn : 1 ≤ n) : ((List.range n).map fun i => 4096 / n + if i < 4096 % n then 1 else 0).sum = 4096 := by
  have key : ∀ q m k, ((List.range k).map fun i => q + if i < m then 1 else 0).sum = k * q + min k m := by
    intro q m k
    induction k with
    | zero => simp
    | succ k ih =>
      rw [List.range_succ, List.map_append, List.sum_append, ih, Nat.add_mul]
      simp only [List.map_cons, List.map_nil, List.sum_cons, List.sum_nil]
      split <;> omega
  rw [key, Nat.min_eq_right (Nat.mod_lt _ (by omega)).le]
  exact Nat.div_add_mod 4096 n

/-- A description of a distribution is read back. -/
theorem newANSDist_ok (L : Nat) (hL : L ≤ 12) (h : Hist) (hv : h.Valid L) : ∃ d, ReadsPad 15 (newANSDist L) h.bits d ∧ d.Proper h.freqs := by
  have finish : ∀ (uniq : Option Int), ReadsPad 15 (readFreqs L) h.bits (h.freqs.map Int.ofNat, uniq) →
      (∃ d, generateAliasMapping L (h.freqs.map Int.ofNat) uniq = .ok d ∧ d.freqs = h.freqs.map Int.ofNat ∧ Partitions d (fun s => h.freqs.getD s 0)) → h.freqs.sum = 4096 →
      ∃ d, ReadsPad 15 (newANSDist L) h.bits d ∧ d.Proper h.freqs := by
    rintro uniq hr ⟨d, d1, d2, d3⟩ hs
    refine ⟨d, ?_, d2, hs, d3⟩
    unfold newANSDist
    rw [← List.append_nil h.bits]
    exact ReadsPad.bind hr (ReadsPad.lift 15 d1)
  cases h with
  | one x =>
    have hx : x < 256 := hv
    refine finish (some (x : Int)) ?_ (C12_alias_single L hL x _ ?_ ?_) (sum_set_zeros _ _ _ (by omega))
    · unfold readFreqs Hist.bits Hist.freqs
      refine ReadsPad.bind (e1 := [true]) ((reads_bool true).pad 15) ?_
      rw [if_pos rfl]
      refine ReadsPad.bind (e1 := [false]) (e2 := encU8 x) ((reads_bool false).pad 15) ?_
      rw [if_neg (by decide), ← List.append_nil (encU8 x)]
      refine ReadsPad.bind ((C06_u8_roundtrip x hx).pad 15) ((ReadsPad.pure 15 _).congr rfl ?_)
      simp [List.map_set]
    · show ((List.replicate (1 + x) 0).set x 4096).getD x 0 = 4096
      rw [getD_set_replicate _ _ _ _ (by omega), if_pos rfl]
    · intro s hs
      show ((List.replicate (1 + x) 0).set x 4096).getD s 0 = 0
      rw [getD_set_replicate _ _ _ _ (by omega), if_neg hs]
  | two v1 v2 f =>
    obtain ⟨h1, h2, h3, h4, h5⟩ := hv
    have hr : ReadsPad 15 (readFreqs L) (Hist.two v1 v2 f).bits ((Hist.two v1 v2 f).freqs.map Int.ofNat, if f = 0 then some (v2 : Int) else none) := by
      unfold readFreqs Hist.bits Hist.freqs
      refine ReadsPad.bind (e1 := [true]) ((reads_bool true).pad 15) ?_
      rw [if_pos rfl]
      refine ReadsPad.bind (e1 := [true]) (e2 := encU8 v1 ++ encU8 v2 ++ bitsOf 12 f) ((reads_bool true).pad 15) ?_
      rw [if_pos rfl, List.append_assoc]
      refine ReadsPad.bind ((C06_u8_roundtrip v1 h1).pad 15) ?_
      refine ReadsPad.bind ((C06_u8_roundtrip v2 h2).pad 15) ?_
      rw [if_neg h3, if_neg (by omega), ← List.append_nil (bitsOf 12 f)]
      refine ReadsPad.bind ((reads_bitsOf 12 f (by omega) (by omega)).pad 15) ((ReadsPad.pure 15 _).congr rfl ?_)
      refine Prod.ext ?_ rfl
      simp only [List.map_set, List.map_replicate]
      rw [show ((4096 : Int) - (f : Nat)) = Int.ofNat (4096 - f) by show _ = ((_ : Nat) : Int); omega]
      rfl
    have hsum : (Hist.two v1 v2 f).freqs.sum = 4096 := by
      show (((List.replicate (1 + max v1 v2) 0).set v1 f).set v2 (4096 - f)).sum = 4096
      rw [sum_set_two _ _ _ _ _ (by omega) (by omega) h3]; omega
    refine finish _ hr ?_ hsum
    by_cases hf : f = 0
    · rw [if_pos hf]
      have hz : (Hist.two v1 v2 f).freqs = (List.replicate (1 + max v1 v2) 0).set v2 4096 := by
        show ((List.replicate (1 + max v1 v2) 0).set v1 f).set v2 (4096 - f) = _
        rw [hf, List.set_replicate_self]
      rw [hz]
      refine C12_alias_single L hL v2 _ ?_ ?_
      · rw [getD_set_replicate _ _ _ _ (by omega), if_pos rfl]
      · intro s hs
        rw [getD_set_replicate _ _ _ _ (by omega), if_neg hs]
    · rw [if_neg hf]
      exact C12_alias_partition L hL _ (by simp only [Hist.freqs, List.length_set, List.length_replicate]; omega) hsum
  | flat n =>
    obtain ⟨h1, h2, h3⟩ := hv
    have hsum : (Hist.flat n).freqs.sum = 4096 := sum_flat n h1
    refine finish (if n = 1 then some 0 else none) ?_ ?_ hsum
    · unfold readFreqs Hist.bits Hist.freqs
      refine ReadsPad.bind (e1 := [false]) ((reads_bool false).pad 15) ?_
      rw [if_neg (by decide)]
      refine ReadsPad.bind (e1 := [true]) (e2 := encU8 (n - 1)) ((reads_bool true).pad 15) ?_
      rw [if_pos rfl, ← List.append_nil (encU8 _)]
      refine ReadsPad.bind ((C06_u8_roundtrip (n - 1) (by omega)).pad 15) ?_
      rw [show 1 + (n - 1) = n by omega, if_neg (by omega)]
      refine (ReadsPad.pure 15 _).congr rfl ?_
      unfold flatFreqs
      rw [List.map_map]; rfl
    · by_cases hn : n = 1
      · subst hn
        rw [if_pos rfl]
        refine C12_alias_single L hL 0 _ (by decide) ?_
        intro s hs
        match s, hs with
        | s + 1, _ => rfl
      · rw [if_neg hn]
        exact C12_alias_partition L hL _ (by simp only [Hist.freqs, List.length_map, List.length_range]; exact h3) hsum
  | counts shift before log after =>
    have hv' := hv
    obtain ⟨h1, h2, h3, h4, h5, h6, h7, h8⟩ := hv'
    have hsum : (Hist.counts shift before log after).freqs.sum = 4096 := sum_others shift before after h6
    refine finish none ?_ (C12_alias_partition L hL _ (by simp only [Hist.freqs, List.length_append, List.length_cons]; omega) hsum) hsum
    unfold readFreqs Hist.bits
    refine ReadsPad.bind (e1 := [false]) ((reads_bool false).pad 15) ?_
    rw [if_neg (by decide)]
    refine ReadsPad.bind (e1 := [false]) ((reads_bool false).pad 15) ?_
    rw [if_neg (by decide)]
    have := ReadsPad.bind (readLogCountFreqs_ok L shift before log after hv) (e2 := []) (f := fun fs => Pure.pure (fs, (none : Option Int))) (ReadsPad.pure 15 _)
    rw [List.append_nil] at this
    exact this

/-! ## Prefix codes -/

theorem lt_alphabet {a s : Nat} (hs : s < a) : s < 2 ^ ceilLog1p (a - 1) := by
  have := (C41_ceilLog1p (a - 1) (ceilLog1p (a - 1))).1 (Nat.le_refl _); omega

theorem alphabet_width {a : Nat} (ha : a ≤ 2 ^ 16) : ceilLog1p (a - 1) ≤ 64 :=
  le_trans ((C41_ceilLog1p (a - 1) 16).2 (by omega)) (by decide)

theorem newPrefixDist_ok (c : PreCode) (hv : c.Valid) : ∃ d, ReadsPad 15 (newPrefixDist c.alphabet) c.bits d ∧ ∀ (s : Nat) (w : List Bool), c.Word s w → ReadsPad 15 d.readSymbol w (s : Int) := by
  cases c with
  | only =>
    refine ⟨.single 0, ?_, ?_⟩
    · unfold newPrefixDist
      rw [if_pos (show PreCode.only.alphabet = 1 from rfl)]
      exact ReadsPad.pure 15 _
    · rintro s w ⟨rfl, rfl⟩
      exact (C10_single 0).pad 15
  | one a x =>
    obtain ⟨h1, h2, h3⟩ := hv
    refine ⟨.single x, ?_, ?_⟩
    · show ReadsPad 15 (newPrefixDist a) (bitsOf 2 1 ++ bitsOf 2 0 ++ bitsOf (ceilLog1p (a - 1)) x) _
      unfold newPrefixDist
      rw [if_neg (by omega), List.append_assoc]
      refine ReadsPad.bind ((reads_bitsOf 2 1 (by omega) (by omega)).pad 15) ?_
      rw [if_pos rfl]
      unfold populateSimplePrefix
      refine ReadsPad.bind ((reads_bitsOf 2 0 (by omega) (by omega)).pad 15) ?_
      have := readSymbols_spec _ (alphabet_width h2) [x] (by intro y hy; simp at hy; subst hy; exact lt_alphabet h3)
      rw [List.flatMap_cons, List.flatMap_nil, List.append_nil] at this
      rw [← List.append_nil (bitsOf _ x)]
      refine ReadsPad.bind (this.pad 15) ?_
      refine ReadsPad.bind (e1 := []) (e2 := []) (ReadsPad.pure 15 false) (ReadsPad.lift 15 rfl)
    · rintro s w ⟨rfl, rfl⟩
      exact (C10_single _).pad 15
  | simple a syms tree =>
    obtain ⟨h1, h2, h3, h4, h5, h6⟩ := hv
    obtain ⟨t, t1, t2⟩ := C10_simple_code_partial a (by omega) syms tree h3 h4 h5 (alphabet_width h2) (fun x hx => lt_alphabet (h6 x hx))
    exact ⟨_, t1.mono (by omega), fun s w h => (t2 s w h).mono (by omega)⟩
  | full d word l =>
    obtain ⟨h1, h2, h3⟩ := hv
    obtain ⟨t, t1, t2⟩ := C10_described_code_partial d word l h3 (by omega)
    exact ⟨_, t1, fun s w h => (t2 s w h).2⟩

theorem reads_alphabet (a : Nat) (h1 : 1 ≤ a) (h2 : a ≤ 2 ^ 16) : Reads readAlphabetSize (alphabetBits a) a := by
  unfold readAlphabetSize alphabetBits
  by_cases ha : a = 1
  · subst ha
    rw [if_pos rfl]
    refine Reads.bind (e1 := [false]) (e2 := []) (reads_bool false) ?_
    exact Reads.pure 1
  · rw [if_neg ha]
    have hne : a - 1 ≠ 0 := by omega
    have l1 : 2 ^ Nat.log2 (a - 1) ≤ a - 1 := Nat.log2_self_le hne
    have l2 : a - 1 < 2 ^ (Nat.log2 (a - 1) + 1) := Nat.lt_log2_self
    have l3 : Nat.log2 (a - 1) < 16 := (Nat.log2_lt hne).2 (by omega)
    refine Reads.bind (e1 := [true]) (reads_bool true) ?_
    rw [if_pos rfl]
    refine Reads.bind (reads_bitsOf 4 _ (by omega) (by omega)) ?_
    rw [← List.append_nil (bitsOf (Nat.log2 (a - 1)) _)]
    refine Reads.bind (reads_bitsOf _ _ (by omega) (by rw [pow_succ] at l2; omega)) ?_
    rw [show 1 + (2 ^ (a - 1).log2 + (a - 1 - 2 ^ (a - 1).log2)) = a by omega]
    exact Reads.pure a

/-! ## All codes -/

theorem readConfigs_ok (L : Nat) (hL : L ≤ 15) : ∀ cs : List HybridConfig, (∀ c ∈ cs, c.Fits L) → Reads (readConfigs L cs.length) (cs.flatMap (configBits L)) cs := by
  intro cs
  induction cs with
  | nil => intro _; exact Reads.pure []
  | cons c cs ih =>
    intro h
    obtain ⟨h1, h2, h3⟩ := h c (by simp)
    rw [List.flatMap_cons, List.length_cons, readConfigs]
    refine Reads.bind (C14_config L hL c h1 h2 h3) ?_
    have := Reads.bind (e2 := []) (ih (fun c hc => h c (by simp [hc]))) (f := fun cs => Pure.pure (c :: cs)) (Reads.pure _)
    rw [List.append_nil] at this
    exact this

theorem readAlphabetSizes_ok : ∀ as : List Nat, (∀ a ∈ as, 1 ≤ a ∧ a ≤ 2 ^ 16) → Reads (readAlphabetSizes as.length) (as.flatMap alphabetBits) as := by
  intro as
  induction as with
  | nil => intro _; exact Reads.pure []
  | cons a as ih =>
    intro h
    rw [List.flatMap_cons, List.length_cons, readAlphabetSizes]
    refine Reads.bind (reads_alphabet a (h a (by simp)).1 (h a (by simp)).2) ?_
    have := Reads.bind (e2 := []) (ih (fun c hc => h c (by simp [hc]))) (f := fun as => Pure.pure (a :: as)) (Reads.pure _)
    rw [List.append_nil] at this
    exact this

theorem readPrefixDists_ok : ∀ (l : List (PreCode × HybridConfig)) (ds : List Dist), (CodeList.pre l).Made ds →
    ReadsPad 15 (readPrefixDists (l.map fun c => (c.1.alphabet, c.2))) (l.flatMap fun c => c.1.bits) ds := by
  intro l ds h
  unfold CodeList.Made at h
  induction h with
  | nil => exact ReadsPad.pure 15 _
  | @cons c d l ds h1 _ ih =>
    obtain ⟨p, rfl, p1⟩ := h1
    rw [List.map_cons, List.flatMap_cons, readPrefixDists]
    refine ReadsPad.bind p1 ?_
    have := ReadsPad.bind (e2 := []) ih (f := fun ds => Pure.pure (Dist.pre p c.2 :: ds)) (ReadsPad.pure 15 _)
    rw [List.append_nil] at this
    exact this

theorem readANSDists_ok (log : Nat) : ∀ (l : List (Hist × HybridConfig)) (ds : List Dist), (CodeList.ans log l).Made ds →
    ReadsPad 15 (readANSDists (5 + log) (l.map fun c => c.2)) (l.flatMap fun c => c.1.bits) ds := by
  intro l ds h
  unfold CodeList.Made at h
  induction h with
  | nil => exact ReadsPad.pure 15 _
  | @cons c d l ds h1 _ ih =>
    obtain ⟨p, rfl, p1⟩ := h1
    rw [List.map_cons, List.flatMap_cons, readANSDists]
    refine ReadsPad.bind p1 ?_
    have := ReadsPad.bind (e2 := []) ih (f := fun ds => Pure.pure (Dist.ans p c.2 :: ds)) (ReadsPad.pure 15 _)
    rw [List.append_nil] at this
    exact this

/-- Valid descriptions make codes. -/
theorem made_exists (c : CodeList) (hv : c.Valid) : ∃ ds, c.Made ds ∧ c.Decoded ds := by
  cases c with
  | pre l =>
    have key : ∀ l : List (PreCode × HybridConfig), (∀ c ∈ l, c.1.Valid) → ∃ ds, (CodeList.pre l).Made ds ∧ (CodeList.pre l).Decoded ds := by
      intro l
      induction l with
      | nil => intro _; exact ⟨[], List.Forall₂.nil, List.Forall₂.nil⟩
      | cons c l ih =>
        intro h
        obtain ⟨ds, d1, d2⟩ := ih (fun c hc => h c (by simp [hc]))
        obtain ⟨p, p1, p2⟩ := newPrefixDist_ok c.1 (h c (by simp))
        exact ⟨.pre p c.2 :: ds, List.Forall₂.cons ⟨p, rfl, p1⟩ d1, List.Forall₂.cons ⟨p, rfl, p2⟩ d2⟩
    exact key l fun c hc => (hv c hc).1
  | ans log l =>
    obtain ⟨hlog, hv⟩ := hv
    have key : ∀ l : List (Hist × HybridConfig), (∀ c ∈ l, c.1.Valid (5 + log)) → ∃ ds, (CodeList.ans log l).Made ds ∧ (CodeList.ans log l).Decoded ds := by
      intro l
      induction l with
      | nil => intro _; exact ⟨[], List.Forall₂.nil, List.Forall₂.nil⟩
      | cons c l ih =>
        intro h
        obtain ⟨ds, d1, d2⟩ := ih (fun c hc => h c (by simp [hc]))
        obtain ⟨p, p1, p2⟩ := newANSDist_ok (5 + log) (by omega) c.1 (h c (by simp))
        exact ⟨.ans p c.2 :: ds, List.Forall₂.cons ⟨p, rfl, p1⟩ d1, List.Forall₂.cons ⟨p, rfl, p2⟩ d2⟩
    exact key l fun c hc => (hv c hc).1

/-- What is read is determined by its bits. -/
theorem ReadsPad.unique {α : Type} {pad : Nat} {m : Rd α} {e : List Bool} {a b : α} (ha : ReadsPad pad m e a) (hb : ReadsPad pad m e b) : a = b := by
  obtain ⟨data, h⟩ := exists_stream (e ++ List.replicate pad false)
  have hl := h.length_le
  have hz : (bitsFrom data 0).length ≤ 8 * data.length := by
    have := length_bitsFrom data 0
    omega
  rw [List.length_append, List.length_replicate] at hl
  have hp : e <+: bitsFrom (BR.new data).data 0 := (List.prefix_append _ _).trans h
  obtain ⟨s1, e1, -, -⟩ := ha (BR.new data) 0 (AtBit.new data) hp (by show 0 + _ + _ ≤ 8 * data.length; omega)
  obtain ⟨s2, e2, -, -⟩ := hb (BR.new data) 0 (AtBit.new data) hp (by show 0 + _ + _ ≤ 8 * data.length; omega)
  rw [e1] at e2
  exact Res.ok.inj (congrArg Prod.fst e2)

/-- What descriptions are read as are the codes that they describe. -/
theorem CodeList.Made.decoded {c : CodeList} (hv : c.Valid) {ds : List Dist} (h : c.Made ds) : c.Decoded ds := by
  cases c with
  | pre l =>
    unfold CodeList.Made at h
    unfold CodeList.Decoded
    have key : ∀ x ∈ l, x.1.Valid := fun c hc => (hv c hc).1
    clear hv
    induction h with
    | nil => exact List.Forall₂.nil
    | @cons c d l ds h1 _ ih =>
      obtain ⟨p, rfl, p1⟩ := h1
      obtain ⟨p', q1, q2⟩ := newPrefixDist_ok c.1 (key c (by simp))
      obtain rfl := p1.unique q1
      exact List.Forall₂.cons ⟨p, rfl, q2⟩ (ih fun x hx => key x (by simp [hx]))
  | ans log l =>
    obtain ⟨hlog, hv⟩ := hv
    unfold CodeList.Made at h
    unfold CodeList.Decoded
    have key : ∀ x ∈ l, x.1.Valid (5 + log) := fun c hc => (hv c hc).1
    clear hv
    induction h with
    | nil => exact List.Forall₂.nil
    | @cons c d l ds h1 _ ih =>
      obtain ⟨p, rfl, p1⟩ := h1
      obtain ⟨p', q1, q2⟩ := newANSDist_ok (5 + log) (by omega) c.1 (key c (by simp))
      obtain rfl := p1.unique q1
      exact List.Forall₂.cons ⟨p, rfl, q2⟩ (ih fun x hx => key x (by simp [hx]))

theorem PreCode.alphabet_le {c : PreCode} (h : c.Valid) : 1 ≤ c.alphabet ∧ c.alphabet ≤ 2 ^ 16 := by
  cases c with
  | only => exact ⟨le_refl _, by decide⟩
  | one a s => exact ⟨by have := h.1; show 1 ≤ a; omega, h.2.1⟩
  | simple a syms tree => exact ⟨by have := h.1; show 1 ≤ a; omega, h.2.1⟩
  | full d w l => exact ⟨by have := h.1; show 1 ≤ l.length; omega, h.2.1⟩

theorem readDists_ok (c : CodeList) (hv : c.Valid) {ds : List Dist} (hm : c.Made ds) : ReadsPad 15 (readDists c.length) c.bits ds := by
  cases c with
  | pre l =>
    have d1 := readPrefixDists_ok l ds hm
    have c1 := readConfigs_ok 15 (by omega) (l.map Prod.snd) (by intro c hc; obtain ⟨x, hx, rfl⟩ := List.mem_map.1 hc; exact (hv x hx).2)
    have a1 := readAlphabetSizes_ok (l.map fun c => c.1.alphabet) (by intro c hc; obtain ⟨x, hx, rfl⟩ := List.mem_map.1 hc; exact PreCode.alphabet_le (hv x hx).1)
    rw [List.length_map, List.flatMap_map] at c1 a1
    unfold readDists CodeList.bits CodeList.length
    refine ReadsPad.bind (e1 := [true]) (e2 := l.flatMap (fun c => configBits 15 c.2) ++ l.flatMap (fun c => alphabetBits c.1.alphabet) ++ l.flatMap (fun c => c.1.bits)) ((reads_bool true).pad 15) ?_
    rw [if_pos rfl, List.append_assoc]
    refine ReadsPad.bind (c1.pad 15) (ReadsPad.bind (a1.pad 15) ?_)
    rw [List.zip_map']
    exact d1
  | ans log l =>
    obtain ⟨hlog, hv⟩ := hv
    have d1 := readANSDists_ok log l ds hm
    have c1 := readConfigs_ok (5 + log) (by omega) (l.map Prod.snd) (by intro c hc; obtain ⟨x, hx, rfl⟩ := List.mem_map.1 hc; exact (hv x hx).2)
    rw [List.length_map, List.flatMap_map] at c1
    unfold readDists CodeList.bits CodeList.length
    refine ReadsPad.bind (e1 := [false]) (e2 := bitsOf 2 log ++ l.flatMap (fun c => configBits (5 + log) c.2) ++ l.flatMap (fun c => c.1.bits)) ((reads_bool false).pad 15) ?_
    rw [if_neg (by decide), List.append_assoc]
    refine ReadsPad.bind ((reads_bitsOf 2 log (by omega) (by omega)).pad 15) ?_
    exact ReadsPad.bind (c1.pad 15) d1

theorem readLZ_ok (lz : Option (LZParams × List Bool × List Bool)) (h : LZWritten lz) (disallow : Bool) (hd : lz.isSome → disallow = false) :
    Reads (readLZ disallow) (lzBits lz) (lz.map Prod.fst) := by
  unfold readLZ
  cases lz with
  | none =>
    refine Reads.bind (e1 := [false]) (e2 := []) (reads_bool false) ?_
    exact Reads.pure _
  | some z =>
    obtain ⟨h1, h2, h3, h4, h5⟩ := h z rfl
    refine Reads.bind (e1 := [true]) (e2 := z.2.1 ++ z.2.2 ++ configBits 8 z.1.lengthConfig) (reads_bool true) ?_
    rw [if_pos rfl, if_neg (by rw [hd rfl]; decide), List.append_assoc]
    refine Reads.bind ((implements_u32 _ (by decide)).reads h1) ?_
    refine Reads.bind ((implements_u32 _ (by decide)).reads h2) ?_
    rw [← List.append_nil (configBits _ _)]
    exact Reads.bind (C14_config 8 (by omega) _ h3 h4 h5) (Reads.pure _)

/-- The codes of a stream are read back. -/
theorem load_ok (d : CodeDesc) (n : Nat) (hd : d.Valid n) : ∃ ds, ReadsPad 15 (ES.load n false) d.bits (ES.mk' (d.map.map Int.ofNat) ds (d.lz.map Prod.fst)) ∧ d.codes.Decoded ds := by
  obtain ⟨ds, hm, d2⟩ := made_exists d.codes hd.codes
  have d1 := readDists_ok d.codes hd.codes hm
  refine ⟨ds, ?_, d2⟩
  have hpos := hd.pos
  unfold ES.load loadWith
  rw [if_neg (by omega)]
  unfold CodeDesc.bits
  rw [List.append_assoc]
  refine ReadsPad.bind ((readLZ_ok d.lz hd.lz false (fun _ => rfl)).pad 15) ?_
  have hn : (if (d.lz.map Prod.fst).isSome then n + 1 else n) = d.map.length := by
    rw [hd.contexts, Option.isSome_map]
  rw [hn]
  have hmap : ReadsPad 15 (readClusterMap 2 d.map.length d.map.length) (if d.map.length = 1 then [] else true :: (bitsOf 2 d.width ++ d.map.flatMap (bitsOf d.width)))
      (d.map.map Int.ofNat, ((d.codes.length : Nat) : Int)) := by
    by_cases h1 : d.map.length = 1
    · rw [if_pos h1]
      have hm := hd.one h1
      have ha := hd.all
      rw [hm] at ha
      rw [hm, ha]
      exact ReadsPad.lift 15 rfl
    · rw [if_neg h1]
      have hlen : 2 ≤ d.map.length := by
        have := hd.contexts
        split at this <;> omega
      have := C16_fixed_roundtrip d.width hd.width d.map (fun c hc => (hd.entries c hc).1) hlen d.map.length
        (fun c hc => lt_of_lt_of_le (hd.entries c hc).2 hd.count)
      refine (this.pad 15).congr rfl ?_
      rw [hd.all]; rfl
  refine ReadsPad.bind hmap ?_
  rw [← List.append_nil d.codes.bits]
  dsimp only
  rw [Int.toNat_natCast]
  exact ReadsPad.bind d1 (ReadsPad.pure 15 _)

end Jxl
