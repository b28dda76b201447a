import Verif.Proofs.Safe
import Verif.Proofs.Alias
/-!
# Reading ANS distributions and symbols, on arbitrary streams
-/
namespace Jxl
open Spec

theorem sum_set (l : List Int) (i : Nat) (a : Int) (h : i < l.length) : (l.set i a).sum = l.sum - l.getD i 0 + a := by
  induction l generalizing i with
  | nil => simp at h
  | cons x l ih =>
    cases i with
    | zero => simp; omega
    | succ i =>
      simp only [List.set_cons_succ, List.sum_cons]
      rw [ih i (by simpa using h)]
      simp only [List.getD_cons_succ]; omega

theorem sum_replicate_zero (n : Nat) : (List.replicate n (0 : Int)).sum = 0 := by
  induction n with
  | zero => rfl
  | succ n ih => simp [List.replicate_succ, ih]

theorem getD_replicate_zero (n i : Nat) : (List.replicate n (0 : Int)).getD i 0 = 0 := by
  simp only [List.getD, List.getElem?_replicate]
  split <;> rfl

/-- A table built from any frequencies with sum 4096: a look-up always gives a symbol of the alphabet. -/
theorem generate_safe (L : Nat) (hL : L ≤ 12) (fs : List Int) (hlen : fs.length ≤ 2 ^ L) (hsum : fs.sum = 4096) :
    ∃ d, generateAliasMapping L fs none = .ok d ∧ d.freqs = fs ∧
      ∀ i, i < 4096 → ∃ (n : Nat) (k : Int), aliasLookup d i = .ok ((n : Int), k) ∧ n < fs.length := by
  obtain ⟨st, d, hinv, ho, hu, hd, hf, hl, hrow⟩ := generate_spec L hL fs hlen hsum
  refine ⟨d, hd, hf, ?_⟩
  have hTB := two_pow_split L hL
  have hpos := Nat.two_pow_pos (12 - L)
  obtain ⟨B, hB⟩ : ∃ B, B = 2 ^ (12 - L) := ⟨_, rfl⟩
  rw [← hB] at hinv hrow hTB hpos
  have hbig : ∀ n : Nat, 0 < fs.getD n 0 → n < fs.length := by
    intro n hn
    by_cases h : n < fs.length
    · exact h
    · rw [List.getD, List.getElem?_eq_none (by omega)] at hn
      simp at hn
  intro i hi
  have hi' : i / B < 2 ^ L := by
    rw [Nat.div_lt_iff_lt_mul hpos]; omega
  have hm : i % B < B := Nat.mod_lt _ hpos
  have hlk := lookup_spec (fs := fs) hB hl hrow (i / B) (i % B) hi' hm
  rw [Nat.mul_comm, Nat.div_add_mod] at hlk
  rw [hlk]
  have hc := hinv.cle (i / B) hi'
  by_cases hcond : st.cutoffs.getD (i / B) 0 = B ∨ ((i % B : Nat) : Int) < st.cutoffs.getD (i / B) 0
  · rw [if_pos hcond]
    refine ⟨i / B, _, rfl, hbig _ ?_⟩
    rcases hcond with h | h <;> omega
  · rw [if_neg hcond]
    have hr := hinv.rest (i / B) hi' (by rw [ho]; simp)
    obtain ⟨s, _, e2, _, _, e5⟩ := hinv.settled (i / B) hi' (by rw [ho]; simp) (by rw [hu]; simp) (by
      rcases Int.lt_or_eq_of_le hr with h | h
      · exact h
      · exact absurd (Or.inl h) hcond)
    rw [e2]
    refine ⟨s, _, rfl, hbig _ ?_⟩
    omega

/-- `getD` of `set`, for the index and the others. -/
theorem getD_set_ne (l : List Int) (i j : Nat) (a : Int) (h : i ≠ j) : (l.set i a).getD j 0 = l.getD j 0 := by
  simp [List.getD, List.getElem?_set_ne h]

theorem getD_set_self' (l : List Int) (i : Nat) (a : Int) (h : i < l.length) : (l.set i a).getD i 0 = a := by
  simp [List.getD, h]

theorem distPrefix_len : distPrefixTable.table.length = 2 ^ distPrefixTable.bits := by decide +kernel

theorem safe_shiftLen (n : Nat) : Safe (readShiftLen n) (fun l => l ≤ n) := by
  induction n with
  | zero => exact Safe.pure (by omega)
  | succ n ih =>
    refine Safe.bind safe_bool (fun b _ => ?_)
    split
    · exact Safe.bind ih (fun r hr => Safe.pure (by omega))
    · exact Safe.pure (by omega)

/-- The invariant of the log-count loop at index `i`: the omitted position is not in a run, runs end by `i`. -/
structure LCInv (n : Nat) (i : Nat) (st : LogCounts) : Prop where
  l1 : st.logCounts.length = n
  l2 : st.same.length = n
  op : st.omitPos = -1 ∨ (0 ≤ st.omitPos ∧ st.omitPos < n ∧ st.omitPos < i)
  run : ∀ j, st.same.getD j 0 ≠ 0 → j + st.same.getD j 0 ≤ i + 1 ∧ (st.omitPos < j ∨ (j : Int) + st.same.getD j 0 ≤ st.omitPos + 1)

theorem getD_set_nat (l : List Nat) (i j a : Nat) (h : i < l.length) : (l.set i a).getD j 0 = if i = j then a else l.getD j 0 := by
  by_cases e : i = j
  · subst e; simp [List.getD, h]
  · rw [if_neg e]; simp [List.getD, List.getElem?_set_ne e]

theorem safe_logCountLoop (n fuel : Nat) : ∀ (i : Nat) (st : LogCounts), LCInv n i st →
    Safe (logCountLoop n fuel (i : Int) st) (fun st' => ∃ i', LCInv n i' st') := by
  induction fuel with
  | zero => intro i st h; exact Safe.pure ⟨i, h⟩
  | succ fuel ih =>
    intro i st h
    unfold logCountLoop
    split
    · rename_i hi
      refine Safe.bind (safe_vlc distPrefixTable distPrefix_len) (fun c _ => ?_)
      refine Safe.bind (Safe.lift (safe_setAt st.logCounts (i : Int) c (by omega) (by rw [h.l1]; exact hi))) (fun lcs hlcs => ?_)
      have hll : lcs.length = n := by rw [hlcs]; simp [h.l1]
      split
      · refine Safe.bind safe_u8 (fun rle _ => ?_)
        refine Safe.bind (Safe.lift (safe_setAt st.same (i : Int) (rle + 5) (by omega) (by rw [h.l2]; exact hi))) (fun sm hsm => ?_)
        have e : (i : Int) + rle + 4 = ((i + rle + 4 : Nat) : Int) := by omega
        rw [e]
        apply ih
        rw [Int.toNat_natCast] at hsm
        subst hsm
        refine ⟨hll, by simp [h.l2], ?_, ?_⟩
        · rcases h.op with h1 | ⟨h1, h2, h3⟩
          · exact Or.inl h1
          · exact Or.inr ⟨h1, h2, by simp only; omega⟩
        · intro j
          simp only
          rw [getD_set_nat _ _ _ _ (by rw [h.l2]; omega)]
          split
          · rename_i e; subst e
            intro _
            refine ⟨by omega, Or.inl ?_⟩
            rcases h.op with h1 | ⟨_, _, h1⟩ <;> omega
          · intro hne
            have := h.run j hne
            exact ⟨by omega, this.2⟩
      · have e : (i : Int) + 1 = ((i + 1 : Nat) : Int) := by omega
        rw [e]
        apply ih
        refine ⟨hll, h.l2, ?_, ?_⟩
        · simp only
          split
          · exact Or.inr ⟨by omega, by omega, by omega⟩
          · rcases h.op with h1 | ⟨h1, h2, h3⟩
            · exact Or.inl h1
            · exact Or.inr ⟨h1, h2, by omega⟩
        · intro j hne
          simp only at hne ⊢
          have := h.run j hne
          refine ⟨by omega, ?_⟩
          split
          · right; omega
          · exact this.2
    · exact Safe.pure ⟨i, h⟩

/-- The invariant of the frequency loop before index `i`. -/
structure FQInv (op : Nat) (i : Nat) (st : FreqSt) : Prop where
  len : st.freqs.length = i
  tot : st.total = st.freqs.sum
  run : st.numSame ≠ 0 → op < i ∨ i + st.numSame ≤ op
  zero : op < i → st.freqs.reverse.getD op 0 = 0

theorem FQInv.push {op i : Nat} {st : FreqSt} (h : FQInv op i st) (v : Int) (ns : Nat) (pr : Int)
    (hr : ns ≠ 0 → op < i + 1 ∨ i + 1 + ns ≤ op) (hz : i = op → v = 0) :
    FQInv op (i + 1) { freqs := v :: st.freqs, total := st.total + v, numSame := ns, prev := pr } := by
  refine ⟨by simp [h.len], by simp [h.tot]; omega, hr, ?_⟩
  intro hop
  simp only [List.reverse_cons]
  by_cases e : i = op
  · subst e
    have : st.freqs.reverse.length = i := by simp [h.len]
    simp [List.getD, ← this, hz rfl]
  · have hlt : op < i := by omega
    have hlt' : op < st.freqs.reverse.length := by simp [h.len, hlt]
    have := h.zero hlt
    simp only [List.getD] at this ⊢
    rw [List.getElem?_append_left hlt']; exact this

theorem safe_freqStep (shift op i : Nat) (lc : Int) (sm : Nat) (st : FreqSt) (h : FQInv op i st)
    (hs : sm ≠ 0 → op < i ∨ i + sm ≤ op + 1) : Safe (freqStep shift (op : Int) i lc sm st) (FQInv op (i + 1)) := by
  unfold freqStep
  obtain ⟨ns, hns⟩ : ∃ ns, ns = if sm ≠ 0 then sm - 1 else st.numSame := ⟨_, rfl⟩
  obtain ⟨pr, hpr⟩ : ∃ pr, pr = if sm ≠ 0 then st.freqs.headD 0 else st.prev := ⟨_, rfl⟩
  simp only [← hns, ← hpr]
  have hrun : ns ≠ 0 → op < i ∨ i + ns ≤ op := by
    intro hne
    rw [hns] at hne ⊢
    split
    · rename_i hsm
      rw [if_pos hsm] at hne
      rcases hs hsm with h1 | h1
      · exact Or.inl h1
      · right; omega
    · rename_i hsm
      rw [if_neg hsm] at hne
      exact h.run hne
  split
  · rename_i hne
    refine Safe.pure (h.push _ _ _ ?_ ?_)
    · intro _
      rcases hrun hne with h1 | h1 <;> omega
    · intro e
      rcases hrun hne with h1 | h1 <;> omega
  · rename_i hne
    have hne : ns = 0 := by omega
    split
    · have := h.push 0 ns pr (fun h => absurd hne h) (fun _ => rfl)
      refine Safe.pure ?_
      rw [Int.add_zero] at this
      exact this
    · rename_i hor
      have hio : i ≠ op := fun e => hor (Or.inl (by omega))
      split
      · exact Safe.pure (h.push _ _ _ (fun h => absurd hne h) (fun e => absurd e hio))
      · exact Safe.bind (safe_bits _) (fun _ _ => Safe.pure (h.push _ _ _ (fun h => absurd hne h) (fun e => absurd e hio)))

theorem safe_freqLoop (shift op : Nat) (P : List (Int × Nat)) : ∀ (i : Nat) (st : FreqSt), FQInv op i st →
    (∀ (j : Nat) lc sm, P[j]? = some (lc, sm) → sm ≠ 0 → op < i + j ∨ i + j + sm ≤ op + 1) →
    Safe (freqLoop shift (op : Int) P i st) (FQInv op (i + P.length)) := by
  induction P with
  | nil => intro i st h _; exact Safe.pure h
  | cons e P ih =>
    obtain ⟨lc, sm⟩ := e
    intro i st h hP
    unfold freqLoop
    refine Safe.bind (safe_freqStep shift op i lc sm st h (fun hs => by simpa using hP 0 lc sm (by simp) hs)) (fun st' h' => ?_)
    have := ih (i + 1) st' h' (fun j lc' sm' hj hs => by
      have := hP (j + 1) lc' sm' (by simpa using hj) hs
      omega)
    rw [show i + ((lc, sm) :: P).length = i + 1 + P.length by simp; omega]
    exact this

theorem safe_readLogCountFreqs (L : Nat) :
    Safe (readLogCountFreqs L) (fun fs => fs.sum = 4096 ∧ fs.length ≤ 2 ^ L) := by
  unfold readLogCountFreqs
  refine Safe.bind (safe_shiftLen 3) (fun l _ => Safe.bind (safe_bits l) (fun e _ => ?_))
  dsimp only
  split
  · exact Safe.fail
  · refine Safe.bind safe_u8 (fun r _ => ?_)
    split
    · exact Safe.fail
    · rename_i hA
      refine Safe.bind (safe_logCountLoop (3 + r) (3 + r) 0 _ ⟨by simp, by simp, Or.inl rfl, ?_⟩) (fun st hst => ?_)
      · intro j hj
        exfalso; apply hj
        simp only [List.getD, List.getElem?_replicate]
        split <;> rfl
      · split
        · exact Safe.fail
        · rename_i hom
          obtain ⟨i', hst⟩ := hst
          have hop : 0 ≤ st.omitPos ∧ st.omitPos < (3 + r : Nat) := by
            rcases hst.op with h | ⟨h1, h2, _⟩
            · exfalso; apply hom
              simp [omitInvalid, h]
            · exact ⟨h1, h2⟩
          obtain ⟨op, hopn⟩ : ∃ op : Nat, st.omitPos = op := ⟨st.omitPos.toNat, by omega⟩
          have hrun := hst.run
          rw [hopn] at hop hrun ⊢
          have hzl : (st.logCounts.zip st.same).length = 3 + r := by simp [hst.l1, hst.l2]
          refine Safe.bind (safe_freqLoop _ op (st.logCounts.zip st.same) 0 _ ⟨rfl, rfl, fun h => absurd rfl h, fun h => by omega⟩ ?_) (fun fs hfs => ?_)
          · intro j lc sm hj hsm
            rw [List.getElem?_zip_eq_some] at hj
            have hg : st.same.getD j 0 = sm := by simp [List.getD, hj.2]
            have := (hrun j (by rw [hg]; exact hsm)).2
            rw [hg] at this
            omega
          · rw [hzl, Nat.zero_add] at hfs
            have hlen : fs.freqs.reverse.length = 3 + r := by simp [hfs.len]
            refine Safe.lift ((safe_setAt _ (op : Int) _ (by omega) (by rw [hlen]; omega)).mono ?_)
            intro r' hr'
            subst hr'
            rw [Int.toNat_natCast, sum_set _ _ _ (by omega), hfs.zero (by omega), hfs.tot, List.sum_reverse]
            refine ⟨by omega, ?_⟩
            rw [List.length_set, hlen]; omega

/-- What `readFreqs` guarantees. -/
structure FreqsOK (L : Nat) (fs : List Int) (uniq : Option Int) : Prop where
  sum : fs.sum = 4096
  len : uniq = none → fs.length ≤ 2 ^ L
  uniq : ∀ x, uniq = some x → ∃ n : Nat, x = n ∧ n < fs.length ∧ fs.getD n 0 = 4096 ∧ ∀ s, s ≠ n → fs.getD s 0 = 0

theorem flat_sum (q r m : Nat) : (((List.range m).map fun i => ((q + if i < r then 1 else 0 : Nat) : Int)).sum) = ((m * q + min m r : Nat) : Int) := by
  induction m with
  | zero => simp
  | succ m ih =>
    rw [List.range_succ, List.map_append, List.sum_append, ih]
    simp only [List.map_cons, List.map_nil, List.sum_cons, List.sum_nil]
    rw [Nat.add_mul]
    split <;> omega

theorem safe_readFreqs (L : Nat) : Safe (readFreqs L) (fun p => FreqsOK L p.1 p.2) := by
  unfold readFreqs
  refine Safe.bind safe_bool (fun b _ => ?_)
  split
  · refine Safe.bind safe_bool (fun b _ => ?_)
    split
    · refine Safe.bind safe_u8 (fun v1 _ => Safe.bind safe_u8 (fun v2 _ => ?_))
      split
      · exact Safe.fail
      · rename_i hne
        split
        · exact Safe.fail
        · rename_i hA
          refine Safe.bind (safe_bits 12) (fun f hf => Safe.pure ?_)
          have h1 : v1 < (List.replicate (1 + max v1 v2) (0 : Int)).length := by simp; omega
          have h2 : v2 < ((List.replicate (1 + max v1 v2) (0 : Int)).set v1 f).length := by simp; omega
          refine ⟨?_, ?_, ?_⟩
          · simp only
            rw [sum_set _ _ _ h2, sum_set _ _ _ h1, sum_replicate_zero, getD_replicate_zero, getD_set_ne _ _ _ _ hne, getD_replicate_zero]
            omega
          · intro _; simp; omega
          · intro x hx
            simp only at hx
            split at hx
            · rename_i hf0
              subst hf0
              cases hx
              refine ⟨v2, rfl, by simp; omega, ?_, ?_⟩
              · rw [getD_set_self' _ _ _ h2]; simp
              · intro s hs
                rw [getD_set_ne _ _ _ _ (Ne.symm hs)]
                by_cases e : v1 = s
                · subst e; rw [getD_set_self' _ _ _ h1]; simp
                · rw [getD_set_ne _ _ _ _ e, getD_replicate_zero]
            · cases hx
    · refine Safe.bind safe_u8 (fun x _ => Safe.pure ?_)
      have h1 : x < (List.replicate (1 + x) (0 : Int)).length := by simp
      refine ⟨?_, (fun h => by cases h), ?_⟩
      · simp only
        rw [sum_set _ _ _ h1, sum_replicate_zero, getD_replicate_zero]; omega
      · intro y hy
        cases hy
        refine ⟨x, rfl, by simp, getD_set_self' _ _ _ h1, ?_⟩
        intro s hs
        rw [getD_set_ne _ _ _ _ (Ne.symm hs), getD_replicate_zero]
  · refine Safe.bind safe_bool (fun b _ => ?_)
    split
    · refine Safe.bind safe_u8 (fun r hr => ?_)
      split
      · exact Safe.fail
      · refine Safe.pure ⟨?_, ?_, ?_⟩
        · simp only [flatFreqs]
          rw [flat_sum]
          have := Nat.div_add_mod 4096 (1 + r)
          have := Nat.mod_lt 4096 (show 0 < 1 + r by omega)
          omega
        · intro _; simp [flatFreqs]; omega
        · intro x hx
          simp only at hx
          split at hx
          · rename_i h0
            have : r = 0 := by omega
            subst this
            cases hx
            refine ⟨0, rfl, by simp [flatFreqs], by decide, ?_⟩
            intro s hs
            simp only [flatFreqs, List.getD]
            rw [List.getElem?_eq_none (by simp; omega)]
            rfl
          · cases hx
    · refine Safe.bind (safe_readLogCountFreqs L) (fun fs hfs => Safe.pure ⟨hfs.1, (fun _ => hfs.2), (fun x hx => by cases hx)⟩)

/-- What the constructor guarantees on any stream. -/
structure ANSDist.Usable (d : ANSDist) : Prop where
  sum : d.freqs.sum = 4096
  lookup : ∀ i, i < 4096 → ∃ (n : Nat) (k : Int), aliasLookup d i = .ok ((n : Int), k) ∧ n < d.freqs.length
  proper : (∀ f ∈ d.freqs, 0 ≤ f) → d.Proper (d.freqs.map Int.toNat)

theorem map_toNat_ofNat (fs : List Int) (h : ∀ f ∈ fs, 0 ≤ f) : fs = (fs.map Int.toNat).map Int.ofNat := by
  rw [List.map_map]
  conv => lhs; rw [← List.map_id fs]
  apply List.map_congr_left
  intro f hf
  have := h f hf
  simp only [id, Function.comp]
  show f = ((f.toNat : Nat) : Int)
  omega

theorem sum_toNat (fs : List Int) (h : ∀ f ∈ fs, 0 ≤ f) : (((fs.map Int.toNat).sum : Nat) : Int) = fs.sum := by
  induction fs with
  | nil => rfl
  | cons f fs ih =>
    have h1 := ih (fun g hg => h g (by simp [hg]))
    have h2 := h f (by simp)
    simp only [List.map_cons, List.sum_cons]
    omega

theorem getD_toNat (fs : List Int) (s : Nat) : (fs.map Int.toNat).getD s 0 = (fs.getD s 0).toNat := by
  simp only [List.getD, List.getElem?_map]
  cases fs[s]? <;> rfl

theorem generate_usable (L : Nat) (hL : L ≤ 12) (fs : List Int) (uniq : Option Int) (h : FreqsOK L fs uniq) :
    SafeRes (generateAliasMapping L fs uniq) (fun d => d.Usable ∧ d.freqs = fs) := by
  cases uniq with
  | none =>
    obtain ⟨d, hd, hf, hlk⟩ := generate_safe L hL fs (h.len rfl) h.sum
    rw [hd]
    refine ⟨⟨by rw [hf]; exact h.sum, by rw [hf]; exact hlk, ?_⟩, hf⟩
    intro hnn
    rw [hf] at hnn ⊢
    have hs : (fs.map Int.toNat).sum = 4096 := by
      have := sum_toNat fs hnn
      have := h.sum
      omega
    obtain ⟨d', hd', hf', _, hp⟩ := generate_partitions L hL (fs.map Int.toNat) (by rw [List.length_map]; exact h.len rfl) hs
    rw [← map_toNat_ofNat fs hnn, hd] at hd'
    cases hd'
    exact ⟨by rw [hf']; , hs, hp⟩
  | some x =>
    obtain ⟨n, hx, hn, h4, hz⟩ := h.uniq x rfl
    subst hx
    have hnn : ∀ f ∈ fs, 0 ≤ f := by
      intro f hf
      obtain ⟨j, hj, rfl⟩ := List.getElem_of_mem hf
      have e : fs.getD j 0 = fs[j] := by simp [List.getD, hj]
      rw [← e]
      by_cases hjn : j = n
      · subst hjn; omega
      · rw [hz j hjn]; omega
    obtain ⟨d, hd, hf, _, hp⟩ := generate_uniq L hL n (fs.map Int.toNat) (by rw [getD_toNat, h4]; rfl) (fun s hs => by rw [getD_toNat, hz s hs]; rfl)
    rw [← map_toNat_ofNat fs hnn] at hd hf
    rw [hd]
    have hs : (fs.map Int.toNat).sum = 4096 := by
      have := sum_toNat fs hnn
      have := h.sum
      omega
    refine ⟨⟨by rw [hf]; exact h.sum, ?_, ?_⟩, hf⟩
    · intro i hi
      obtain ⟨s, k, hk, hlk⟩ := hp.slot i hi
      refine ⟨s, k, hlk, ?_⟩
      rw [hf]
      by_cases hsl : s < fs.length
      · exact hsl
      · rw [List.getD, List.getElem?_eq_none (by simp; omega)] at hk
        simp at hk
    · intro _
      rw [hf]
      exact ⟨by rw [hf]; exact map_toNat_ofNat fs hnn, hs, hp⟩

theorem safe_newANSDist (L : Nat) (hL : L ≤ 12) : Safe (newANSDist L) ANSDist.Usable := by
  unfold newANSDist
  refine Safe.bind (safe_readFreqs L) (fun p hp => ?_)
  obtain ⟨fs, u⟩ := p
  exact Safe.lift ((generate_usable L hL fs u hp).mono fun _ h => h.1)

theorem safe_ansReadSymbol (d : ANSDist) (h : d.Usable) (st : Option Nat) :
    Safe (ansReadSymbol d st) (fun r => ∃ n : Nat, r.1 = n ∧ n < d.freqs.length) := by
  unfold ansReadSymbol
  have h1 : Safe (ansInitState st) (fun _ => True) := by
    cases st with
    | none => exact (safe_bits 32).mono fun _ _ => trivial
    | some x => exact Safe.pure trivial
  refine Safe.bind h1 (fun x _ => ?_)
  obtain ⟨n, k, hl, hn⟩ := h.lookup (x % 4096) (Nat.mod_lt _ (by decide))
  rw [hl]
  refine Safe.bind (P := fun r => r = ((n : Int), k)) (Safe.lift rfl) (fun r hr => ?_)
  subst hr
  refine Safe.bind (Safe.lift (safe_idx d.freqs (n : Int) (by omega) (by omega))) (fun f _ => ?_)
  dsimp only
  split
  · exact Safe.bind (safe_bits 16) (fun _ _ => Safe.pure ⟨n, rfl, hn⟩)
  · exact Safe.pure ⟨n, rfl, hn⟩

end Jxl
