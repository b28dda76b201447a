import Verif.Proofs.TOC
import Verif.Props.Entropy

/-!
# C17, C18: permutations and the table of contents
-/
namespace Jxl
open Spec

/-! ## C17 -/

/-- **C17**: whenever a permutation is read, it is a rearrangement of `0, …, size-1` whose first `skip` entries are
fixed. -/
theorem C17_permutation (size skip : Nat) (hs : skip ≤ size) (h32 : size < 2 ^ 32) (es es' : ES) (s s' : BR) (p : List Nat)
    (h : readPermutation size skip es s = (.ok (p, es'), s')) :
    p.Perm (List.range size) ∧ ∀ (i : Nat), i < skip → p[i]? = some i := by
  have key : OnOk (readPermutation size skip es) (fun r => r.1.Perm (List.range size) ∧ ∀ (i : Nat), i < skip → r.1[i]? = some i) := by
    unfold readPermutation
    refine OnOk.bind (readLehmer_ok size skip hs es) ?_
    rintro ⟨code, es1⟩ ⟨hv, hz⟩
    obtain ⟨q, h1, h2⟩ := permLoop_spec size (by omega) code _ _ (fenwick_init size (by omega)) List.pairwise_lt_range
      (fun x hx => List.mem_range.1 hx) (by simpa using hv.2)
    refine OnOk.bind (OnOk.lift (Q := fun a => a = q) ?_) ?_
    · intro a ha
      rw [h1] at ha
      cases ha; rfl
    · rintro a rfl
      apply OnOk.pure
      refine ⟨lehmerDecode_perm _ _ _ h2 (by simpa using hv.1), ?_⟩
      intro i hi
      rw [lehmerDecode_zeros skip _ _ _ h2 hz i hi, List.getElem?_range (by omega)]
  exact key s _ _ h

/-- **C17**: the permutation is the one denoted by the Lehmer code that was read, and turning the code into the
permutation never fails or crashes. -/
theorem C17_denotes (size skip : Nat) (hs : skip ≤ size) (h32 : size < 2 ^ 32) (es es' : ES) (s s' : BR) (code : List Nat)
    (h : readLehmer size skip es s = (.ok (code, es'), s')) :
    LehmerValid size code ∧ ∃ p, lehmerDecode (List.range size) code = some p ∧
      readPermutation size skip es s = (.ok (p, es'), s') := by
  obtain ⟨hv, _⟩ := readLehmer_ok size skip hs es s _ _ h
  obtain ⟨q, h1, h2⟩ := permLoop_spec size (by omega) code _ _ (fenwick_init size (by omega)) List.pairwise_lt_range
      (fun x hx => List.mem_range.1 hx) (by simpa using hv.2)
  refine ⟨hv, q, h2, ?_⟩
  unfold readPermutation
  rw [Rd.bind_ok h]
  dsimp only
  rw [h1]
  rfl

/-- The context of each entry of the code: derived from the entry before it. -/
def lehmerCtxs : Nat → List Nat → List Int
  | _, [] => []
  | prev, c :: cs => ctxFunc prev :: lehmerCtxs c cs

theorem lehmerLoop_reads (size : Nat) : ∀ (codes : List Nat) (i prev : Nat) (es es' : ES) (s s' : BR),
    (∀ (j k : Nat), codes[j]? = some k → k < size - (i + j)) → (∀ c ∈ codes, c < 2 ^ 32) →
    ES.readSeq 0 (lehmerCtxs prev codes) es s = (.ok (codes.map Int.ofNat, es'), s') →
    lehmerLoop size codes.length i prev es s = (.ok (codes, es'), s') := by
  intro codes
  induction codes with
  | nil =>
    intro i prev es es' s s' _ _ h
    simp only [lehmerCtxs, ES.readSeq, Rd.pure_eq] at h
    cases h; rfl
  | cons c cs ih =>
    intro i prev es es' s s' hv hb h
    have hc := hv 0 c (by simp)
    rw [lehmerCtxs, ES.readSeq, Rd.bind_eq] at h
    cases h1 : (es.readSymbolMul (ctxFunc prev) 0 s) with
    | mk r s1 =>
      rw [h1] at h
      cases r with
      | err => cases h
      | panic => cases h
      | ok r =>
        obtain ⟨v, es1⟩ := r
        dsimp only at h
        rw [Rd.bind_eq] at h
        cases h2 : (ES.readSeq 0 (lehmerCtxs c cs) es1 s1) with
        | mk r2 s2 =>
          rw [h2] at h
          cases r2 with
          | err => cases h
          | panic => cases h
          | ok r2 =>
            obtain ⟨vs, es2⟩ := r2
            dsimp only at h
            rw [Rd.pure_eq] at h
            simp only [List.map_cons, Prod.mk.injEq, Res.ok.injEq, List.cons.injEq] at h
            obtain ⟨⟨⟨hv1, hvs⟩, he⟩, hs2⟩ := h
            subst he hs2 hvs
            have hu : toU32 v = c := by
              have := hb c (by simp)
              rw [hv1]; unfold toU32; simp; omega
            rw [List.length_cons, lehmerLoop]
            rw [show es.readSymbol (ctxFunc prev) = es.readSymbolMul (ctxFunc prev) 0 from rfl, Rd.bind_ok h1]
            dsimp only
            rw [hu, if_neg (by omega)]
            have := ih (i + 1) c es1 es2 s1 s2 (by
              intro j k hk
              have := hv (j + 1) k (by simpa using hk)
              omega) (fun x hx => hb x (by simp [hx])) h2
            rw [Rd.bind_ok this]
            rfl

theorem lehmerEncode_zeros : ∀ (n : Nat) (p L : List Nat), L.Nodup → (∀ (i : Nat), i < n → p[i]? = L[i]? ∧ i < L.length) →
    ∀ (i : Nat), i < n → (lehmerEncode L p)[i]? = some 0 := by
  intro n
  induction n with
  | zero => intro p L _ _ i hi; omega
  | succ n ih =>
    intro p L hd h i hi
    cases L with
    | nil => have := (h 0 (by omega)).2; simp at this
    | cons x L =>
      cases p with
      | nil => have := (h 0 (by omega)).1; simp at this
      | cons v vs =>
        have h0 := (h 0 (by omega)).1
        simp at h0
        subst h0
        rw [lehmerEncode]
        have e : List.idxOf v (v :: L) = 0 := by simp
        rw [e]
        cases i with
        | zero => rfl
        | succ i =>
          simp only [List.getElem?_cons_succ, List.eraseIdx_cons_zero]
          apply ih
          · exact (List.nodup_cons.1 hd).2
          · intro j hj
            have := h (j + 1) (by omega)
            simpa using this
          · omega

/-- **C17**, every permutation can be transmitted: if the entropy coder delivers the number `n` of entries and then the
entries `skip, …, skip+n-1` of the Lehmer code of `p` (the entries after them being zero), then `p` is read. -/
theorem C17_roundtrip (size skip n : Nat) (hn : skip + n ≤ size) (h31 : size < 2 ^ 32) (p : List Nat)
    (hp : p.Perm (List.range size)) (hfix : ∀ (i : Nat), i < skip → p[i]? = some i)
    (hzero : ∀ (i k : Nat), skip + n ≤ i → (lehmerEncode (List.range size) p)[i]? = some k → k = 0)
    (es es' : ES) (s s' : BR)
    (h : ES.readSeq 0 (ctxFunc size :: lehmerCtxs 0 (((lehmerEncode (List.range size) p).drop skip).take n)) es s =
      (.ok (Int.ofNat n :: (((lehmerEncode (List.range size) p).drop skip).take n).map Int.ofNat, es'), s')) :
    readPermutation size skip es s = (.ok (p, es'), s') := by
  obtain ⟨code, hcode⟩ : ∃ c, c = lehmerEncode (List.range size) p := ⟨_, rfl⟩
  have hval := lehmerEncode_valid p _ hp
  rw [List.length_range] at hval
  rw [← hcode] at hval h hzero
  have hz := lehmerEncode_zeros skip p (List.range size) List.nodup_range (by
    intro i hi
    rw [hfix i hi, List.getElem?_range (by omega)]
    simp; omega)
  rw [← hcode] at hz
  obtain ⟨codes, hcodes⟩ : ∃ c, c = (code.drop skip).take n := ⟨_, rfl⟩
  have hlen : codes.length = n := by rw [hcodes]; simp [hval.1]; omega
  rw [← hcodes] at h
  have hget : ∀ (j k : Nat), codes[j]? = some k → k < size - (skip + j) := by
    intro j k hk
    rw [hcodes, List.getElem?_take] at hk
    split at hk
    · rw [List.getElem?_drop] at hk
      exact hval.2 _ _ hk
    · cases hk
  have hlt : ∀ c ∈ codes, c < 2 ^ 32 := by
    intro c hc
    obtain ⟨j, hj⟩ := List.getElem?_of_mem hc
    have := hget j c hj
    omega
  have hsplit : code = List.replicate skip 0 ++ codes ++ List.replicate (size - skip - n) 0 := by
    apply List.ext_getElem?
    intro i
    rw [List.append_assoc, List.getElem?_append]
    split
    · rename_i h1
      simp at h1
      rw [hz i h1, List.getElem?_replicate, if_pos h1]
    · rename_i h1
      simp at h1
      rw [List.length_replicate, List.getElem?_append]
      split
      · rename_i h2
        rw [hcodes, List.getElem?_take, if_pos (by omega), List.getElem?_drop]
        congr 1; omega
      · rename_i h2
        rw [List.getElem?_replicate]
        split
        · rename_i h3
          have hi : i < code.length := by rw [hval.1]; omega
          rw [List.getElem?_eq_getElem hi]
          have := hzero i code[i] (by omega) (List.getElem?_eq_getElem hi)
          rw [this]
        · apply List.getElem?_eq_none
          rw [hval.1]; omega
  have hread : readLehmer size skip es s = (.ok (code, es'), s') := by
    rw [ES.readSeq, Rd.bind_eq] at h
    cases h1 : (es.readSymbolMul (ctxFunc size) 0 s) with
    | mk r s1 =>
      rw [h1] at h
      cases r with
      | err => cases h
      | panic => cases h
      | ok r =>
        obtain ⟨v, es1⟩ := r
        dsimp only at h
        rw [Rd.bind_eq] at h
        cases h2 : (ES.readSeq 0 (lehmerCtxs 0 codes) es1 s1) with
        | mk r2 s2 =>
          rw [h2] at h
          cases r2 with
          | err => cases h
          | panic => cases h
          | ok r2 =>
            obtain ⟨vs, es2⟩ := r2
            dsimp only at h
            rw [Rd.pure_eq] at h
            simp only [Prod.mk.injEq, Res.ok.injEq, List.cons.injEq] at h
            obtain ⟨⟨⟨hv1, hvs⟩, he⟩, hs2⟩ := h
            subst he hs2 hvs
            have hu : toU32 v = n := by rw [hv1]; unfold toU32; simp; omega
            unfold readLehmer
            rw [show es.readSymbol (ctxFunc size) = es.readSymbolMul (ctxFunc size) 0 from rfl, Rd.bind_ok h1]
            dsimp only
            rw [hu, if_neg (by omega)]
            have := lehmerLoop_reads size codes skip 0 es1 es2 s1 s2 hget hlt h2
            rw [hlen] at this
            rw [Rd.bind_ok this, Rd.pure_eq, hsplit]
  obtain ⟨_, q, h1, h2⟩ := C17_denotes size skip (by omega) (by omega) es es' s s' code hread
  have : lehmerDecode (List.range size) code = some p := by rw [hcode]; exact lehmerDecode_encode p _ hp
  rw [this] at h1
  cases h1
  exact h2

/-- The hypotheses of the theorems above are met: a permutation of five things is read from this stream, and one of ten
things of which the first two are fixed. -/
example : (match ((ES.load 8 false >>= fun es => readPermutation 5 0 es) (BR.new [0xf2, 0x43, 4, 0, 0])).1 with
    | .ok r => some r.1 | _ => none) = some [1, 0, 2, 3, 4] := by decide +kernel
example : lehmerEncode (List.range 10) [0, 1, 9, 3, 2, 5, 4, 8, 7, 6] = [0, 0, 7, 1, 0, 1, 0, 2, 1, 0] := by decide
example : lehmerDecode (List.range 10) [0, 0, 7, 1, 0, 1, 0, 2, 1, 0] = some [0, 1, 9, 3, 2, 5, 4, 8, 7, 6] := by decide

/-! ## C18 -/

/-- **C18** for tables of contents with more than one entry that are not permuted: section `i` is read from the bytes the
table of contents assigns to it (with four zero bytes after it). `_partial`: false for permuted tables
(`C18_violated`), and every section must begin before the end of the data, even if it is empty (`C18_violated_at_end`). -/
theorem C18_unpermuted_partial (toc : TOC) (s : BR) (h0 : s.index = 0) (hd : s.pos + toc.lengths.sum ≤ s.data.length)
    (hb : ∀ i, i < toc.lengths.length → s.pos + (toc.lengths.take i).sum < s.data.length)
    (hn : 1 < toc.lengths.length) (hp : toc.permutation = none) :
    ∃ readers s', setupBitReaders toc s = (.ok readers, s') ∧ s'.pos = s.pos + toc.lengths.sum ∧ s'.index = 0 ∧
      ∀ (i : Nat), i < toc.lengths.length →
        getBitreader toc readers i = .ok (.own (logicalSection (s.data.drop s.pos) toc.lengths toc.permutation i ++ [0, 0, 0, 0])) := by
  obtain ⟨s', h1, h2, h3, h4⟩ := readSections_ok toc.lengths s h0 hd hb
  unfold setupBitReaders
  rw [if_pos (by omega), Rd.bind_ok h1, Rd.pure_eq]
  refine ⟨_, s', rfl, h2, h3, ?_⟩
  intro i hi
  unfold getBitreader
  rw [if_neg (by omega)]
  apply idx_of_getElem?
  rw [List.getElem?_map, List.getElem?_map, List.getElem?_range hi, hp]
  rfl

/-- The hypotheses are met by sections that end with the data. -/
example : ∃ (toc : TOC) (s : BR), s.index = 0 ∧ s.pos + toc.lengths.sum = s.data.length ∧ (∀ i, i < toc.lengths.length → s.pos + (toc.lengths.take i).sum < s.data.length) ∧
    1 < toc.lengths.length ∧ toc.permutation = none :=
  ⟨⟨none, [2, 1, 0, 1]⟩, BR.new [1, 2, 3, 4], by decide⟩

/-- **C18** for a table of contents with one entry: the section is read from the frame's own reader, which stands at
its first byte. -/
theorem C18_single (toc : TOC) (s : BR) (hn : toc.lengths.length = 1) :
    ∃ readers, setupBitReaders toc s = (.ok readers, s) ∧ ∀ (i : Nat), getBitreader toc readers i = .ok .shared := by
  refine ⟨[.shared], ?_, ?_⟩
  · unfold setupBitReaders
    rw [if_neg (by omega)]
    rfl
  · intro i
    unfold getBitreader
    rw [if_pos (by omega)]
    rfl

/-- The permutation has no influence on where sections are read from. -/
theorem C18_permutation_ignored (lengths : List Nat) (p q : Option (List Nat)) :
    setupBitReaders ⟨p, lengths⟩ = setupBitReaders ⟨q, lengths⟩ ∧
      ∀ r i, getBitreader ⟨p, lengths⟩ r i = getBitreader ⟨q, lengths⟩ r i := ⟨rfl, fun _ _ => rfl⟩

/-- The data of `C18_violated`: a table of contents of five sections of lengths 2, 1, 1, 1, 1 with the first two
exchanged, and seven bytes of section data. -/
def permutedTOCData : List UInt8 := [229, 135, 8, 8, 64, 0, 4, 64, 0, 4, 0, 11, 12, 13, 14, 15, 16, 17]

/-- **C18** fails: for a permuted table of contents (a frame of one group and two passes) logical section 0 is the one
stored second, the byte 13, but it is read from the bytes 11, 12 that are stored first. -/
theorem C18_violated :
    (readTOC 1 1 2 (BR.new permutedTOCData)).1 = .ok ⟨some [1, 0, 2, 3, 4], [2, 1, 1, 1, 1]⟩ ∧
    logicalSection (permutedTOCData.drop 11) [2, 1, 1, 1, 1] (some [1, 0, 2, 3, 4]) 0 = [13] ∧
    ((readTOC 1 1 2 >>= fun toc => setupBitReaders toc >>= fun r => Rd.lift (getBitreader toc r 0)) (BR.new permutedTOCData)).1 =
      .ok (.own [11, 12, 0, 0, 0, 0]) := by
  decide +kernel

/-- **C18** fails for an empty last section at the very end of the data: it is refused. -/
theorem C18_violated_at_end : (setupBitReaders ⟨none, [1, 1, 0]⟩ (BR.new [5, 6])).1 = .err := by decide +kernel

/-- **C18**: the lengths of the sections are read as the format writes them. -/
theorem C18_lengths (n : Nat) : Implements (readLengths n) (decLengths n) := by
  induction n with
  | zero => exact Implements.pure _
  | succ n ih =>
    refine Implements.bind (implements_u32 (fun k => match k with | 0 => (0, 10) | 1 => (1024, 14) | 2 => (17408, 22) | 3 => (4211712, 30)) ?_) ?_
    · intro k; revert k; decide
    · intro l
      refine Implements.bind ih ?_
      intro ls
      exact Implements.pure _

/-- **C18**: a table of contents without permutation: a zero bit, padding to a byte, the lengths of all sections, padding
to a byte; the sections start there. -/
theorem C18_toc (g l np : Nat) (s : BR) (p : Nat) (hs : AtBit s p) (hb : [false] <+: bitsFrom s.data p) :
    match decLengths (tocEntries g l np) (bitsFrom s.data (8 * ((p + 8) / 8))) with
    | some (ls, r) => ∃ s' q, readTOC g l np s = (.ok ⟨none, ls⟩, s') ∧ r = bitsFrom s.data q ∧ AtBit s' (8 * ((q + 7) / 8)) ∧ s'.data = s.data
    | none => (readTOC g l np s).1 = .err := by
  obtain ⟨s1, a1, a2, a3⟩ := reads_bool false s p hs hb
  obtain ⟨s2, b1, b2, b3⟩ := zeroPad_spec s1 _ a2
  have hp : 8 * ((p + [false].length + 7) / 8) = 8 * ((p + 8) / 8) := by simp [Nat.add_assoc]
  rw [hp] at b2
  have hi := C18_lengths (tocEntries g l np) s2 _ b2
  rw [b3, a3] at hi
  have hr : readTOC g l np s = (readLengths (tocEntries g l np) >>= fun ls => zeroPadToByte >>= fun _ => (Pure.pure ⟨none, ls⟩ : Rd TOC)) s2 := by
    unfold readTOC
    rw [Rd.bind_ok a1]
    have : readTOCPermutation (tocEntries g l np) false s1 = (.ok none, s1) := rfl
    rw [Rd.bind_ok this, Rd.bind_ok b1]
  rw [hr]
  cases hd : decLengths (tocEntries g l np) (bitsFrom s.data (8 * ((p + 8) / 8))) with
  | none =>
    rw [hd] at hi
    dsimp only at hi ⊢
    rw [Rd.bind_eq]
    rcases hm : readLengths (tocEntries g l np) s2 with ⟨_ | _ | _, s3⟩ <;> rw [hm] at hi
    all_goals first | rfl | cases hi
  | some v =>
    obtain ⟨ls, r⟩ := v
    rw [hd] at hi
    obtain ⟨s3, q, c1, c2, c3, c4, c5⟩ := hi
    obtain ⟨s4, d1, d2, d3⟩ := zeroPad_spec s3 _ c2
    refine ⟨s4, q, ?_, c4, d2, by rw [d3, c3]⟩
    rw [Rd.bind_ok c1, Rd.bind_ok d1, Rd.pure_eq]


example : (readTOC 1 1 2 (BR.new [0, 8, 64, 0, 4, 64, 0, 4, 11])).1 = .ok ⟨none, [2, 1, 1, 1, 705]⟩ := by decide +kernel

/-- The number of sections: one for the whole frame, or one for the global low-frequency data, one per low-frequency
group, one for the global high-frequency data and one per group and pass. -/
theorem C18_entries (g l p : Nat) (h : 1 + l + 1 + g * p < 2 ^ 32) :
    tocEntries g l p = if g = 1 ∧ p = 1 then 1 else 2 + l + g * p := by
  unfold tocEntries u32
  split
  · rfl
  · rw [Nat.mod_eq_of_lt (by omega)]; omega

/-- Skipping a frame leaves the reader after its last section. `_partial`: sections below 2^29 bytes (the length in bits
is computed in 32 bits, see `C18_skip_violated`). -/
theorem C18_skip_partial (ls : List Nat) : ∀ (s : BR) (p : Nat), AtBit s p → (∀ l ∈ ls, l < 2 ^ 29) → p + 8 * ls.sum ≤ 8 * s.data.length →
    ∃ s', skipFrameData ls s = (.ok (), s') ∧ AtBit s' (p + 8 * ls.sum) ∧ s'.data = s.data := by
  induction ls with
  | nil => intro s p h _ _; exact ⟨s, rfl, by simpa using h, rfl⟩
  | cons l ls ih =>
    intro s p h hb hd
    simp only [List.sum_cons] at hd ⊢
    have hl := hb l (by simp)
    obtain ⟨s1, e1, e2, e3, _⟩ := skipBits_spec (8 * l) s p h (by omega)
    have hw : u32 (l <<< 3) = 8 * l := by unfold u32; rw [Nat.shiftLeft_eq]; omega
    have e4 : skipBytes l s = (.ok l, s1) := by
      unfold skipBytes
      rw [hw, e1]
    obtain ⟨s2, f1, f2, f3⟩ := ih s1 (p + 8 * l) e2 (fun x hx => hb x (by simp [hx])) (by rw [e3]; omega)
    refine ⟨s2, ?_, ?_, by rw [f3, e3]⟩
    · rw [skipFrameData, Rd.bind_ok e4]; exact f1
    · have : p + 8 * (l + ls.sum) = p + 8 * l + 8 * ls.sum := by omega
      rw [this]; exact f2

example : (∀ l ∈ [3, 0, 7], l < 2 ^ 29) ∧ AtBit (BR.new [1, 2, 3, 4, 5, 6, 7, 8, 9, 10, 11]) 0 :=
  ⟨by decide, AtBit.new _⟩

/-- A section of 2^29 bytes, a legal length, is not skipped at all. -/
theorem C18_skip_violated (s : BR) : skipFrameData [2 ^ 29] s = (.ok (), s) := by
  simp [skipFrameData, skipBytes, Rd.bind_eq, u32, skipBits, skipLoop, Rd.pure_eq]

end Jxl
