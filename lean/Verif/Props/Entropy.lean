import Verif.Proofs.LZ
import Verif.Proofs.Cluster
import Verif.Proofs.ANSRead
import Verif.Proofs.PrefixDesc
import Verif.Props.Util
/-!
# C12-C16, C53: entropy-coded streams

Specification: `Spec/Stream.lean` (partition of the slots, rANS encoder, hybrid integers, LZ77 commands,
move-to-front).
-/
namespace Jxl
open Spec

/-- **C12**. For every alphabet of at most `2^L` symbols (`L ≤ 12`; the format uses 5..8) and every frequency table with
sum 4096, the alias table is built and partitions the 4096 slots exactly: every slot belongs to one (symbol, offset) with
the offset below the symbol's frequency, every such pair has a slot, and different slots have different pairs. -/
theorem C12_alias_partition (L : Nat) (hL : L ≤ 12) (fs : List Nat) (hlen : fs.length ≤ 2 ^ L) (hsum : fs.sum = 4096) :
    ∃ d, generateAliasMapping L (fs.map Int.ofNat) none = .ok d ∧ d.freqs = fs.map Int.ofNat ∧ Partitions d (fun s => fs.getD s 0) := by
  obtain ⟨d, h1, h2, _, h3⟩ := generate_partitions L hL fs hlen hsum
  exact ⟨d, h1, h2, h3⟩

example : ∃ d, generateAliasMapping 5 ([1000, 96, 3000].map Int.ofNat) none = .ok d ∧ Partitions d (fun s => [1000, 96, 3000].getD s 0) := by
  obtain ⟨d, h1, _, h2⟩ := C12_alias_partition 5 (by decide) [1000, 96, 3000] (by decide) (by decide)
  exact ⟨d, h1, h2⟩

/-- **C12**, distributions with a single symbol, which the code treats apart: the same partition. -/
theorem C12_alias_single (L : Nat) (hL : L ≤ 12) (x : Nat) (fs : List Nat) (hx : fs.getD x 0 = 4096) (hz : ∀ s, s ≠ x → fs.getD s 0 = 0) :
    ∃ d, generateAliasMapping L (fs.map Int.ofNat) (some (x : Int)) = .ok d ∧ d.freqs = fs.map Int.ofNat ∧ Partitions d (fun s => fs.getD s 0) := by
  obtain ⟨d, h1, h2, _, h3⟩ := generate_uniq L hL x fs hx hz
  exact ⟨d, h1, h2, h3⟩

example : [0, 4096].getD 1 0 = 4096 ∧ ∀ s, s ≠ 1 → [0, 4096].getD s 0 = 0 := by
  refine ⟨rfl, fun s hs => ?_⟩
  match s, hs with
  | 0, _ => rfl
  | 1, h => exact absurd rfl h
  | s + 2, _ => rfl

/-- **C12**, on every stream: a distribution that is accepted has sum 4096 and, unless one of its frequencies is
negative, is an exact partition. `_partial`: a stream can describe, and the reader accepts, a distribution with a negative
frequency (`C12_violated`). -/
theorem C12_accepted_partial (L : Nat) (hL : L ≤ 12) (s s' : BR) (d : ANSDist) (h : newANSDist L s = (.ok d, s')) :
    d.freqs.sum = 4096 ∧ ((∀ f ∈ d.freqs, 0 ≤ f) → ∃ freq : List Nat, d.freqs = freq.map Int.ofNat ∧ freq.sum = 4096 ∧ Partitions d (fun s => freq.getD s 0)) := by
  have hu := (safe_newANSDist L hL).of_ok h
  exact ⟨hu.sum, fun hnn => ⟨_, (hu.proper hnn).freqs, (hu.proper hnn).sum, (hu.proper hnn).part⟩⟩

/-- A stream that describes an alphabet of two symbols with frequencies 3 and 4093. -/
example : ((newANSDist 5 (BR.new [139, 1, 0])).1 |> fun r => match r with | .ok d => d.freqs | _ => []) = [3, 4093] := by decide +kernel

/-- **C12** fails for a stream whose explicit frequencies exceed 4096: the distribution is accepted with the frequency
-4094 for its first symbol. -/
theorem C12_violated : ∃ d s', newANSDist 5 (BR.new [220, 2, 129, 192, 255, 255, 15]) = (.ok d, s') ∧ d.freqs = [-4094, 4095, 4095] := by
  have h : ((newANSDist 5 (BR.new [220, 2, 129, 192, 255, 255, 15])).1 |> fun r => match r with | .ok d => d.freqs | _ => []) = [-4094, 4095, 4095] := by
    decide +kernel
  rcases hm : newANSDist 5 (BR.new [220, 2, 129, 192, 255, 255, 15]) with ⟨_ | _ | _, s'⟩ <;> rw [hm] at h
  · exact ⟨_, s', rfl, h⟩
  · cases h
  · cases h

/-- Reading one symbol with each of the given distributions, in order. -/
def readSyms : List ANSDist → Option Nat → Rd (List Int × Option Nat)
  | [], st => pure ([], st)
  | d :: ds, st => do
    let (s, st) ← ansReadSymbol d st
    let (ss, st) ← readSyms ds st
    pure (s :: ss, st)

/-- The encoder's slot of a pair (symbol, offset): found by searching the table. -/
def slotOf (d : ANSDist) (s k : Nat) : Nat :=
  ((List.range 4096).find? fun i => decide (aliasLookup d i = .ok ((s : Int), (k : Int)))).getD 0

/-- An rANS encoder. -/
def ansCoder : Coder := { word := fun _ _ => [], slot := slotOf, pad := 0 }

/-- The bits of a message of symbols with their distributions. -/
def ansEncode (msg : List (ANSDist × Nat)) : List Bool :=
  streamBitsOf ansCoder (msg.map fun m => Item.sym (.ans m.1 ⟨0, 0, 0⟩) m.2)

theorem slotOf_spec {d : ANSDist} {freq : List Nat} (h : d.Proper freq) (s k : Nat) (hk : k < d.freq s) :
    slotOf d s k < 4096 ∧ aliasLookup d (slotOf d s k) = .ok ((s : Int), (k : Int)) := by
  rw [h.freq_eq] at hk
  obtain ⟨i, hi, hl⟩ := h.part.surj s k hk
  unfold slotOf
  cases hf : (List.range 4096).find? fun i => decide (aliasLookup d i = .ok ((s : Int), (k : Int))) with
  | none =>
    rw [List.find?_eq_none] at hf
    exact absurd (hf i (by simpa using hi)) (by simp [hl])
  | some j =>
    have h1 := List.find?_some hf
    have h2 := List.mem_of_find?_eq_some hf
    simp only [decide_eq_true_eq] at h1
    simp only [List.mem_range] at h2
    exact ⟨h2, h1⟩

theorem ansRead_isSome (d : ANSDist) (st : Option Nat) : OnOk (ansReadSymbol d st) (fun r => r.2.isSome) := by
  unfold ansReadSymbol
  refine OnOk.bind (OnOk.trivial _) (fun _ _ => OnOk.bind (OnOk.trivial _) (fun _ _ => OnOk.bind (OnOk.trivial _) (fun _ _ => ?_)))
  dsimp only
  split
  · exact OnOk.bind (OnOk.trivial _) (fun _ _ => OnOk.pure rfl)
  · exact OnOk.pure rfl

theorem readSyms_carries (msg : List (ANSDist × Nat)) (hok : ∀ m ∈ msg, (∃ freq, m.1.Proper freq) ∧ 0 < m.1.freq m.2) :
    ∀ (st : Option Nat) (s : BR) (e : Nat), Carries ansCoder st s (msg.map fun m => Item.sym (.ans m.1 ⟨0, 0, 0⟩) m.2) e →
      ∃ st' s', readSyms (msg.map (·.1)) st s = (.ok (msg.map (fun m => (m.2 : Int)), st'), s') ∧ AtBit s' e ∧ s'.data = s.data ∧
        (msg = [] ∧ st = none ∨ st' = some 0x130000) := by
  induction msg with
  | nil =>
    intro st s e h
    obtain ⟨h1, h2⟩ := h.done
    refine ⟨st, s, rfl, h1, rfl, ?_⟩
    cases st with
    | none => exact Or.inl ⟨rfl, rfl⟩
    | some x => exact Or.inr (congrArg some (h2 x rfl))
  | cons m msg ih =>
    intro st s e h
    simp only [List.map_cons] at h ⊢
    have hitem : ∀ i ∈ (m :: msg).map (fun m => Item.sym (.ans m.1 ⟨0, 0, 0⟩) m.2), i.OK ansCoder := by
      intro i hi
      rw [List.mem_map] at hi
      obtain ⟨m', hm', rfl⟩ := hi
      obtain ⟨⟨freq, hp⟩, hf⟩ := hok m' hm'
      refine ⟨⟨freq, hp⟩, hf, fun k hk => ?_⟩
      simp only [ansCoder]
      exact slotOf_spec hp m'.2 k hk
    obtain ⟨st1, s1, e1, c1, d1⟩ := Carries.readSym h hitem
    have hsome : st1.isSome := ansRead_isSome m.1 st s _ _ e1
    obtain ⟨st', s', r1, r2, r3, r4⟩ := ih (fun m' hm' => hok m' (by simp [hm'])) st1 s1 e c1
    refine ⟨st', s', ?_, r2, r3.trans d1, Or.inr ?_⟩
    · unfold readSyms
      rw [Rd.bind_ok (show ansReadSymbol m.1 st s = _ from e1)]
      dsimp only
      rw [Rd.bind_ok r1]
      rfl
    · rcases r4 with ⟨_, h⟩ | h
      · rw [h] at hsome; cases hsome
      · exact h

/-- **C13**. For every message, of any length, of symbols with non-zero frequency in proper distributions (a different
one for each symbol if desired): from any position of any stream, decoding the bits of the rANS encoder returns the
symbols, consumes exactly these bits and ends in the state 0x130000 that is accepted as the final state. -/
theorem C13_ans_roundtrip (msg : List (ANSDist × Nat)) (hne : msg ≠ []) (hok : ∀ m ∈ msg, (∃ freq, m.1.Proper freq) ∧ 0 < m.1.freq m.2) :
    Reads (readSyms (msg.map (·.1)) none) (ansEncode msg) (msg.map (fun m => (m.2 : Int)), some 0x130000) := by
  intro s p hs hpre
  have hlen := hpre.length_le
  rw [length_bitsFrom] at hlen
  have hle := hs.le
  obtain ⟨st', s', h1, h2, h3, h4⟩ := readSyms_carries msg hok none s (p + (ansEncode msg).length)
    ⟨p, hs, hpre, rfl, by simp only [ansCoder]; omega, fun x hx => by cases hx⟩
  refine ⟨s', ?_, h2, h3⟩
  rcases h4 with ⟨h, _⟩ | h
  · exact absurd h hne
  · rw [h1, h]

/-- A proper distribution over three symbols, and a message. -/
example : ∃ d : ANSDist, d.Proper [1000, 96, 3000] ∧
    Reads (readSyms [d, d, d, d] none) (ansEncode [(d, 1), (d, 2), (d, 0), (d, 1)]) ([1, 2, 0, 1], some 0x130000) := by
  obtain ⟨d, h1, h2, h3⟩ := C12_alias_partition 5 (by decide) [1000, 96, 3000] (by decide) (by decide)
  have hp : d.Proper [1000, 96, 3000] := ⟨h2, by decide, h3⟩
  refine ⟨d, hp, ?_⟩
  refine C13_ans_roundtrip [(d, 1), (d, 2), (d, 0), (d, 1)] (by simp) ?_
  intro m hm
  refine ⟨⟨_, by simp at hm; rcases hm with rfl | rfl | rfl | rfl <;> exact hp⟩, ?_⟩
  simp at hm
  rcases hm with rfl | rfl | rfl | rfl <;> rw [hp.freq_eq] <;> simp

/-- The final state of C13 is the one the stream's check accepts; no other state is. -/
theorem C13_final_state (es : ES) : es.validateFinalState = true ↔ (es.state = none ∨ es.state = some 0x130000) := by
  unfold ES.validateFinalState
  cases es.state with
  | none => simp
  | some x => simp

/-- **C14**. For every valid configuration and every 32-bit value: reading the token's hybrid integer from the extra bits
gives the value (as the 32-bit integer the API returns), wherever the bits stand. -/
theorem C14_hybrid (c : HybridConfig) (hc : c.Valid) (v : Nat) (hv : v < 2 ^ 32) :
    Reads (readHybrid c (hybridToken c v).token) (extraBits c v) (i32 v) := hybrid_spec c hc v hv

example : (⟨4, 2, 1⟩ : HybridConfig).Valid ∧ (hybridToken ⟨4, 2, 1⟩ 1000).token = 62 ∧ extraBits ⟨4, 2, 1⟩ 1000 = bitsOf 6 52 :=
  ⟨⟨by decide, by decide⟩, by decide, by decide⟩

/-- Every bit string is the beginning of some data. -/
theorem exists_stream (l : List Bool) : ∃ data : List UInt8, l <+: bitsFrom data 0 := by
  have key : ∀ (n : Nat) (l : List Bool), l.length ≤ 8 * n → l <+: streamBits ((List.replicate n (0 : UInt8)).mapIdx fun i _ => UInt8.ofNat (leVal ((l.drop (8 * i)).take 8))) := by
    intro n
    induction n with
    | zero => intro l hl; have : l = [] := List.eq_nil_of_length_eq_zero (by omega); subst this; exact List.nil_prefix
    | succ n ih =>
      intro l hl
      rw [List.replicate_succ, List.mapIdx_cons, streamBits_cons]
      have h2 := ih (l.drop 8) (by simp; omega)
      have e : ((List.replicate n (0 : UInt8)).mapIdx fun i _ => UInt8.ofNat (leVal (((l.drop 8).drop (8 * i)).take 8))) =
          ((List.replicate n (0 : UInt8)).mapIdx fun i _ => UInt8.ofNat (leVal ((l.drop (8 * (i + 1))).take 8))) := by
        apply List.ext_getElem?
        intro i
        simp only [List.getElem?_mapIdx, List.drop_drop]
        rw [show 8 + 8 * i = 8 * (i + 1) by omega]
      rw [e] at h2
      have hb : (UInt8.ofNat (leVal ((l.drop (8 * 0)).take 8))).toNat = leVal (l.take 8) := by
        simp only [Nat.mul_zero, List.drop_zero, UInt8.toNat_ofNat']
        apply Nat.mod_eq_of_lt
        have h1 := leVal_lt (l.take 8)
        refine Nat.lt_of_lt_of_le h1 (Nat.pow_le_pow_right (by decide) ?_)
        rw [List.length_take]; omega
      rw [hb]
      by_cases h8 : 8 ≤ l.length
      · conv => lhs; rw [← List.take_append_drop 8 l]
        have : bitsOf 8 (leVal (l.take 8)) = l.take 8 := by
          have := bitsOf_leVal (l.take 8)
          rwa [List.length_take, Nat.min_eq_left h8] at this
        rw [this]
        exact List.prefix_append_right_inj _ |>.2 h2
      · have hlen : (l.take 8).length = l.length := by rw [List.length_take]; omega
        have ht : l.take 8 = l := List.take_of_length_le (by omega)
        rw [ht]
        have : l <+: bitsOf 8 (leVal l) := by
          rw [List.prefix_iff_eq_take]
          have h := bitsOf_leVal l
          apply List.ext_getElem?
          intro i
          by_cases hi : i < l.length
          · rw [List.getElem?_take, if_pos hi, bitsOf_get 8 _ i (by omega)]
            conv => lhs; rw [← h]
            rw [bitsOf_get _ _ i hi]
          · rw [List.getElem?_eq_none (by omega), List.getElem?_eq_none (by simp; omega)]
        exact this.trans (List.prefix_append _ _)
  exact ⟨_, by unfold bitsFrom; rw [List.drop_zero]; exact key l.length l (by omega)⟩

/-- **C14**: different values have different codes. -/
theorem C14_token_inj (c : HybridConfig) (hc : c.Valid) (v w : Nat) (hv : v < 2 ^ 32) (hw : w < 2 ^ 32)
    (ht : (hybridToken c v).token = (hybridToken c w).token) (he : (hybridToken c v).extra = (hybridToken c w).extra)
    (hn : (hybridToken c v).nbits = (hybridToken c w).nbits) : v = w := by
  obtain ⟨data, hdata⟩ := exists_stream (extraBits c v)
  have ee : extraBits c w = extraBits c v := by unfold extraBits; rw [he, hn]
  obtain ⟨s1, h1, _⟩ := C14_hybrid c hc v hv (BR.new data) 0 (AtBit.new data) hdata
  obtain ⟨s2, h2, _⟩ := C14_hybrid c hc w hw (BR.new data) 0 (AtBit.new data) (by rw [ee]; exact hdata)
  rw [← ht, h1] at h2
  have : i32 (v : Int) = i32 (w : Int) := Res.ok.inj (congrArg Prod.fst h2)
  unfold i32 at this
  omega

/-- The encoding of a configuration. -/
def configBits (logAlphabetSize : Nat) (c : HybridConfig) : List Bool :=
  bitsOf (ceilLog1p logAlphabetSize) c.splitExponent ++
    (if c.splitExponent = logAlphabetSize then []
     else bitsOf (ceilLog1p c.splitExponent) c.msbInToken ++ bitsOf (ceilLog1p (c.splitExponent - c.msbInToken)) c.lsbInToken)

/-- **C14**, configurations: every configuration that fits is read back, and every configuration that is accepted on any
stream is valid (so that C14 applies to it). -/
theorem C14_config (L : Nat) (hL : L ≤ 15) (c : HybridConfig) (h1 : c.splitExponent ≤ L) (h2 : c.msbInToken + c.lsbInToken ≤ c.splitExponent)
    (h3 : c.splitExponent = L → c.msbInToken = 0 ∧ c.lsbInToken = 0) : Reads (readHybridConfig L) (configBits L c) c := by
  have fits : ∀ x y : Nat, x ≤ y → x < 2 ^ ceilLog1p y := fun x y h => by
    have := (C41_ceilLog1p y (ceilLog1p y)).1 (Nat.le_refl _); omega
  have small : ∀ y : Nat, y ≤ 15 → ceilLog1p y ≤ 64 := fun y h => by
    have := (C41_ceilLog1p y 64).2 (by omega); exact this
  obtain ⟨se, msb, lsb⟩ := c
  dsimp only at h1 h2 h3
  unfold readHybridConfig configBits
  dsimp only
  refine Reads.bind (reads_bitsOf _ se (small L hL) (fits se L h1)) ?_
  by_cases he : se = L
  · rw [if_pos he, if_pos he]
    obtain ⟨a, b⟩ := h3 he
    subst a; subst b
    exact Reads.pure _
  · rw [if_neg he, if_neg he]
    refine Reads.bind (reads_bitsOf _ msb (small se (by omega)) (fits msb se (by omega))) ?_
    rw [if_neg (by omega)]
    have := Reads.bind (e2 := []) (reads_bitsOf _ lsb (small (se - msb) (by omega)) (fits lsb (se - msb) (by omega)))
      (f := fun lsb => if se < msb + lsb then Rd.fail else pure { splitExponent := se, msbInToken := msb, lsbInToken := lsb })
      (b := (⟨se, msb, lsb⟩ : HybridConfig)) (by rw [if_neg (by omega)]; exact Reads.pure _)
    rw [List.append_nil] at this
    exact this

example : configBits 8 ⟨4, 2, 1⟩ = bitsOf 4 4 ++ (bitsOf 3 2 ++ bitsOf 2 1) := by decide

theorem C14_config_valid (L : Nat) (hL : L ≤ 15) (s s' : BR) (c : HybridConfig) (h : readHybridConfig L s = (.ok c, s')) : c.Valid := by
  have hs : Safe (readHybridConfig L) HybridConfig.Valid := by
    unfold readHybridConfig
    refine Safe.bind (safe_bits _) (fun se hse => ?_)
    have h4 : ceilLog1p L ≤ 4 := (C41_ceilLog1p L 4).2 (by omega)
    have h15 : se ≤ 15 := by
      have : 2 ^ ceilLog1p L ≤ 2 ^ 4 := Nat.pow_le_pow_right (by decide) h4
      omega
    split
    · exact Safe.pure ⟨by simp, h15⟩
    · refine Safe.bind (safe_bits _) (fun msb _ => ?_)
      split
      · exact Safe.fail
      · refine Safe.bind (safe_bits _) (fun lsb _ => ?_)
        split
        · exact Safe.fail
        · exact Safe.pure ⟨by simp only; omega, h15⟩
  exact hs.of_ok h

/-- **C15**. A stream object that has read nothing, with any codes, at any position of any data; any list of literal and
copy commands (with LZ77 or, when there is no copy, without it) that produces one value per context of `ctxs`: reading
those values returns exactly the expansion of the commands - overlapping copies and distances beyond the start of the
data or the 2^20 window included -, consumes exactly the coded bits, and leaves an accepted final state.
`_partial`: `LZValid` excludes the special distance codes that stand for a distance below 1 (`C15_violated`). -/
theorem C15_lz77_partial (co : Coder) (cd : Codes) (mult : Int) (cmds : List LZCmd) (ctxs : List Int) (es : ES)
    (h0 : es.state = none) (h1 : es.numToCopy = 0) (h2 : es.numDecoded = 0) (hu : es.Uses cd ctxs)
    (hv : LZValid cd mult cmds ctxs 0) (hlen : ctxs.length < 2 ^ 31) (hok : ∀ i ∈ lzItems cd cmds ctxs, i.OK co)
    (s : BR) (p : Nat) (hs : AtBit s p) (hpre : streamBitsOf co (lzItems cd cmds ctxs) <+: bitsFrom s.data p)
    (hpad : p + (streamBitsOf co (lzItems cd cmds ctxs)).length + co.pad ≤ 8 * s.data.length) :
    ∃ es' s', ES.readSeq mult ctxs es s = (.ok (expandLZ cmds [], es'), s') ∧
      AtBit s' (p + (streamBitsOf co (lzItems cd cmds ctxs)).length) ∧ s'.data = s.data ∧ es'.validateFinalState = true := by
  have hh : es.Holds [] := ⟨h1, fun _ => by rw [h2]; rfl, fun _ j hj => by simp at hj⟩
  obtain ⟨vals, es', s', r1, r2, r3, r4, r5, r6, r7⟩ := readSeq_spec co cd mult cmds ctxs [] es s [] _ hh hu hv (by simpa using hlen)
    (by simpa using hok) (by rw [List.append_nil, h0]; exact ⟨p, hs, hpre, rfl, hpad, fun x hx => by cases hx⟩)
  obtain ⟨d1, d2⟩ := r6.done
  rw [List.nil_append] at r2
  subst r2
  refine ⟨es', s', r1, d1, r7, ?_⟩
  rw [C13_final_state]
  cases hst : es'.state with
  | none => exact Or.inl rfl
  | some x => right; rw [d2 x hst]

/-- The same with a history: whatever was read before, the next commands are expanded over it. -/
theorem C15_lz77_history_partial (co : Coder) (cd : Codes) (mult : Int) (cmds : List LZCmd) (ctxs out : List Int) (es : ES)
    (hh : es.Holds out) (hu : es.Uses cd ctxs) (hv : LZValid cd mult cmds ctxs out.length) (hb : out.length + ctxs.length < 2 ^ 31)
    (rest : List Item) (e : Nat) (hok : ∀ i ∈ lzItems cd cmds ctxs ++ rest, i.OK co) (s : BR)
    (hc : Carries co es.state s (lzItems cd cmds ctxs ++ rest) e) :
    ∃ vals es' s', ES.readSeq mult ctxs es s = (.ok (vals, es'), s') ∧ out ++ vals = expandLZ cmds out ∧
      es'.Holds (out ++ vals) ∧ Carries co es'.state s' rest e := by
  obtain ⟨vals, es', s', r1, r2, r3, r4, r5, r6, r7⟩ := readSeq_spec co cd mult cmds ctxs out es s rest e hh hu hv hb hok hc
  exact ⟨vals, es', s', r1, r2, by rw [r2]; exact r4, r6⟩

/-- A stream with LZ77 whose three distributions have one symbol each: the value 5, a copy of length 3, and a distance code. -/
def exampleES (code : Int) : ES :=
  { clusterMap := [0, 1, 2], dists := [.pre (.single 5) ⟨4, 0, 0⟩, .pre (.single 224) ⟨4, 0, 0⟩, .pre (.single code) ⟨4, 0, 0⟩]
    usesLZ77 := true, lzLengthConfig := ⟨4, 0, 0⟩, minSymbol := 224, minLength := 3, state := none, window := fun _ => 0
    numToCopy := 0, copyPos := 0, numDecoded := 0 }

def exampleCodes (code : Int) : Codes :=
  { dist := fun c => if c = 0 then .pre (.single 5) ⟨4, 0, 0⟩ else .pre (.single 224) ⟨4, 0, 0⟩
    lz := some { minSymbol := 224, minLength := 3, lengthConfig := ⟨4, 0, 0⟩, distDist := .pre (.single code) ⟨4, 0, 0⟩ } }

def exampleCoder : Coder := { word := fun _ _ => [], slot := fun _ _ _ => 0, pad := 0 }

theorem exampleES_uses (code : Int) : (exampleES code).Uses (exampleCodes code) [0, 1, 1, 1] := by
  refine ⟨?_, rfl, rfl, rfl, rfl, 2, rfl, rfl⟩
  intro c hc
  simp at hc
  rcases hc with rfl | rfl <;> rfl

/-- The hypotheses of C15 hold for: the value 5, then 3 values copied from distance 1. -/
example : LZValid (exampleCodes 0) 0 [.lit 5, .copy 3 1 0] [0, 1, 1, 1] 0 ∧ expandLZ [.lit 5, .copy 3 1 0] [] = [5, 5, 5, 5] ∧
    (∀ i ∈ lzItems (exampleCodes 0) [.lit 5, .copy 3 1 0] [0, 1, 1, 1], i.OK exampleCoder) := by
  refine ⟨?_, by decide, ?_⟩
  · simp only [LZValid, exampleCodes]
    refine ⟨by decide, ⟨by decide, by decide⟩, ?_, ⟨⟨_, rfl, by decide, ⟨by decide, by decide⟩, ⟨by decide, by decide⟩⟩, by decide, by decide, by decide, by decide, by decide, by decide, by decide, Or.inl rfl, rfl⟩⟩
    intro z hz
    cases hz
    decide
  · intro i hi
    simp [lzItems, exampleCodes, valueItems, copyItems] at hi
    rcases hi with rfl | rfl | rfl | rfl | rfl | rfl <;>
      first
        | exact True.intro
        | exact ReadsPad.pure 0 _

/-- **C15** fails for special distance codes that stand for a distance below 1 (the format takes 1): with multiplier 1,
code 3 is the distance 1; the code reads zeros instead of the copied value 5. -/
theorem C15_violated : codedDistance 1 3 = 1 ∧ expandLZ [.lit 5, .copy 3 1 3] [] = [5, 5, 5, 5] ∧
    (match (ES.readSeq 1 [0, 1, 1, 1] (exampleES 3) (BR.new [])).1 with
      | .ok (vs, _) => some vs
      | _ => none) = some [5, 0, 0, 0] := by
  refine ⟨by decide, by decide, by decide +kernel⟩

/-- **C16**. On every stream: a cluster map that is read successfully has one entry for each context, every entry is
below the number of clusters, and the number of clusters is one more than the largest entry and at most the limit.
`_partial`: entries need not be non-negative (`C16_violated`), they are for the maps of `C16_nonneg_partial`. -/
theorem C16_entries_partial (numDists maxClusters : Nat) (s s' : BR) (m : List Int) (n : Int)
    (h : readClusterMap 2 numDists maxClusters s = (.ok (m, n), s')) :
    m.length = numDists ∧ (∀ c ∈ m, c < n) ∧ n ≤ maxClusters ∧ (n = 0 ∨ (n - 1) ∈ m) := by
  obtain ⟨h1, h2, _, h4, h5⟩ := readClusterMap_ok 2 numDists maxClusters s _ _ h
  exact ⟨h1, h2, h4, h5⟩

/-- **C16**: the nesting of cluster maps is at most two deep, so the model's bound 2 is no restriction. -/
theorem C16_nesting (f n m : Nat) : readClusterMap (f + 2) n m = readClusterMap 2 n m := readClusterMap_fuel f n m

/-- **C16**, non-negative entries: maps with fixed-width entries and maps coded with move-to-front. -/
theorem C16_nonneg_partial (bits n : Nat) (es : ES) (s s' : BR) (m : List Int)
    (h : readFixed bits n s = (.ok m, s') ∨ nestedMap n true es s = (.ok m, s')) : m.length = n ∧ ∀ c ∈ m, 0 ≤ c := by
  rcases h with h | h
  · exact (readFixed_ok bits n).of_ok h
  · obtain ⟨h1, h2⟩ := nestedMap_ok n true es s _ _ h
    exact ⟨h1, fun c hc => (h2 rfl c hc).1⟩

/-- **C16**: the inverse of move-to-front coding, for all sequences of bytes. -/
theorem C16_mtf (vs : List Int) (h : ∀ v ∈ vs, 0 ≤ v ∧ v < 256) :
    inverseMTF ((List.range 256).map Int.ofNat) (mtfEncode ((List.range 256).map Int.ofNat) vs) = .ok vs := by
  apply inverseMTF_encode
  intro v hv
  obtain ⟨h1, h2⟩ := h v hv
  rw [List.mem_map]
  exact ⟨v.toNat, by simp; omega, by show ((v.toNat : Nat) : Int) = v; omega⟩

example : mtfEncode ((List.range 256).map Int.ofNat) [2, 2, 0, 1, 2] = [2, 0, 1, 2, 2] := by decide +kernel

theorem countClusters_nats (m : List Nat) (hlen : 2 ≤ m.length) : countClusters (m.map Int.ofNat) = ((m.foldl max 0 : Nat) : Int) + 1 := by
  have hcount : ∀ (l : List Nat) (n : Nat), (l.map Int.ofNat).foldl (fun n c => if n ≤ c then c + 1 else n) ((n : Int) + 1) = ((l.foldl max n : Nat) : Int) + 1 := by
    intro l
    induction l with
    | nil => intro n; rfl
    | cons c l ih =>
      intro n
      simp only [List.map_cons, List.foldl_cons]
      have : (if ((n : Int) + 1) ≤ Int.ofNat c then Int.ofNat c + 1 else (n : Int) + 1) = ((max n c : Nat) : Int) + 1 := by
        show (if ((n : Int) + 1) ≤ (c : Int) then (c : Int) + 1 else (n : Int) + 1) = _
        split <;> omega
      rw [this, ih]
  match m, hlen with
  | c :: l, _ =>
    unfold countClusters
    simp only [List.map_cons, List.foldl_cons]
    rw [if_pos (by show (0 : Int) ≤ (c : Int); omega)]
    show (l.map Int.ofNat).foldl _ ((c : Int) + 1) = _
    rw [hcount l c]
    simp

theorem readClusterMap_fixed (fuel : Nat) (bits : Nat) (hb : bits < 4) (m : List Nat) (hm : ∀ c ∈ m, c < 2 ^ bits) (hlen : 2 ≤ m.length) (maxClusters : Nat)
    (hmax : ∀ c ∈ m, c < maxClusters) :
    Reads (readClusterMap fuel m.length maxClusters) ([true] ++ (bitsOf 2 bits ++ m.flatMap (bitsOf bits)))
      (m.map Int.ofNat, ((m.foldl max 0 : Nat) : Int) + 1) := by
  have hfix : ∀ l : List Nat, (∀ c ∈ l, c < 2 ^ bits) → Reads (readFixed bits l.length) (l.flatMap (bitsOf bits)) (l.map Int.ofNat) := by
    intro l
    induction l with
    | nil => intro _; exact Reads.pure _
    | cons c l ih =>
      intro h
      simp only [List.length_cons, List.flatMap_cons]
      unfold readFixed
      refine Reads.bind (reads_bitsOf bits c (by omega) (h c (by simp))) ?_
      have := Reads.bind (e2 := []) (ih (fun c hc => h c (by simp [hc]))) (f := fun vs => pure ((c : Int) :: vs)) (Reads.pure _)
      rw [List.append_nil] at this
      exact this
  have hcc := countClusters_nats m hlen
  have hfm : ∀ (l : List Nat) (n : Nat), n < maxClusters → (∀ c ∈ l, c < maxClusters) → l.foldl max n < maxClusters := by
    intro l
    induction l with
    | nil => intro n h _; exact h
    | cons c l ih =>
      intro n h hl
      simp only [List.foldl_cons]
      exact ih _ (by have := hl c (by simp); omega) (fun c hc => hl c (by simp [hc]))
  unfold readClusterMap
  rw [if_neg (by omega)]
  refine Reads.bind (reads_bool true) ?_
  rw [if_pos rfl]
  refine Reads.bind (reads_bitsOf 2 bits (by decide) (by omega)) ?_
  have := Reads.bind (e2 := []) (hfix m hm) (f := fun m => Rd.lift (checkClusters m maxClusters)) (b := (m.map Int.ofNat, ((m.foldl max 0 : Nat) : Int) + 1)) (by
    intro s p hs _
    refine ⟨s, ?_, by simpa using hs, rfl⟩
    unfold checkClusters Rd.lift
    rw [hcc]
    have h0 : 0 < maxClusters := by
      match m, hlen with
      | c :: l, _ => have := hmax c (by simp); omega
    have := hfm m 0 h0 hmax
    rw [if_neg (by omega)])
  rw [List.append_nil] at this
  exact this

/-- **C16**, maps with fixed-width entries are read back. -/
theorem C16_fixed_roundtrip (bits : Nat) (hb : bits < 4) (m : List Nat) (hm : ∀ c ∈ m, c < 2 ^ bits) (hlen : 2 ≤ m.length) (maxClusters : Nat)
    (hmax : ∀ c ∈ m, c < maxClusters) :
    Reads (readClusterMap 2 m.length maxClusters) ([true] ++ (bitsOf 2 bits ++ m.flatMap (bitsOf bits)))
      (m.map Int.ofNat, ((m.foldl max 0 : Nat) : Int) + 1) := readClusterMap_fixed 2 bits hb m hm hlen maxClusters hmax

example : [1, 0, 3].length = 3 ∧ (∀ c ∈ [1, 0, 3], c < 2 ^ 2) ∧ ([1, 0, 3] : List Nat).foldl max 0 = 3 := by decide

/-- **C16** fails: a map coded without move-to-front can have negative entries; this one for two contexts has two entries
-2^31 and no clusters at all. -/
theorem C16_violated : ((readClusterMap 2 2 2) (BR.new [8, 11, 4, 8, 0, 0, 0, 0, 0, 0, 0, 0, 0, 0])).1 = .ok ([-2147483648, -2147483648], 0) := by
  decide +kernel

/-- **C53**, ANS: no stream makes reading a distribution crash, ... -/
theorem C53_distribution_never_crashes (L : Nat) (hL : L ≤ 12) (s : BR) : (newANSDist L s).1 ≠ .panic :=
  (safe_newANSDist L hL).noPanic s

/-- ... and reading symbols with a distribution that was accepted never crashes, on any stream and in any state; the
symbol is one of the alphabet. -/
theorem C53_symbol_never_crashes (L : Nat) (hL : L ≤ 12) (s0 s1 : BR) (d : ANSDist) (h : newANSDist L s0 = (.ok d, s1))
    (st : Option Nat) (s : BR) :
    (ansReadSymbol d st s).1 ≠ .panic ∧
      ∀ v st' s', ansReadSymbol d st s = (.ok (v, st'), s') → 0 ≤ v ∧ v < d.freqs.length := by
  have hs := safe_ansReadSymbol d ((safe_newANSDist L hL).of_ok h) st
  refine ⟨hs.noPanic s, ?_⟩
  intro v st' s' he
  obtain ⟨n, h1, h2⟩ := hs.of_ok he
  simp only at h1
  omega

/-- **C53**, hybrid integers: no configuration, token or stream makes reading one crash. -/
theorem C53_hybrid_never_crashes (c : HybridConfig) (token : Nat) (s : BR) : (readHybrid c token s).1 ≠ .panic := by
  have : Safe (readHybrid c token) (fun _ => True) := by
    unfold readHybrid
    dsimp only
    split
    · exact Safe.pure trivial
    · split
      · exact Safe.fail
      · exact Safe.bind (safe_bits _) (fun _ _ => Safe.pure trivial)
  exact this.noPanic s

/-- **C53** fails for move-to-front: an index of 256 crashes the cluster map reader. -/
theorem C53_violated_mtf : ((readClusterMap 2 2 2) (BR.new [250, 17, 32, 0, 2, 0, 0, 0, 0, 0, 0, 0, 0, 0, 0])).1 = .panic := by
  decide +kernel

/-- **C53** fails for LZ77: with a distance multiplier, a distance code of 2^31 or more crashes. -/
theorem C53_violated_lz :
    (match (ES.readSeq 1 [0, 1]
        { exampleES 32 with dists := [.pre (.single 5) ⟨4, 0, 0⟩, .pre (.single 224) ⟨4, 0, 0⟩, .pre (.single 32) ⟨0, 0, 0⟩] }
        (BR.new [0, 0, 0, 0])).1 with
      | .panic => true
      | _ => false) = true := by decide +kernel

/-- **C53** fails for the map of `C16_violated`: a stream is set up with it and its first symbol crashes. -/
theorem C53_violated_map :
    (match ((ES.load 2 false >>= fun es => es.readSymbol 0) (BR.new [16, 22, 8, 16, 0, 0, 0, 0, 0, 0, 0, 0, 0, 0, 0])).1 with
      | .panic => true
      | _ => false) = true ∧
    (match (ES.load 2 false (BR.new [16, 22, 8, 16, 0, 0, 0, 0, 0, 0, 0, 0, 0, 0, 0])).1 with
      | .ok es => some es.clusterMap
      | _ => none) = some [-2147483648, -2147483648] := by decide +kernel

end Jxl
