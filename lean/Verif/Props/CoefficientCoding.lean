import Verif.Proofs.CoefficientCoding
import Verif.Props.Entropy
import Verif.Props.Util
import Mathlib.Data.Nat.Log

/-!
# C76: the coefficients of a group decode to what was coded
-/
namespace Jxl
open Spec

theorem holds_zeros {h w : Nat} : HoldsMat h w (fun _ _ => (0 : Int)) (List.replicate h (List.replicate w 0)) := by
  refine ⟨⟨by simp, fun r hr => ?_⟩, fun y x hy hx => ?_⟩
  · rw [(List.mem_replicate.1 hr).2]
    simp
  · simp [sample, hy, hx]

/-- The tables of a group before its first block. -/
theorem emptyPlanes_inv {height width : Nat} {uy ux : Nat → Nat} (F : Nat → Nat → Nat → Int) :
    GroupInv (fun c => height >>> uy c) (fun c => width >>> ux c) F (fun _ _ _ => 0) (fun _ _ _ => 0) (emptyPlanes height width [uy 0, uy 1, uy 2] [ux 0, ux 1, ux 2]) := by
  refine ⟨rfl, fun _ _ _ => Nat.zero_le _, ?_⟩
  intro c p hp
  match c, hp with
  | 0, hp => cases hp; exact ⟨holds_zeros, holds_zeros, fun _ _ => Or.inl rfl⟩
  | 1, hp => cases hp; exact ⟨holds_zeros, holds_zeros, fun _ _ => Or.inl rfl⟩
  | 2, hp => cases hp; exact ⟨holds_zeros, holds_zeros, fun _ _ => Or.inl rfl⟩
  | c + 3, hp => cases hp

/-- **C76**: let `q channel row column` be coefficients of high frequency for the blocks of a group. From any source that delivers the symbols which the format prescribes for
them, in the contexts prescribed, the decoder takes exactly these symbols and returns exactly the coefficients, times `2 ^ shift`: for all blocks, all transform types, all
orders that a pass can have, all tables of contexts and all kinds of subsampling. -/
theorem C76_coefficients {σ : Type} {read : σ → Int → Rd (Int × σ)} {hf : HFBlockContext} (hw : hf.WellFormed) {presets : Int} {pass : HFPass} {s0 s0' : BR}
    (hpass : readHFPass presets hf.numClusters s0 = (.ok pass, s0')) {preset : Nat} (hpre : (preset : Int) < presets) (hsmall : 495 * hf.numClusters * presets < 2147483648)
    {uy ux : Nat → Nat} {height width shift : Nat} {q : Nat → Nat → Nat → Int}
    (hq : ∀ c y x, (-1073741824 ≤ q c y x ∧ q c y x < 1073741824) ∧ -2147483648 ≤ q c y x * 2 ^ shift ∧ q c y x * 2 ^ shift < 2147483648)
    {blocks : List HFBlock} (hb : ∀ b ∈ blocks, b.Good hf) (hfit : ∀ b ∈ blocks, FitsGroup uy ux (fun c => height >>> uy c) (fun c => width >>> ux c) b)
    (hcov : ∀ c y x, c < 3 → q c y x ≠ 0 → ∃ b ∈ blocks, CoversPlace uy ux b c y x) {st st' : σ} {s s' : BR}
    (hd : Delivers read (495 * hf.numClusters.toNat * preset) (groupSymbols hf pass.order uy ux q blocks (fun _ _ _ => 0)) st s st' s') :
    ∃ planes, readBlocks read hf (495 * hf.numClusters * preset) shift [uy 0, uy 1, uy 2] [ux 0, ux 1, ux 2] pass.order blocks
        (st, emptyPlanes height width [uy 0, uy 1, uy 2] [ux 0, ux 1, ux 2]) s = (.ok (st', planes), s') ∧ planes.length = 3 ∧
      ∀ (c : Nat) p, planes[c]? = some p → Table (height >>> uy c) (width >>> ux c) p.coeffs ∧
        ∀ y x, y < height >>> uy c → x < width >>> ux c → sample p.coeffs y x = some (q c y x * 2 ^ shift) := by
  have hn : 0 ≤ hf.numClusters := by
    have hlen : 0 < hf.clusterMap.length := by
      have h1 := hw.size
      have h2 : 0 < 39 * ((hf.qfThresholds.length : Int) + 1) * hf.numLFContexts := Int.mul_pos (by omega) hw.lf
      omega
    have := hw.entries _ (List.getElem_mem hlen)
    omega
  obtain ⟨n, en⟩ := Int.eq_ofNat_of_zero_le hn
  have hoff : 495 * hf.numClusters * (preset : Int) = ((495 * hf.numClusters.toNat * preset : Nat) : Int) := by
    rw [en, Int.toNat_natCast]
    push_cast
    rfl
  have hlt : ((495 * hf.numClusters.toNat * preset : Nat) : Int) + 495 * hf.numClusters < 2147483648 := by
    rw [← hoff]
    have : 495 * hf.numClusters * ((preset : Int) + 1) ≤ 495 * hf.numClusters * presets := Int.mul_le_mul_of_nonneg_left (by omega) (by omega)
    rw [Int.mul_add, Int.mul_one] at this
    omega
  have three : ∀ (u : Nat → Nat) (c : Nat), c < 3 → [u 0, u 1, u 2][c]? = some (u c) := by
    intro u c hc
    match c, hc with
    | 0, _ => rfl
    | 1, _ => rfl
    | 2, _ => rfl
  obtain ⟨planes, counts, gs, e, hi, _, hall⟩ := readBlocks_delivers (read := read) hw hlt (ordersOk_of hpass) (three uy) (three ux) hq blocks hb hfit _ _ _
    (emptyPlanes_inv (fun c y x => q c y x * 2 ^ shift)) st st' s s' hd
  refine ⟨planes, by rw [hoff]; exact e, hi.len, ?_⟩
  intro c p hp
  have hc : c < 3 := by
    rw [← hi.len]
    exact (List.getElem?_eq_some_iff.1 hp).1
  obtain ⟨_, h1, h2⟩ := hi.plane c p hp
  refine ⟨h1.1, fun y x hy hx => ?_⟩
  rw [h1.2 y x hy hx]
  by_cases hz : q c y x = 0
  · have := h2 y x
    dsimp only at this
    rw [hz, Int.zero_mul] at this ⊢
    rw [this.elim id id]
  · obtain ⟨b, hbm, hbc⟩ := hcov c y x hc hz
    rw [hall b hbm c y x hc hbc]

/-- Symbols read one after the other. -/
theorem delivers_of_readSeq {offset : Nat} : ∀ (ts : List (Nat × Nat)) (es es' : ES) (s s' : BR),
    ES.readSeq 0 (ts.map fun t => ((offset + t.1 : Nat) : Int)) es s = (.ok (ts.map (fun t => (t.2 : Int)), es'), s') → Delivers ES.readSymbol offset ts es s es' s'
  | [], es, es', s, s', h => by
    obtain ⟨e, rfl⟩ := Rd.of_pure h
    cases e
    exact ⟨rfl, rfl⟩
  | t :: ts, es, es', s, s', h => by
    rw [List.map_cons, ES.readSeq] at h
    obtain ⟨⟨v, es1⟩, s1, e1, h⟩ := Rd.of_bind h
    obtain ⟨⟨vs, es2⟩, s2, e2, h⟩ := Rd.of_bind h
    obtain ⟨e, rfl⟩ := Rd.of_pure h
    rw [List.map_cons] at e
    obtain ⟨e3, e4⟩ := Prod.mk.inj e
    obtain ⟨rfl, rfl⟩ := List.cons.inj e3
    subst e4
    exact ⟨es1, s1, e1, delivers_of_readSeq ts es1 _ s1 _ e2⟩

theorem preset_bits (n : Nat) (h0 : 0 < n) : ceilLog1p (n - 1) = Nat.clog 2 n := by
  refine Nat.le_antisymm ?_ ?_
  · rw [C41_ceilLog1p]
    have := Nat.le_pow_clog (b := 2) (by decide) n
    omega
  · rw [Nat.clog_le_iff_le_pow (by decide)]
    have := (C41_ceilLog1p (n - 1) (ceilLog1p (n - 1))).1 (Nat.le_refl _)
    omega

/-- **C76** down to the bits: the number of a preset, in ⌈log2⌉ of the number of presets bits, and the symbols written by an entropy encoder (ANS or prefix codes, with or without
LZ77) anywhere in a stream are read back as the coefficients of the group; the reader stops after the last coded bit. -/
theorem C76_stream {hf : HFBlockContext} (hw : hf.WellFormed) {presets : Nat} {pass : HFPass} {s0 s0' : BR}
    (hpass : readHFPass presets hf.numClusters s0 = (.ok pass, s0')) {preset : Nat} (hpre : preset < presets) (hsmall : 495 * hf.numClusters * presets < 2147483648)
    {uy ux : Nat → Nat} {height width shift : Nat} {q : Nat → Nat → Nat → Int}
    (hq : ∀ c y x, (-1073741824 ≤ q c y x ∧ q c y x < 1073741824) ∧ -2147483648 ≤ q c y x * 2 ^ shift ∧ q c y x * 2 ^ shift < 2147483648)
    {blocks : List HFBlock} (hb : ∀ b ∈ blocks, b.Good hf) (hfit : ∀ b ∈ blocks, FitsGroup uy ux (fun c => height >>> uy c) (fun c => width >>> ux c) b)
    (hcov : ∀ c y x, c < 3 → q c y x ≠ 0 → ∃ b ∈ blocks, CoversPlace uy ux b c y x)
    {symbols : List (Nat × Nat)} (hsym : symbols = groupSymbols hf pass.order uy ux q blocks (fun _ _ _ => 0)) (hlen : symbols.length < 2 ^ 31)
    {ctxs : List Int} (hctxs : ctxs = symbols.map fun t => ((495 * hf.numClusters.toNat * preset + t.1 : Nat) : Int))
    (co : Coder) (cd : Codes) (cmds : List LZCmd) (hcmds : expandLZ cmds [] = symbols.map fun t => (t.2 : Int)) (hes : pass.contextStream.Uses cd ctxs)
    (hv : LZValid cd 0 cmds ctxs 0) (hok : ∀ i ∈ lzItems cd cmds ctxs, i.OK co)
    (s : BR) (p : Nat) (hs : AtBit s p) {bits : List Bool} (hbits : bits = bitsOf (Nat.clog 2 presets) preset ++ streamBitsOf co (lzItems cd cmds ctxs))
    (hin : bits <+: bitsFrom s.data p) (hpad : p + bits.length + co.pad ≤ 8 * s.data.length) :
    ∃ planes s', readHFCoefficients presets hf pass shift [uy 0, uy 1, uy 2] [ux 0, ux 1, ux 2] height width blocks s = (.ok planes, s') ∧ AtBit s' (p + bits.length) ∧ planes.length = 3 ∧
      ∀ (c : Nat) pl, planes[c]? = some pl → Table (height >>> uy c) (width >>> ux c) pl.coeffs ∧
        ∀ y x, y < height >>> uy c → x < width >>> ux c → sample pl.coeffs y x = some (q c y x * 2 ^ shift) := by
  have hn : 0 < hf.numClusters := by
    have hlen : 0 < hf.clusterMap.length := by
      have h1 := hw.size
      have h2 : 0 < 39 * ((hf.qfThresholds.length : Int) + 1) * hf.numLFContexts := Int.mul_pos (by omega) hw.lf
      omega
    have := hw.entries _ (List.getElem_mem hlen)
    omega
  have hbound : (presets : Int) * 495 ≤ 495 * hf.numClusters * presets ∧ 495 * hf.numClusters ≤ 495 * hf.numClusters * presets ∧
      0 ≤ 495 * hf.numClusters * (preset : Int) ∧ 495 * hf.numClusters * (preset : Int) ≤ 495 * hf.numClusters * presets := by
    have h1 : (495 * 1) * (presets : Int) ≤ 495 * hf.numClusters * presets := Int.mul_le_mul_of_nonneg_right (by omega) (by omega)
    have h2 : 495 * hf.numClusters * 1 ≤ 495 * hf.numClusters * (presets : Int) := Int.mul_le_mul_of_nonneg_left (by omega) (by omega)
    have h3 : 495 * hf.numClusters * 0 ≤ 495 * hf.numClusters * (preset : Int) := Int.mul_le_mul_of_nonneg_left (by omega) (by omega)
    have h4 : 495 * hf.numClusters * (preset : Int) ≤ 495 * hf.numClusters * (presets : Int) := Int.mul_le_mul_of_nonneg_left (by omega) (by omega)
    omega
  have hp31 : presets < 2147483648 := by omega
  have hclog : Nat.clog 2 presets ≤ 31 := (Nat.clog_le_iff_le_pow (by decide)).2 (by omega)
  subst hbits
  rw [List.length_append, length_bitsOf] at hpad ⊢
  have hpl : preset < 2 ^ Nat.clog 2 presets := Nat.lt_of_lt_of_le hpre (Nat.le_pow_clog (by decide) _)
  obtain ⟨s1, e1, a1, d1⟩ := reads_bitsOf (Nat.clog 2 presets) preset (by omega) hpl s p hs ((List.prefix_append _ _).trans hin)
  rw [length_bitsOf] at a1
  have hin2 : streamBitsOf co (lzItems cd cmds ctxs) <+: bitsFrom s1.data (p + Nat.clog 2 presets) := by
    rw [d1]
    have := (prefix_append_split hin).2
    rwa [length_bitsOf, bitsFrom_drop] at this
  obtain ⟨es', s', r1, r2, r3, r4⟩ := C15_lz77_partial co cd 0 cmds ctxs pass.contextStream.fresh rfl rfl rfl ⟨hes.dist, hes.lz⟩ hv (by rw [hctxs, List.length_map]; exact hlen) hok s1 _ a1 hin2
    (by rw [d1]; omega)
  rw [hcmds] at r1
  have hd := delivers_of_readSeq symbols _ _ _ _ (by rw [← hctxs]; exact r1)
  rw [hsym] at hd
  obtain ⟨planes, e2, h1, h2⟩ := C76_coefficients (read := ES.readSymbol) hw hpass (preset := preset) (by omega) hsmall hq hb hfit hcov hd
  refine ⟨planes, s', ?_, by rw [← Nat.add_assoc]; exact r2, h1, h2⟩
  unfold readHFCoefficients
  rw [i32_in (by omega) (by omega), show ((presets : Int) - 1).toNat = presets - 1 by omega, preset_bits presets (by omega), Rd.bind_ok e1,
    i32_in (z := 495 * hf.numClusters) (by omega) (by omega), i32_in (z := (preset : Int)) (by omega) (by omega), i32_in (by omega) (by omega), Rd.bind_ok e2]
  dsimp only
  rw [r4]
  rfl

/-! ## Examples -/

/-- A source of symbols that fails when it is asked in another context than the expected one. -/
def strict (l : List (Nat × Nat)) (ctx : Int) : Rd (Int × List (Nat × Nat)) :=
  match l with
  | [] => Rd.fail
  | t :: ts => if ctx = (t.1 : Int) then pure ((t.2 : Int), ts) else Rd.fail

/-- Any symbols can be delivered. -/
theorem strict_delivers (offset : Nat) (s : BR) : ∀ ts : List (Nat × Nat), Delivers strict offset ts (ts.map fun t => (offset + t.1, t.2)) s [] s
  | [] => ⟨rfl, rfl⟩
  | t :: ts => ⟨_, s, by rw [List.map_cons, strict, if_pos rfl]; rfl, strict_delivers offset s ts⟩

/-- Two coefficients of the second channel of a block of 8×8 pixels, and one of the third one: 2, -3 and 7. -/
def exampleCoefficients (c y x : Nat) : Int := if c = 1 ∧ y = 1 ∧ x = 0 then 2 else if c = 1 ∧ y = 0 ∧ x = 2 then -3 else if c = 2 ∧ y = 7 ∧ x = 14 then 7 else 0

/-- Two blocks beside each other. -/
def exampleBlocks : List HFBlock := [⟨0, 0, ⟨0, 0, 0, 0, 8, 8⟩, 1, 0⟩, ⟨0, 1, ⟨0, 0, 0, 0, 8, 8⟩, 1, 0⟩]

/-- The beginning of the symbols: two coefficients in the second channel of the first block; none in the first and the third one; and none in the second channel of the second
block, where two are predicted. -/
example : (groupSymbols oneContext (List.replicate 13 (List.replicate 3 zigzagOrder)) (fun _ => 0) (fun _ => 0) exampleCoefficients exampleBlocks (fun _ _ _ => 0)).take 9 =
    [(20, 2), (100, 4), (40, 0), (41, 5), (20, 0), (20, 0), (2, 0), (0, 0), (0, 1)] := by decide +kernel

/-- The hypotheses of `C76_coefficients` are met. -/
example : ∃ pass s' planes, readHFPass 1 oneContext.numClusters (BR.new [202, 7]) = (.ok pass, s') ∧
    readBlocks strict oneContext 0 1 [0, 0, 0] [0, 0, 0] pass.order exampleBlocks
      (groupSymbols oneContext pass.order (fun _ => 0) (fun _ => 0) exampleCoefficients exampleBlocks (fun _ _ _ => 0), emptyPlanes 8 16 [0, 0, 0] [0, 0, 0]) (BR.new []) =
      (.ok ([], planes), BR.new []) ∧ ∃ p, planes[1]? = some p ∧ sample p.coeffs 0 2 = some (-6) := by
  obtain ⟨pass, s', h, _⟩ := example_pass
  have hd := strict_delivers 0 (BR.new []) (groupSymbols oneContext pass.order (fun _ => 0) (fun _ => 0) exampleCoefficients exampleBlocks (fun _ _ _ => 0))
  rw [show (fun t : Nat × Nat => (0 + t.1, t.2)) = id by funext t; simp, List.map_id] at hd
  obtain ⟨planes, e, hl, h2⟩ := C76_coefficients (read := strict) (hf := oneContext) oneContext_wellFormed h (preset := 0) (by decide) (by decide) (uy := fun _ => 0) (ux := fun _ => 0)
    (height := 8) (width := 16) (shift := 1) (q := exampleCoefficients)
    (by intro c y x; unfold exampleCoefficients; split <;> [decide; (split <;> [decide; (split <;> decide)])])
    (blocks := exampleBlocks) (by unfold exampleBlocks; intro b hb; simp only [List.mem_cons, List.not_mem_nil, or_false] at hb; rcases hb with rfl | rfl <;> exact ⟨by decide, by decide, by decide⟩)
    (by
      unfold exampleBlocks
      intro b hb
      simp only [List.mem_cons, List.not_mem_nil, or_false] at hb
      rcases hb with rfl | rfl <;> exact ⟨by decide, by decide, fun c hc _ => by decide +revert⟩)
    (by
      intro c y x hc hz
      unfold exampleCoefficients at hz
      split at hz
      · next h => obtain ⟨rfl, rfl, rfl⟩ := h; exact ⟨_, List.mem_cons_self, by decide, 1, 0, rfl, rfl, by decide, by decide, by decide⟩
      · split at hz
        · next h => obtain ⟨rfl, rfl, rfl⟩ := h; exact ⟨_, List.mem_cons_self, by decide, 0, 2, rfl, rfl, by decide, by decide, by decide⟩
        · split at hz
          · next h => obtain ⟨rfl, rfl, rfl⟩ := h; exact ⟨_, List.mem_cons_of_mem _ List.mem_cons_self, by decide, 7, 6, rfl, rfl, by decide, by decide, by decide⟩
          · exact absurd rfl hz)
    hd
  have hlt : 1 < planes.length := by omega
  refine ⟨pass, s', planes, h, e, planes[1], List.getElem?_eq_getElem hlt, ?_⟩
  exact (h2 1 _ (List.getElem?_eq_getElem hlt)).2 0 2 (by decide) (by decide)

def onlyDist : Dist := .pre (.single 63) ⟨15, 0, 0⟩

/-- A pass whose coefficients are coded with a single symbol, 63. -/
def checkPass (r : Res HFPass × BR) : Bool :=
  match r.1 with
  | .ok p => decide (p.usedOrders = 0 ∧ p.contextStream.clusterMap = List.replicate 495 0 ∧ p.contextStream.dists = [.pre (.single 63) ⟨15, 0, 0⟩] ∧ p.contextStream.usesLZ77 = false)
  | _ => false

theorem stream_pass : ∃ pass s', readHFPass 1 1 (BR.new [202, 95, 63, 126]) = (.ok pass, s') ∧ (∀ c, c < 3 → (pass.order.getD 0 []).getD c [] = zigzagOrder) ∧
    ∀ c : Int, 0 ≤ c → c < 495 → pass.contextStream.distOf c = .ok onlyDist ∧ pass.contextStream.usesLZ77 = false := by
  have h : checkPass (readHFPass 1 1 (BR.new [202, 95, 63, 126])) = true := by decide +kernel
  rcases e : readHFPass 1 1 (BR.new [202, 95, 63, 126]) with ⟨pass | _ | _, s'⟩ <;> rw [e] at h <;> try cases h
  obtain ⟨hu, h1, h2, h3⟩ := of_decide_eq_true h
  obtain ⟨_, h4⟩ := readHFPass_orders 1 1 _ _ _ e
  obtain ⟨os, tt, H, W, q1, q2, q3, q4, q5, q6⟩ := h4 0 (by omega)
  have htt : tt = ⟨0, 0, 0, 0, 8, 8⟩ := by
    have : filterByOrderID ((0 : Nat) : Int) = .ok ⟨0, 0, 0, 0, 8, 8⟩ := by decide
    rw [this] at q2
    cases q2
    rfl
  refine ⟨pass, s', rfl, ?_, ?_⟩
  · intro c hc
    have hlt : c < os.length := by omega
    have ho := (q6 os[c] (List.getElem_mem hlt)).2 (by rw [hu]; rfl)
    rw [htt, dct8_order] at ho
    rw [List.getD_eq_getElem?_getD, List.getD_eq_getElem?_getD, q1, Option.getD_some, List.getElem?_eq_getElem hlt, Option.getD_some, ho]
  · intro c c0 c1
    obtain ⟨n, rfl⟩ := Int.eq_ofNat_of_zero_le c0
    refine ⟨?_, h3⟩
    unfold ES.distOf
    rw [h1, h2, List.length_replicate, if_neg (by omega)]
    rw [idx_nat (show (List.replicate 495 (0 : Int))[n]? = some 0 by rw [List.getElem?_replicate, if_pos (by omega)])]
    rfl

theorem groupSymbols_congr {hf : HFBlockContext} {o o' : List (List (List Point))} {uy ux : Nat → Nat} {q : Nat → Nat → Nat → Int} : ∀ (blocks : List HFBlock),
    (∀ b ∈ blocks, ∀ c, c < 3 → channelValues o uy ux q b c = channelValues o' uy ux q b c) → ∀ n, groupSymbols hf o uy ux q blocks n = groupSymbols hf o' uy ux q blocks n
  | [], _, _ => rfl
  | b :: bs, h, n => by
    have hb := h b List.mem_cons_self
    have h1 : ∀ c, c < 3 → ∀ n, channelSymbols hf o uy ux q b c n = channelSymbols hf o' uy ux q b c n := fun c hc n => by unfold channelSymbols; rw [hb c hc]
    have h2 : ∀ c, c < 3 → ∀ n, countsAfter o uy ux q b c n = countsAfter o' uy ux q b c n := fun c hc n => by unfold countsAfter; rw [hb c hc]
    rw [groupSymbols, groupSymbols]
    rw [h1 1 (by decide), h1 0 (by decide), h1 2 (by decide), h2 1 (by decide), h2 0 (by decide), h2 2 (by decide), groupSymbols_congr bs (fun a ha => h a (List.mem_cons_of_mem _ ha))]

/-- All coefficients of a block are -32. -/
def fullCoefficients (c y x : Nat) : Int := if c < 3 ∧ y < 8 ∧ x < 8 ∧ ¬(y = 0 ∧ x = 0) then -32 else 0

def fullSymbols : List (Nat × Nat) := groupSymbols oneContext [[zigzagOrder, zigzagOrder, zigzagOrder]] (fun _ => 0) (fun _ => 0) fullCoefficients [⟨0, 0, ⟨0, 0, 0, 0, 8, 8⟩, 1, 0⟩] (fun _ _ _ => 0)

theorem fullSymbols_value : fullSymbols.map (·.2) = List.replicate 192 63 ∧ ∀ t ∈ fullSymbols, t.1 < 495 := by decide +kernel

theorem lits_expand (v : Nat) : ∀ (n : Nat) (out : List Int), expandLZ (List.replicate n (.lit v)) out = out ++ List.replicate n (i32 v)
  | 0, out => by simp [expandLZ]
  | n + 1, out => by rw [List.replicate_succ, expandLZ, lits_expand v n, List.append_assoc, List.replicate_succ]; rfl

/-- The hypotheses of `C76_stream` are met. -/
example : ∃ pass s0 planes s', readHFPass 1 oneContext.numClusters (BR.new [202, 95, 63, 126]) = (.ok pass, s0) ∧
    readHFCoefficients 1 oneContext pass 0 [0, 0, 0] [0, 0, 0] 8 8 [⟨0, 0, ⟨0, 0, 0, 0, 8, 8⟩, 1, 0⟩] (BR.new []) = (.ok planes, s') ∧ ∃ p, planes[1]? = some p ∧ sample p.coeffs 7 7 = some (-32) := by
  obtain ⟨pass, s0, h, ho, hd⟩ := stream_pass
  have hsym : fullSymbols = groupSymbols oneContext pass.order (fun _ => 0) (fun _ => 0) fullCoefficients [⟨0, 0, ⟨0, 0, 0, 0, 8, 8⟩, 1, 0⟩] (fun _ _ _ => 0) := by
    unfold fullSymbols
    have hv : ∀ c, c < 3 → channelValues pass.order (fun _ => 0) (fun _ => 0) fullCoefficients ⟨0, 0, ⟨0, 0, 0, 0, 8, 8⟩, 1, 0⟩ c =
        channelValues [[zigzagOrder, zigzagOrder, zigzagOrder]] (fun _ => 0) (fun _ => 0) fullCoefficients ⟨0, 0, ⟨0, 0, 0, 0, 8, 8⟩, 1, 0⟩ c := by
      intro c hc
      unfold channelValues
      rw [show (⟨0, 0, ⟨0, 0, 0, 0, 8, 8⟩, 1, 0⟩ : HFBlock).tt.orderID.toNat = 0 from rfl, ho c hc]
      match c, hc with
      | 0, _ => rfl
      | 1, _ => rfl
      | 2, _ => rfl
    refine groupSymbols_congr _ (fun b hb => ?_) _
    obtain rfl := List.mem_singleton.1 hb
    exact fun c hc => (hv c hc).symm
  obtain ⟨f1, f2⟩ := fullSymbols_value
  have flen : fullSymbols.length = 192 := by
    have := congrArg List.length f1
    rw [List.length_map, List.length_replicate] at this
    exact this
  have hvalid : ∀ (n : Nat) (ctxs : List Int) (k : Nat), ctxs.length = n → LZValid ⟨fun _ => onlyDist, none⟩ 0 (List.replicate n (.lit 63)) ctxs k := by
    intro n
    induction n with
    | zero => intro ctxs k hl; exact List.eq_nil_of_length_eq_zero hl
    | succ n ih =>
      intro ctxs k hl
      match ctxs, hl with
      | c :: ctxs, hl => exact ⟨by decide, (⟨by decide, by decide⟩ : onlyDist.config.Valid), (fun z hz => by cases hz), ih ctxs (k + 1) (by simpa using hl)⟩
  have hitems : ∀ (n : Nat) (ctxs : List Int), (∀ i ∈ lzItems ⟨fun _ => onlyDist, none⟩ (List.replicate n (.lit 63)) ctxs, i.OK exampleCoder) ∧
      streamBitsOf exampleCoder (lzItems ⟨fun _ => onlyDist, none⟩ (List.replicate n (.lit 63)) ctxs) = [] := by
    intro n
    induction n with
    | zero => intro ctxs; exact ⟨(by intro i hi; cases hi), rfl⟩
    | succ n ih =>
      intro ctxs
      cases ctxs with
      | nil => exact ⟨(by intro i hi; cases hi), rfl⟩
      | cons c ctxs =>
        obtain ⟨i1, i2⟩ := ih ctxs
        refine ⟨?_, i2⟩
        intro i hi
        rw [List.replicate_succ, lzItems] at hi
        rcases List.mem_append.1 hi with hi | hi
        · simp only [valueItems, List.mem_cons, List.not_mem_nil, or_false] at hi
          rcases hi with rfl | rfl
          · exact ReadsPad.pure 0 _
          · exact True.intro
        · exact i1 i hi
  obtain ⟨planes, s', e, _, hl, h2⟩ := C76_stream (hf := oneContext) oneContext_wellFormed (presets := 1) h (preset := 0) (by decide) (by decide) (uy := fun _ => 0) (ux := fun _ => 0)
    (height := 8) (width := 8) (shift := 0) (q := fullCoefficients) (by intro c y x; unfold fullCoefficients; split <;> decide) (blocks := [⟨0, 0, ⟨0, 0, 0, 0, 8, 8⟩, 1, 0⟩])
    (by intro b hb; obtain rfl := List.mem_singleton.1 hb; exact ⟨by decide, by decide, by decide⟩)
    (by intro b hb; obtain rfl := List.mem_singleton.1 hb; exact ⟨by decide, by decide, fun c hc _ => by decide +revert⟩)
    (by
      intro c y x hc hz
      unfold fullCoefficients at hz
      split at hz
      · next h => exact ⟨_, List.mem_cons_self, ⟨Nat.mod_one _, Nat.mod_one _⟩, y, x, by simp, by simp, h.2.1, h.2.2.1, fun h' => h.2.2.2 ⟨Nat.lt_one_iff.1 h'.1, Nat.lt_one_iff.1 h'.2⟩⟩
      · exact absurd rfl hz)
    hsym (by rw [flen]; decide) rfl exampleCoder ⟨fun _ => onlyDist, none⟩ (List.replicate 192 (.lit 63))
    (by
      rw [lits_expand]
      have := congrArg (List.map Int.ofNat) f1
      rw [List.map_map, List.map_replicate] at this
      exact this.symm)
    ⟨by
      intro c hc
      obtain ⟨t, ht, rfl⟩ := List.mem_map.1 hc
      have := f2 t ht
      exact (hd _ (by omega) (by rw [Nat.mul_zero]; omega)).1, (hd 0 (by decide) (by decide)).2⟩
    (hvalid 192 _ 0 (by rw [List.length_map, flen])) (hitems 192 _).1 (BR.new []) 0 (AtBit.new []) rfl
    (by rw [(hitems 192 _).2, show Nat.clog 2 1 = 0 by simp]; exact List.nil_prefix) (by rw [(hitems 192 _).2, show Nat.clog 2 1 = 0 by simp]; decide)
  have hlt : 1 < planes.length := by omega
  refine ⟨pass, s0, planes, s', h, e, planes[1], List.getElem?_eq_getElem hlt, ?_⟩
  exact (h2 1 _ (List.getElem?_eq_getElem hlt)).2 7 7 (by decide) (by decide)

end Jxl
