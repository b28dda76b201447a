import Verif.Props.VarDCTFrame
import Verif.Props.ModularWitness
import Verif.Props.GroupSamples

/-!
# C90: examples of coded VarDCT frames
-/
namespace Jxl
open Spec

/-! ## Tables -/

/-- Functions that make flat matrices. -/
def flatQuant : QuantFuncs F32 := ⟨fun _ => 0, fun _ _ => .fin 1, fun _ => .fin 0, fun _ => false, .fin 1⟩

/-- Four goroutines, one after the other. -/
def oneByOne : FilterParts F32 where
  goroutines := 4
  stepMultiplier := .fin 2
  gabOrder f _ := match gabWorkers ((8 * ((f.size.height + 7) / 8) : Nat) : Int) ((8 * ((f.size.width + 7) / 8) : Nat) : Int) 4 with
    | .ok ws => ws.flatten
    | _ => []
  epfOrder f _ := match epfWorkers ((8 * ((f.size.height + 7) / 8) : Nat) : Int) ((8 * ((f.size.width + 7) / 8) : Nat) : Int) 3 4 with
    | .ok ws => ws.flatten
    | _ => []

theorem oneByOne_ok : oneByOne.Ok where
  goroutines := by decide
  gab := by
    intro f c ws e
    have e' : gabWorkers ((8 * ((f.size.height + 7) / 8) : Nat) : Int) ((8 * ((f.size.width + 7) / 8) : Nat) : Int) 4 = .ok ws := e
    unfold oneByOne
    dsimp only
    rw [e']
    exact Interleaving.sequential _ _ rfl
  epf := by
    intro f pass ws e
    have e' : epfWorkers ((8 * ((f.size.height + 7) / 8) : Nat) : Int) ((8 * ((f.size.width + 7) / 8) : Nat) : Int) 3 4 = .ok ws := e
    unfold oneByOne
    dsimp only
    rw [e']
    exact Interleaving.sequential _ _ rfl

/-- All tables are zero. -/
def zeroParts : VarParts F32 where
  lut := (List.range 9).map fun (l : Nat) => tableOf (2 ^ l) (2 ^ l) fun _ _ => .fin 0
  basis := tableOf 16 16 fun _ _ => .fin 0
  scale _ _ := .fin 1
  pow _ := .fin 1
  quant := flatQuant
  scratchLF _ _ := (tableOf 32 32 fun _ _ => .fin 0, tableOf 32 32 fun _ _ => .fin 0)
  scratch _ _ := ⟨tableOf 256 256 fun _ _ => .fin 0, tableOf 256 256 fun _ _ => .fin 0, tableOf 256 256 fun _ _ => .fin 0, tableOf 256 256 fun _ _ => .fin 0⟩
  filters := oneByOne

theorem zeroParts_ok : zeroParts.Ok (fun _ _ _ => .fin 0) (fun _ _ => .fin 0) where
  tables := by
    intro a ha
    refine ⟨_, by unfold zeroParts; dsimp only; rw [List.getElem?_map, List.getElem?_range (by omega)]; rfl, ?_⟩
    intro n k h1 h2 h4
    exact (tableOf_holds (2 ^ a) (2 ^ a) fun _ _ => F32.fin 0).2 (n - 1) k (by omega) h4
  basis := by
    intro y x hy hx
    have := (tableOf_holds 16 16 fun _ _ => F32.fin 0).2 y x hy hx
    rwa [Nat.zero_add, Nat.zero_add]
  scratchLF := fun _ _ => ⟨(tableOf_holds 32 32 _).1, (tableOf_holds 32 32 _).1⟩
  scratch := fun _ _ => ⟨(tableOf_holds 256 256 _).1, (tableOf_holds 256 256 _).1, (tableOf_holds 256 256 _).1, (tableOf_holds 256 256 _).1⟩
  grounded := ⟨fun _ _ _ _ _ _ _ _ _ _ _ _ _ => Int.le_refl 0, fun _ _ _ => Int.le_refl 0⟩
  filters := oneByOne_ok

theorem flat_curve (h w : Nat) (p : ℚ) (ps : List ℚ) : ∃ m, dctQuantWeights flatQuant h w (p :: ps) = .ok m ∧
    HoldsMat h w (fun _ _ => if ps = [] then Arith.lit p else (Arith.lit p : F32) * .fin 1) m := by
  unfold dctQuantWeights bandsOf
  rw [Res.bind_ok]
  refine tabulate_ok fun y x _ _ => ?_
  cases ps with
  | nil => rfl
  | cons q qs =>
    have hl : ∀ b : F32, (bandsFrom b qs).length = qs.length + 1 := bandsFrom_length qs
    unfold interpolate bandsFrom
    dsimp only
    rw [List.length_cons, hl, if_neg (by omega), if_neg (by show ¬ _ < (0 : Int) + 1; omega)]
    obtain ⟨c, cs, e⟩ : ∃ c cs, bandsFrom ((Arith.lit p : F32) * quantMult (Arith.lit q)) qs = c :: cs := by cases qs <;> exact ⟨_, _, rfl⟩
    rw [e]
    rfl

theorem flat_invert {h w : Nat} {v : F32} (hv : Arith.lt v (Arith.lit 0) = false) {m : List (List F32)} (hm : HoldsMat h w (fun _ _ => v) m) : ∃ m', invertWeights flatQuant h w m = .ok m' := by
  unfold invertWeights
  obtain ⟨m', e, -⟩ := tabulate_ok (h := h) (w := w) (g := fun _ _ => Arith.lit 1 / v) (f := fun y x => do
      let v ← at2 m (y : Int) (x : Int)
      if Arith.lt v (Arith.lit 0) || flatQuant.isInf v then .err else .ok (Arith.lit 1 / v)) (by
    intro y x hy hx
    rw [hm.at2 hy hx, Res.bind_ok, hv]
    rfl)
  exact ⟨m', e⟩

theorem flat_generate {i : Nat} {tt : TransformType} (ht : horizontalType i = .ok tt) {a b c : ℚ} {as bs cs : List ℚ} {pm p44 : List (List ℚ)} {den : ℚ}
    (ha : Arith.lt (if as = [] then Arith.lit a else (Arith.lit a : F32) * .fin 1) (Arith.lit 0) = false)
    (hb : Arith.lt (if bs = [] then Arith.lit b else (Arith.lit b : F32) * .fin 1) (Arith.lit 0) = false)
    (hc : Arith.lt (if cs = [] then Arith.lit c else (Arith.lit c : F32) * .fin 1) (Arith.lit 0) = false) :
    ∃ w, generateWeights flatQuant ⟨[a :: as, b :: bs, c :: cs], pm, 6, den, p44⟩ i = .ok w := by
  unfold generateWeights
  rw [ht, Res.bind_ok]
  obtain ⟨ma, ea, da⟩ := flat_curve tt.matrixHeight tt.matrixWidth a as
  obtain ⟨mb, eb, db⟩ := flat_curve tt.matrixHeight tt.matrixWidth b bs
  obtain ⟨mc, ec, dc⟩ := flat_curve tt.matrixHeight tt.matrixWidth c cs
  obtain ⟨ma', ea'⟩ := flat_invert ha da
  obtain ⟨mb', eb'⟩ := flat_invert hb db
  obtain ⟨mc', ec'⟩ := flat_invert hc dc
  rw [show channelWeights flatQuant tt ⟨[a :: as, b :: bs, c :: cs], pm, 6, den, p44⟩ 0 = .ok ma from ea,
    show channelWeights flatQuant tt ⟨[a :: as, b :: bs, c :: cs], pm, 6, den, p44⟩ 1 = .ok mb from eb,
    show channelWeights flatQuant tt ⟨[a :: as, b :: bs, c :: cs], pm, 6, den, p44⟩ 2 = .ok mc from ec, Res.bind_ok, Res.bind_ok, Res.bind_ok, if_neg (show ¬ (6 : Nat) = 7 by decide), ea', Res.bind_ok, eb', Res.bind_ok, ec']
  exact ⟨_, rfl⟩

def Res.isOk {α : Type} : Res α → Bool
  | .ok _ => true
  | _ => false

theorem Res.of_isOk {α : Type} {r : Res α} (h : r.isOk = true) : ∃ a, r = .ok a := by
  cases r with
  | ok a => exact ⟨a, rfl⟩
  | err => cases h
  | panic => cases h

theorem allWeights_cons {F : QuantFuncs F32} {p : DCTParam} {ps : List DCTParam} {i : Nat} (h1 : ∃ w, generateWeights F p i = .ok w) (h2 : ∃ w, allWeights F ps (i + 1) = .ok w) :
    ∃ w, allWeights F (p :: ps) i = .ok w := by
  obtain ⟨w, e⟩ := h1
  obtain ⟨ws, es⟩ := h2
  exact ⟨w :: ws, by rw [allWeights, e, Res.bind_ok, es, Res.bind_ok]⟩

theorem flat_weights : ∃ weights, allWeights flatQuant defaultParams 0 = .ok weights := by
  unfold defaultParams
  refine allWeights_cons (flat_generate rfl (by decide +kernel) (by decide +kernel) (by decide +kernel)) ?_
  refine allWeights_cons (Res.of_isOk (by decide +kernel)) ?_
  refine allWeights_cons (Res.of_isOk (by decide +kernel)) ?_
  refine allWeights_cons (Res.of_isOk (by decide +kernel)) ?_
  refine allWeights_cons (flat_generate rfl (by decide +kernel) (by decide +kernel) (by decide +kernel)) ?_
  refine allWeights_cons (flat_generate rfl (by decide +kernel) (by decide +kernel) (by decide +kernel)) ?_
  refine allWeights_cons (flat_generate rfl (by decide +kernel) (by decide +kernel) (by decide +kernel)) ?_
  refine allWeights_cons (flat_generate rfl (by decide +kernel) (by decide +kernel) (by decide +kernel)) ?_
  refine allWeights_cons (flat_generate rfl (by decide +kernel) (by decide +kernel) (by decide +kernel)) ?_
  refine allWeights_cons (Res.of_isOk (by decide +kernel)) ?_
  refine allWeights_cons (Res.of_isOk (by decide +kernel)) ?_
  refine allWeights_cons (flat_generate rfl (by decide +kernel) (by decide +kernel) (by decide +kernel)) ?_
  refine allWeights_cons (flat_generate rfl (by decide +kernel) (by decide +kernel) (by decide +kernel)) ?_
  refine allWeights_cons (flat_generate rfl (by decide +kernel) (by decide +kernel) (by decide +kernel)) ?_
  refine allWeights_cons (flat_generate rfl (by decide +kernel) (by decide +kernel) (by decide +kernel)) ?_
  refine allWeights_cons (flat_generate rfl (by decide +kernel) (by decide +kernel) (by decide +kernel)) ?_
  refine allWeights_cons (flat_generate rfl (by decide +kernel) (by decide +kernel) (by decide +kernel)) ?_
  exact ⟨[], rfl⟩

/-! ## A frame -/

/-- An image of 16 by 8 pixels. -/
def tinyImage : ImageHeader := { sampleHeader with size := ⟨16, 8⟩ }

/-- Its frame, with smoothing and filters. -/
def tinyFrame : FrameHeader :=
  { frameSized 16 8 with encoding := 0, flags := 0, groupDim := 256, lfGroupDim := 2048, logGroupDim := 8, logLFGroupDim := 11, xqm := 3, bqm := 2, passes := onePass
                         restoration := Restoration.dflt }

/-- Sections of a frame without extra channels. -/
theorem VarDCTAt.plain {h : ImageHeader} {F : CodedFrame} {f : FrameHeader} {data : Nat → List UInt8} {start stop : Nat → Nat} (he : h.extra = []) (hc : F.channels.enc = [])
    (global : VarGlobalAt F (data 0) (start 0) (stop 0)) (lf : ∀ i, i < varLFGroups f → LFGroupAt h.bitDepth.bits F f i (data (1 + i)) (start (1 + i)) (stop (1 + i)))
    (hf : HFSectionAt F f (data (1 + varLFGroups f)) (start (1 + varLFGroups f)) (stop (1 + varLFGroups f)))
    (groups : ∀ g, g < varGroups f → CoeffsAt F f g (data (2 + varLFGroups f + g)) (start (2 + varLFGroups f + g)) (stop (2 + varLFGroups f + g))) : VarDCTAt h F f data start stop := by
  have hr : F.rest = [] := by
    unfold CodedFrame.rest
    rw [hc]
    exact List.drop_nil
  refine ⟨⟨_, global, ?_⟩, ?_, ?_, lf, hf, fun g hg => ⟨_, groups g hg, .inl ⟨hr, rfl⟩⟩⟩
  · unfold ExtraAt
    rw [if_pos (by rw [he]; rfl)]
    exact ⟨hc, rfl⟩
  · rw [hr]
    intro c hc
    cases hc
  · rw [he]
    intro c y x h
    cases h

theorem tinyFrame_plain : PlainVarDCT tinyImage tinyFrame where
  framed := ⟨⟨1, by decide, rfl⟩, rfl, (by show ∀ v ∈ [0, 0, 0], v ≤ 1; decide), (by show ∀ v ∈ [0, 0, 0], v ≤ 1; decide), ⟨by decide, by decide⟩, ⟨by decide, by decide⟩⟩
  small := ⟨by decide, by decide⟩
  groups := rfl
  encoding := rfl
  passes := rfl
  extra := by intro e he; cases he
  opsin := by intro l hl; cases hl
  jpegX := rfl
  jpegY := rfl
  filtered := by decide
  restoration := by decide
  scales := by decide
  flags := by
    show Nat.testBit 0 0 = false ∧ Nat.testBit 0 1 = false ∧ Nat.testBit 0 4 = false ∧ Nat.testBit 0 5 = false
    decide

/-- The natural order of a class. -/
def classOrder (b : Nat) : List Point :=
  match filterByOrderID (b : Int) with
  | .ok tt => naturalOrder tt
  | _ => []

def naturalOrders : List (List (List Point)) := (List.range 13).map fun (b : Nat) => (List.range 3).map fun (_ : Nat) => classOrder b

theorem classOrder_natural {b : Nat} {size : Nat × Nat} (h : classSizes[b]? = some size) : IsNatural size.1 size.2 (classOrder b) := by
  have hb : b < 13 := by
    by_contra hc
    rw [List.getElem?_eq_none (by show 13 ≤ b; omega)] at h
    cases h
  obtain ⟨tt, H, W, h1, h2, h3⟩ := class_dims ⟨b, hb⟩
  dsimp only at h1 h3
  unfold classOrder
  rw [h1]
  rw [h] at h3
  cases h3
  exact naturalOrder_natural h2

/-- Two blocks, of the types "Hornuss" and DCT 2×2. The first one has two coefficients of high frequency. -/
def tinyBlocks : List Block := [⟨2, 4, 0, 1⟩, ⟨1, 3, 0, 0⟩]

def tinyCoefficients (c y x : Nat) : Int := if c = 1 ∧ (y = 0 ∧ x = 1 ∨ y = 1 ∧ x = 0) then 1 else 0

def tinyCoded (tree codes : ES) : CodedFrame where
  dequant := [1 / 4096, 1 / 512, 1 / 256]
  globalScale := 2049
  quantLF := 16
  ctx := ⟨[[], [], []], defaultContexts, 15, [], 1⟩
  corr := ⟨84, 0, 1, 128, 128⟩
  tree := some (codedTree, tree)
  params := defaultParams
  presets := 1
  orders := naturalOrders
  codes := codes
  extra _ := 1
  lf _ c _ x := if c = x then 3 else 0
  blocks _ := tinyBlocks
  hfX _ _ _ := 1
  hfB _ _ _ := 2
  sharpness _ _ x := if x = 0 then 1 else 3
  preset _ := 0
  q _ := tinyCoefficients

/-- The LF samples. -/
def tinyLF : List MChan := [planeChannel 1 2 fun _ x => if 1 = x then 3 else 0, planeChannel 1 2 fun _ x => if 0 = x then 3 else 0, planeChannel 1 2 fun _ x => if 2 = x then 3 else 0]

/-- Factors, blocks, sharpness. -/
def tinyMeta : List MChan := [planeChannel 1 1 fun _ _ => 1, planeChannel 1 1 fun _ _ => 2, planeChannel 2 2 (blockRows tinyBlocks.reverse), planeChannel 1 2 fun _ x => if x = 0 then 1 else 3]

/-- The blocks in the group. -/
def tinyHF : List HFBlock := [⟨0, 0, ⟨1, 1, 1, 3, 8, 8⟩, 3, 0⟩, ⟨0, 1, ⟨2, 2, 1, 1, 8, 8⟩, 4, 0⟩]

def tinyLFOut : List (Int × Nat) := [(1, 0), (1, 2), (1, 2), (1, 0), (1, 0), (1, 0)]
def tinyMetaOut : List (Int × Nat) := [(0, 0), (0, 2), (0, 0), (0, 0), (0, 0), (0, 0), (0, 0), (0, 2)]
def tinySymbols : List (Int × Nat) := [(301, 2), (1076, 2), (1016, 2), (308, 0), (308, 0), (31, 0), (8, 0), (8, 0)]

/-- The global section has 120 bits, that of the LF group 29, the next one 45, and that of the group 11. -/
def tinyData : List UInt8 := [3, 0, 151, 20, 18, 36, 16, 176, 20, 144, 164, 144, 32, 129, 128, 141, 194, 17, 168, 146, 66, 130, 4, 2, 86, 0, 0, 0, 0]

theorem treeCodes_valid {n : Nat} (hn : 2 ≤ n) (hs : n < 2 ^ 20) : (treeCodes n).Valid n where
  pos := by omega
  contexts := List.length_replicate
  width := by show 0 < 4; decide
  entries := by
    intro c hc
    rw [List.eq_of_mem_replicate hc]
    exact ⟨by show 0 < 2 ^ 0; decide, by show 0 < 1; decide⟩
  one := by
    intro h
    have : (List.replicate n 0).length = 1 := h
    rw [List.length_replicate] at this
    omega
  all := by
    have : ∀ k, List.foldl max 0 (List.replicate k 0) = 0 := by
      intro k
      induction k with
      | zero => rfl
      | succ k ih => exact ih
    show 1 = List.foldl max 0 (List.replicate n 0) + 1
    rw [this]
  count := by
    show 1 ≤ (List.replicate n 0).length
    rw [List.length_replicate]
    omega
  codes := treeCodes_codes n
  lz := by intro z hz; cases hz

theorem tiny_shaped {rows cols : Nat} {v : Nat → Nat → Int} (hv : ∀ y x, y < rows → x < cols → -2 ^ 26 ≤ v y x ∧ v y x ≤ 2 ^ 26) : (planeChannel rows cols v).Shaped ∧ Small (planeChannel rows cols v).buffer := by
  refine ⟨tab_rect _ _ _, ?_⟩
  intro r hr a ha
  have hr : r ∈ tab rows cols v := hr
  unfold tab at hr
  split at hr
  · cases hr
  · obtain ⟨y, hy, rfl⟩ := List.mem_map.mp hr
    obtain ⟨x, hx, rfl⟩ := List.mem_map.mp ha
    exact hv y x (List.mem_range.mp hy) (List.mem_range.mp hx)

theorem tiny_orders (c : Nat) (hc : c < 3) : (naturalOrders.getD 1 []).getD c [] = zigzagOrder := by
  have h1 : classOrder 1 = zigzagOrder := by
    have h0 : IsNatural 8 8 (classOrder 1) := classOrder_natural (b := 1) (size := (8, 8)) rfl
    have h2 : IsNatural 8 8 (classOrder 0) := classOrder_natural (b := 0) (size := (8, 8)) rfl
    rw [isNatural_unique h0 h2]
    exact dct8_order
  rw [← h1]
  rcases (by omega : c = 0 ∨ c = 1 ∨ c = 2) with rfl | rfl | rfl <;> rfl

theorem tiny_symbols : (groupSymbols ⟨[[], [], []], defaultContexts, 15, [], 1⟩ naturalOrders (fun _ => 0) (fun _ => 0) tinyCoefficients tinyHF (fun _ _ _ => 0)).map
    (fun t => (((495 * 15 * 0 + t.1 : Nat) : Int), t.2)) = tinySymbols := by
  have e : groupSymbols ⟨[[], [], []], defaultContexts, 15, [], 1⟩ (List.replicate 13 (List.replicate 3 zigzagOrder)) (fun _ => 0) (fun _ => 0) tinyCoefficients tinyHF (fun _ _ _ => 0) =
      groupSymbols ⟨[[], [], []], defaultContexts, 15, [], 1⟩ naturalOrders (fun _ => 0) (fun _ => 0) tinyCoefficients tinyHF (fun _ _ _ => 0) := by
    refine groupSymbols_congr _ (fun b hb => ?_) _
    have hc : ∀ c, c < 3 → channelValues (List.replicate 13 (List.replicate 3 zigzagOrder)) (fun _ => 0) (fun _ => 0) tinyCoefficients b c =
        channelValues naturalOrders (fun _ => 0) (fun _ => 0) tinyCoefficients b c := by
      intro c hc
      have ho : b.tt.orderID.toNat = 1 := by
        unfold tinyHF at hb
        simp only [List.mem_cons, List.not_mem_nil, or_false] at hb
        rcases hb with rfl | rfl <;> rfl
      unfold channelValues
      rw [ho, tiny_orders c hc]
      rcases (by omega : c = 0 ∨ c = 1 ∨ c = 2) with rfl | rfl | rfl <;> rfl
    exact hc
  rw [← e]
  decide +kernel

/-- The bounds of the sections. -/
def tinyStart : Nat → Nat
  | 0 => 0
  | 1 => 120
  | 2 => 149
  | 3 => 194
  | _ => 205

theorem tiny_at : ∃ tree codes, VarDCTAt tinyImage (tinyCoded tree codes) tinyFrame (fun _ => tinyData) tinyStart (fun i => tinyStart (i + 1)) := by
  obtain ⟨ds, h1, h2⟩ := codesAt_of tinyData 19 6 (treeCodes 6) treeCodes_valid6 (by decide +kernel) (by decide +kernel)
  have h3 := treeNumbers tinyData 61 6 ds h2 0 codedTreeOut (by decide) (by decide) (by decide) (by decide +kernel) (by decide +kernel)
  obtain ⟨ds', h4, h5⟩ := codesAt_of tinyData 78 2 (treeCodes 2) treeCodes_valid2 (by decide +kernel) (by decide +kernel)
  have h6 := treeNumbers tinyData 126 2 ds' h5 2 tinyLFOut (by decide) (by decide) (by decide) (by decide +kernel) (by decide +kernel)
  have h7 := treeNumbers tinyData 139 2 ds' h5 2 tinyMetaOut (by decide) (by decide) (by decide) (by decide +kernel) (by decide +kernel)
  obtain ⟨dc, h8, h9⟩ := codesAt_of tinyData 152 7425 (treeCodes 7425) (treeCodes_valid (by decide) (by decide)) (by decide +kernel) (by decide +kernel)
  rw [show 152 + (treeCodes 7425).bits.length = 194 by decide +kernel] at h8
  have d1 : DecAt decLFDequant tinyData 0 1 [1 / 4096, 1 / 512, 1 / 256] := ⟨by decide +kernel, by decide +kernel⟩
  have d2 : DecAt decQuantizer tinyData 1 16 (2049, 16) := ⟨by decide +kernel, by decide +kernel⟩
  have d3 : DecAt decHFContext tinyData 16 17 ⟨[[], [], []], defaultContexts, 15, [], 1⟩ := ⟨by decide +kernel, by decide +kernel⟩
  have d4 : DecAt decLFCorrelation tinyData 17 18 ⟨84, 0, 1, 128, 128⟩ := ⟨by decide +kernel, by decide +kernel⟩
  have d5 : DecAt (decBits 2) tinyData 120 122 1 := ⟨by decide +kernel, by decide +kernel⟩
  have d6 : DecAt (decBits (Nat.clog 2 (lfRows tinyFrame 0 * lfCols tinyFrame 0))) tinyData 134 135 1 := ⟨by decide +kernel, by decide +kernel⟩
  have d7 : DecAt decHFParams tinyData 149 150 defaultParams := by
    have e : decBool (bitsFrom tinyData 149) = some (true, bitsFrom tinyData 150) := by decide +kernel
    refine ⟨by decide +kernel, ?_⟩
    unfold decHFParams
    rw [Dec.bind_eq, e]
    rfl
  have d8 : DecAt (decBits (Nat.clog 2 (varGroups tinyFrame))) tinyData 150 150 0 := ⟨by decide +kernel, by decide +kernel⟩
  have d9 : DecAt (decBits (Nat.clog 2 1)) tinyData 194 194 0 := ⟨by decide +kernel, by decide +kernel⟩
  have h10 := treeNumbers tinyData 194 7425 dc h9 0 tinySymbols (by decide) (by decide) (by decide) (by decide +kernel) (by decide +kernel)
  refine ⟨ES.mk' ((treeCodes 2).map.map Int.ofNat) ds' none, ES.mk' ((treeCodes 7425).map.map Int.ofNat) dc none, .plain rfl rfl ?_ ?_ ?_ ?_⟩
  · refine ⟨1, 16, 17, 18, d1, d2, d3, d4,
      ⟨by decide +kernel, by decide +kernel⟩, ⟨_, 61, 78, codedTreeOut, h1, codedTree_serial, h3, h4⟩, by decide⟩
  · intro i hi
    obtain rfl : i = 0 := by
      have : i < 1 := hi
      omega
    refine ⟨122, 134, 135, ⟨true, defaultWP, []⟩, ⟨true, defaultWP, []⟩, 0, 0, tinyLF, tinyMeta, d5,
      ⟨126, 126, codedTree, _, tinyLFOut, ⟨by decide +kernel, by decide +kernel⟩, ⟨rfl, rfl⟩, .nil _ _, ?_, by decide +kernel, h6⟩, d6,
      ⟨139, 139, codedTree, _, tinyMetaOut, ⟨by decide +kernel, by decide +kernel⟩, ⟨rfl, rfl⟩, .nil _ _, ?_, by decide +kernel, h7⟩⟩
    · rw [List.take_length]
      intro c hc
      unfold tinyLF at hc
      simp only [List.mem_cons, List.not_mem_nil, or_false] at hc
      rcases hc with rfl | rfl | rfl <;> refine tiny_shaped fun y x _ _ => ?_ <;> split <;> decide
    · rw [List.take_length]
      intro c hc
      unfold tinyMeta at hc
      simp only [List.mem_cons, List.not_mem_nil, or_false] at hc
      rcases hc with rfl | rfl | rfl | rfl
      · exact tiny_shaped fun y x _ _ => by decide
      · exact tiny_shaped fun y x _ _ => by decide
      · exact tiny_shaped fun y x hy hx => by
          have : ∀ y : Fin 2, ∀ x : Fin 2, -2 ^ 26 ≤ blockRows tinyBlocks.reverse y x ∧ blockRows tinyBlocks.reverse y x ≤ 2 ^ 26 := by decide
          exact this ⟨y, hy⟩ ⟨x, hx⟩
      · exact tiny_shaped fun y x _ _ => by split <;> decide
  · refine ⟨150, 150, d7, d8, 0, 152, 152, ⟨by decide +kernel, by decide +kernel⟩,
      ⟨classOrder, fun _ _ => 0, fun _ _ => [], ⟨fun b size h => classOrder_natural h, ?_, ?_⟩, .inl ⟨rfl, rfl⟩⟩, h8⟩
    · intro b c _ _ h
      rw [Nat.zero_testBit] at h
      cases h
    · show naturalOrders = _
      unfold naturalOrders
      refine List.map_congr_left fun b _ => List.map_congr_left fun c _ => ?_
      rw [Nat.zero_testBit]
      rfl
  · intro g hg
    obtain rfl : g = 0 := by
      have : g < 1 := hg
      omega
    refine ⟨194, d9, ?_⟩
    have e : ((tinyCoded (ES.mk' ((treeCodes 2).map.map Int.ofNat) ds' none) (ES.mk' ((treeCodes 7425).map.map Int.ofNat) dc none)).groupBlocks tinyFrame 0).map
      ((tinyCoded (ES.mk' ((treeCodes 2).map.map Int.ofNat) ds' none) (ES.mk' ((treeCodes 7425).map.map Int.ofNat) dc none)).hfBlock tinyFrame 0) = tinyHF := rfl
    rw [e]
    rw [show 194 + (tinySymbols.flatMap fun o => treeWord o.2).length = 205 by decide +kernel, ← tiny_symbols] at h10
    exact h10

theorem tiny_ok (tree codes : ES) : (tinyCoded tree codes).Ok tinyFrame where
  blocks := by
    intro i hi
    obtain rfl : i = 0 := by
      have : i < 1 := hi
      omega
    have hm : ∀ b ∈ tinyBlocks, b = ⟨2, 4, 0, 1⟩ ∨ b = ⟨1, 3, 0, 0⟩ := by
      intro b hb
      unfold tinyBlocks at hb
      simpa using hb
    show Tiled 1 2 tinyBlocks ∧ ∀ b ∈ tinyBlocks, b.type ≠ 3
    refine ⟨⟨?_, ?_, ?_, ?_, ?_⟩, ?_⟩
    · refine Laid.cons _ _ (Laid.cons _ _ .nil ⟨by decide, (by intro b hb; cases hb), ?_⟩ ⟨by decide, by decide, by decide⟩ (by intro a ha; cases ha)) ⟨by decide, ?_, ?_⟩ ⟨by decide, by decide, by decide⟩ ?_
      · intro j k _ h
        dsimp only at h
        omega
      · intro b hb h
        obtain rfl := List.mem_singleton.1 hb
        exact absurd h.2.2.2 (by decide)
      · intro j k hk h
        dsimp only at h
        obtain ⟨rfl, rfl⟩ : j = 0 ∧ k = 0 := by omega
        exact ⟨_, List.mem_cons_self, by decide, by decide, by decide, by decide⟩
      · intro a ha y x h
        obtain rfl := List.mem_singleton.1 ha
        have h1 : 1 ≤ x := h.1.2.2.1
        have h2 : x < 0 + 1 := h.2.2.2.2
        omega
    · intro y x hy hx
      obtain rfl : y = 0 := by omega
      rcases (by omega : x = 0 ∨ x = 1) with rfl | rfl
      · exact ⟨_, List.mem_cons_of_mem _ List.mem_cons_self, by decide, by decide, by decide, by decide⟩
      · exact ⟨_, List.mem_cons_self, by decide, by decide, by decide, by decide⟩
    · intro b hb
      rcases hm b hb with rfl | rfl <;> decide
    · intro b hb
      rcases hm b hb with rfl | rfl <;> decide
    · intro b hb
      rcases hm b hb with rfl | rfl <;> decide
    · intro b hb
      rcases hm b hb with rfl | rfl <;> decide
  quantizer := by show (0 : Int) < 2049 * 16 ∧ (2049 * 16 : Int) < 2 ^ 31; decide
  corr := by show (128 ≤ 128 ∧ 128 < 256) ∧ 128 ≤ 128 ∧ 128 < 256; decide
  presets := ⟨by show 0 < 1; decide, by show (495 * 15 * 1 : Int) < 2 ^ 31; decide, fun g _ => by show 0 < 1; decide⟩
  range := by
    intro g c y x
    show -2 ^ 30 ≤ tinyCoefficients c y x ∧ tinyCoefficients c y x < 2 ^ 30
    unfold tinyCoefficients
    split <;> decide
  sharpness := by
    intro _ i y x _ _ _
    show 0 ≤ (if x = 0 then (1 : Int) else 3) ∧ (if x = 0 then (1 : Int) else 3) ≤ 7
    split <;> omega
  support := by
    intro g c y x hg _ hq
    obtain rfl : g = 0 := by
      have : g < 1 := hg
      omega
    have hq : tinyCoefficients c y x ≠ 0 := hq
    unfold tinyCoefficients at hq
    split at hq
    · next h =>
      refine ⟨⟨1, 3, 0, 0⟩, List.mem_cons_self, ?_⟩
      rcases h.2 with ⟨rfl, rfl⟩ | ⟨rfl, rfl⟩
      · exact ⟨0, 1, rfl, rfl, by decide, by decide, by decide⟩
      · exact ⟨1, 0, rfl, rfl, by decide, by decide, by decide⟩
    · exact absurd rfl hq

/-- The hypotheses of `C90_single_partial` are met by the example. -/
theorem tiny_decodes (P : FrameParts) (I : FloatImpl) : ∃ F weights out s', decodeFrame (P.withVarDCT inferInstance zeroParts I []) I tinyImage tinyFrame ⟨1, 1, 1, 1⟩ ⟨none, [29]⟩ (BR.new tinyData) = (.ok out, s') ∧
    ShowsVarDCT F tinyImage tinyFrame (fun _ _ _ => .fin 0) (fun _ _ => .fin 0) zeroParts weights out ∧ F.blocks 0 = tinyBlocks ∧ AtBit s' 205 ∧ s'.data = tinyData := by
  obtain ⟨tree, codes, h⟩ := tiny_at
  obtain ⟨weights, hw⟩ := flat_weights
  obtain ⟨out, s', h1, h2, h3, h4⟩ := C90_single_partial inferInstance zeroParts P I [] tinyFrame_plain (by decide) zeroParts_ok (tiny_ok tree codes) hw (l := ⟨1, 1, 1, 1⟩) (toc := ⟨none, [29]⟩) rfl
    (data := tinyData) (start := tinyStart) h (AtBit.new _) rfl
  exact ⟨_, weights, out, s', h1, h2, rfl, h3, h4⟩

/-! ## A frame with two groups -/

/-- A frame of 264 by 8 pixels, without smoothing and filters: 33 blocks, of which the last is in the second group. -/
def wideFrame : FrameHeader := { tinyFrame with size := ⟨264, 8⟩, flags := 128, restoration := { Restoration.dflt with gab := false, iterations := 0 } }

theorem wideFrame_plain : PlainVarDCT tinyImage wideFrame :=
  { tinyFrame_plain with
    framed := ⟨⟨1, by decide, rfl⟩, rfl, (by show ∀ v ∈ [0, 0, 0], v ≤ 1; decide), (by show ∀ v ∈ [0, 0, 0], v ≤ 1; decide), ⟨by decide, by decide⟩, ⟨by decide, by decide⟩⟩
    small := ⟨by decide, by decide⟩
    filtered := by decide
    flags := by
      show Nat.testBit 128 0 = false ∧ Nat.testBit 128 1 = false ∧ Nat.testBit 128 4 = false ∧ Nat.testBit 128 5 = false
      decide }

/-- A tree with one leaf: numbers are written as they are. -/
def leafTree : MATree := .leaf ⟨0, 0, 0, 1⟩
def leafOut : List (Int × Nat) := [(1, 0), (2, 0), (3, 0), (4, 0), (5, 0)]

theorem leafTree_serial : Serial [leafTree] 0 leafOut :=
  Serial.leaf (l := ⟨0, 0, 0, 1⟩) (log := 0) (bits := 0) rfl (by decide) (by decide) (by decide) (by decide) (by decide) (.nil 1)

/-- Blocks of type DCT 8×8 in a row, last one first. -/
def rowBlocks : Nat → List Block
  | 0 => []
  | n + 1 => ⟨0, 1, 0, n⟩ :: rowBlocks n

theorem mem_rowBlocks {b : Block} : ∀ {n : Nat}, b ∈ rowBlocks n → b = ⟨0, 1, 0, b.x⟩ ∧ b.x < n
  | n + 1, h => by
    rcases List.mem_cons.1 h with rfl | h
    · exact ⟨rfl, Nat.lt_succ_self n⟩
    · have := mem_rowBlocks h
      exact ⟨this.1, by omega⟩

theorem rowBlocks_mem : ∀ {n k : Nat}, k < n → (⟨0, 1, 0, k⟩ : Block) ∈ rowBlocks n
  | n + 1, k, h => by
    rcases (by omega : k = n ∨ k < n) with rfl | h
    · exact List.mem_cons_self
    · exact List.mem_cons_of_mem _ (rowBlocks_mem h)

theorem row_rows (k : Nat) : (⟨0, 1, 0, k⟩ : Block).rows = 1 := by
  show (transformSizes[0]?.getD (0, 0)).1 / 8 = 1
  decide

theorem row_cols (k : Nat) : (⟨0, 1, 0, k⟩ : Block).cols = 1 := by
  show (transformSizes[0]?.getD (0, 0)).2 / 8 = 1
  decide

theorem row_covers {k y x : Nat} : (⟨0, 1, 0, k⟩ : Block).Covers y x ↔ y = 0 ∧ x = k := by
  unfold Block.Covers
  rw [row_rows, row_cols]
  dsimp only
  omega

theorem row_laid {w : Nat} : ∀ n, n ≤ w → Spec.Laid 1 w (rowBlocks n)
  | 0, _ => Spec.Laid.nil
  | n + 1, h => by
    refine Spec.Laid.cons _ _ (row_laid n (by omega)) ⟨by dsimp only; omega, ?_, ?_⟩ ⟨by show 0 < 27; decide, by rw [row_rows], by rw [row_cols]; exact h⟩ ?_
    · intro b hb hc
      obtain ⟨e, hx⟩ := mem_rowBlocks hb
      rw [e, row_covers] at hc
      dsimp only at hc
      omega
    · intro j k _ hjk
      dsimp only at hjk
      exact ⟨_, rowBlocks_mem (show k < n by omega), row_covers.2 ⟨by omega, rfl⟩⟩
    · intro a ha y x hc
      obtain ⟨e, hx⟩ := mem_rowBlocks ha
      rw [row_covers, e, row_covers] at hc
      omega

/-- Two coefficients in the second group. -/
def wideCoefficients (g c y x : Nat) : Int := if g = 1 ∧ c = 2 ∧ y = 0 ∧ 0 < x ∧ x < 3 then 1 else 0

def wideCoded (tree codes : ES) : CodedFrame :=
  { tinyCoded tree codes with
    tree := some (leafTree, tree)
    extra := fun _ => 0
    lf := fun _ c _ x => if c = 1 ∧ x = 3 then 1 else 0
    blocks := fun _ => rowBlocks 33
    hfX := fun _ _ _ => 0
    hfB := fun _ _ _ => 0
    sharpness := fun _ _ x => if x < 32 then 0 else 1
    q := wideCoefficients }

def wideLF : List MChan := [planeChannel 1 33 fun _ x => if 1 = 1 ∧ x = 3 then 1 else 0, planeChannel 1 33 fun _ x => if 0 = 1 ∧ x = 3 then 1 else 0, planeChannel 1 33 fun _ x => if 2 = 1 ∧ x = 3 then 1 else 0]
def wideMeta : List MChan := [planeChannel 1 5 fun _ _ => 0, planeChannel 1 5 fun _ _ => 0, planeChannel 2 33 (blockRows (rowBlocks 33).reverse), planeChannel 1 33 fun _ x => if x < 32 then 0 else 1]
def wideLFOut : List (Int × Nat) := List.replicate 3 (0, 0) ++ (0, 2) :: List.replicate 95 (0, 0)
def wideMetaOut : List (Int × Nat) := List.replicate 108 (0, 0) ++ [(0, 2)]

/-- The blocks in the groups. -/
def wideHF0 : List HFBlock := (List.range 32).map fun (x : Nat) => ⟨0, (x : Int), ⟨0, 0, 0, 0, 8, 8⟩, 1, 0⟩
def wideHF1 : List HFBlock := [⟨0, 0, ⟨0, 0, 0, 0, 8, 8⟩, 1, 0⟩]
def wideSymbols0 : List (Int × Nat) := [(300, 0), (307, 0), (307, 0)] ++ (List.replicate 31 [(0, 0), (7, 0), (7, 0)]).flatten
def wideSymbols1 : List (Int × Nat) := [(300, 0), (307, 0), (307, 2), (3824, 0), (3825, 2), (3766, 2)]

/-- The sections have 105, 226, 46, 96 and 9 bits. -/
def wideData : List UInt8 := [3, 0, 151, 20, 18, 36, 16, 16, 72, 33, 65, 2, 1, 1] ++ [12, 2, 0, 0, 0, 0, 0, 0, 0, 0, 0, 0, 0, 128, 3, 0, 0, 0, 0, 0, 0, 0, 0, 0, 0, 0, 0, 0, 1] ++
  [41, 41, 36, 72, 32, 32] ++ [0, 0, 0, 0, 0, 0, 0, 0, 0, 0, 0, 0] ++ [164, 0]

def wideSection : Nat → List UInt8
  | 0 => [3, 0, 151, 20, 18, 36, 16, 16, 72, 33, 65, 2, 1, 1, 0, 0, 0, 0]
  | 1 => [12, 2, 0, 0, 0, 0, 0, 0, 0, 0, 0, 0, 0, 128, 3, 0, 0, 0, 0, 0, 0, 0, 0, 0, 0, 0, 0, 0, 1, 0, 0, 0, 0]
  | 2 => [41, 41, 36, 72, 32, 32, 0, 0, 0, 0]
  | 3 => [0, 0, 0, 0, 0, 0, 0, 0, 0, 0, 0, 0, 0, 0, 0, 0]
  | 4 => [164, 0, 0, 0, 0, 0]
  | _ => [0, 0, 0, 0]

def wideStop : Nat → Nat
  | 0 => 105
  | 1 => 226
  | 2 => 46
  | 3 => 96
  | 4 => 9
  | _ => 0

theorem treeCodes_valid1 : (treeCodes 1).Valid 1 where
  pos := by decide
  contexts := by decide
  width := by decide
  entries := by decide
  one := by decide
  all := by decide
  count := by decide
  codes := treeCodes_codes 1
  lz := by intro z hz; cases hz

theorem zigzag_orders (c : Nat) (hc : c < 3) : (naturalOrders.getD 0 []).getD c [] = zigzagOrder := by
  have h1 : classOrder 0 = zigzagOrder := dct8_order
  rw [← h1]
  rcases (by omega : c = 0 ∨ c = 1 ∨ c = 2) with rfl | rfl | rfl <;> rfl

theorem wide_symbols {q : Nat → Nat → Nat → Int} {l : List HFBlock} (hl : ∀ b ∈ l, b.tt.orderID.toNat = 0) {out : List (Int × Nat)}
    (h : (groupSymbols ⟨[[], [], []], defaultContexts, 15, [], 1⟩ (List.replicate 13 (List.replicate 3 zigzagOrder)) (fun _ => 0) (fun _ => 0) q l (fun _ _ _ => 0)).map
      (fun t => (((495 * 15 * 0 + t.1 : Nat) : Int), t.2)) = out) :
    (groupSymbols ⟨[[], [], []], defaultContexts, 15, [], 1⟩ naturalOrders (fun _ => 0) (fun _ => 0) q l (fun _ _ _ => 0)).map (fun t => (((495 * 15 * 0 + t.1 : Nat) : Int), t.2)) = out := by
  rw [← h]
  refine congrArg _ (Eq.symm (groupSymbols_congr _ (fun b hb => ?_) _))
  have hc : ∀ c, c < 3 → channelValues (List.replicate 13 (List.replicate 3 zigzagOrder)) (fun _ => 0) (fun _ => 0) q b c = channelValues naturalOrders (fun _ => 0) (fun _ => 0) q b c := by
    intro c hc
    unfold channelValues
    rw [hl b hb, zigzag_orders c hc]
    rcases (by omega : c = 0 ∨ c = 1 ∨ c = 2) with rfl | rfl | rfl <;> rfl
  exact hc

theorem wide_at : ∃ tree codes, VarDCTAt tinyImage (wideCoded tree codes) wideFrame wideSection (fun _ => 0) wideStop := by
  obtain ⟨ds, h1, h2⟩ := codesAt_of (wideSection 0) 19 6 (treeCodes 6) treeCodes_valid6 (by decide +kernel) (by decide +kernel)
  have h3 := treeNumbers (wideSection 0) 61 6 ds h2 0 leafOut (by decide) (by decide) (by decide) (by decide +kernel) (by decide +kernel)
  obtain ⟨ds', h4, h5⟩ := codesAt_of (wideSection 0) 66 1 (treeCodes 1) treeCodes_valid1 (by decide +kernel) (by decide +kernel)
  have h6 := treeNumbers (wideSection 1) 6 1 ds' h5 33 wideLFOut (by decide) (by decide) (by decide) (by decide +kernel) (by decide +kernel)
  have h7 := treeNumbers (wideSection 1) 116 1 ds' h5 33 wideMetaOut (by decide +kernel) (by decide +kernel) (by decide +kernel) (by decide +kernel) (by decide +kernel)
  obtain ⟨dc, h8, h9⟩ := codesAt_of (wideSection 2) 4 7425 (treeCodes 7425) (treeCodes_valid (by decide) (by decide)) (by decide +kernel) (by decide +kernel)
  rw [show 4 + (treeCodes 7425).bits.length = 46 by decide +kernel] at h8
  have d1 : DecAt decLFDequant (wideSection 0) 0 1 [1 / 4096, 1 / 512, 1 / 256] := ⟨by decide +kernel, by decide +kernel⟩
  have d2 : DecAt decQuantizer (wideSection 0) 1 16 (2049, 16) := ⟨by decide +kernel, by decide +kernel⟩
  have d3 : DecAt decHFContext (wideSection 0) 16 17 ⟨[[], [], []], defaultContexts, 15, [], 1⟩ := ⟨by decide +kernel, by decide +kernel⟩
  have d4 : DecAt decLFCorrelation (wideSection 0) 17 18 ⟨84, 0, 1, 128, 128⟩ := ⟨by decide +kernel, by decide +kernel⟩
  have d5 : DecAt (decBits 2) (wideSection 1) 0 2 0 := ⟨by decide +kernel, by decide +kernel⟩
  have d6 : DecAt (decBits (Nat.clog 2 (lfRows wideFrame 0 * lfCols wideFrame 0))) (wideSection 1) 106 112 32 := ⟨by decide +kernel, by decide +kernel⟩
  have d7 : DecAt decHFParams (wideSection 2) 0 1 defaultParams := by
    have e : decBool (bitsFrom (wideSection 2) 0) = some (true, bitsFrom (wideSection 2) 1) := by decide +kernel
    refine ⟨by decide +kernel, ?_⟩
    unfold decHFParams
    rw [Dec.bind_eq, e]
    rfl
  have d8 : DecAt (decBits (Nat.clog 2 (varGroups wideFrame))) (wideSection 2) 1 2 0 := ⟨by decide +kernel, by decide +kernel⟩
  have d9 : ∀ i : Fin 5, DecAt (decBits (Nat.clog 2 1)) (wideSection i) 0 0 0 := by
    intro i
    refine ⟨Nat.zero_le _, ?_⟩
    revert i
    decide +kernel
  refine ⟨ES.mk' ((treeCodes 1).map.map Int.ofNat) ds' none, ES.mk' ((treeCodes 7425).map.map Int.ofNat) dc none, .plain rfl rfl ?_ ?_ ?_ ?_⟩
  · refine ⟨1, 16, 17, 18, d1, d2, d3, d4,
      ⟨by decide +kernel, by decide +kernel⟩, ⟨_, 61, 66, leafOut, h1, leafTree_serial, h3, h4⟩, by decide⟩
  · intro i hi
    obtain rfl : i = 0 := by
      have : i < 1 := hi
      omega
    refine ⟨2, 106, 112, ⟨true, defaultWP, []⟩, ⟨true, defaultWP, []⟩, 0, 0, wideLF, wideMeta, d5,
      ⟨6, 6, leafTree, _, wideLFOut, ⟨by decide +kernel, by decide +kernel⟩, ⟨rfl, rfl⟩, .nil _ _, ?_, by decide +kernel, h6⟩, d6,
      ⟨116, 116, leafTree, _, wideMetaOut, ⟨by decide +kernel, by decide +kernel⟩, ⟨rfl, rfl⟩, .nil _ _, ?_, by decide +kernel, h7⟩⟩
    · rw [List.take_length]
      intro c hc
      unfold wideLF at hc
      simp only [List.mem_cons, List.not_mem_nil, or_false] at hc
      rcases hc with rfl | rfl | rfl <;> refine tiny_shaped fun y x _ _ => ?_ <;> split <;> decide
    · rw [List.take_length]
      intro c hc
      unfold wideMeta at hc
      simp only [List.mem_cons, List.not_mem_nil, or_false] at hc
      rcases hc with rfl | rfl | rfl | rfl
      · exact tiny_shaped fun y x _ _ => by decide
      · exact tiny_shaped fun y x _ _ => by decide
      · exact tiny_shaped fun y x hy hx => by
          have : ∀ y : Fin 2, ∀ x : Fin 33, -2 ^ 26 ≤ blockRows (rowBlocks 33).reverse y x ∧ blockRows (rowBlocks 33).reverse y x ≤ 2 ^ 26 := by decide +kernel
          exact this ⟨y, hy⟩ ⟨x, hx⟩
      · exact tiny_shaped fun y x _ _ => by split <;> decide
  · refine ⟨1, 2, d7, d8, 0, 4, 4, ⟨by decide +kernel, by decide +kernel⟩,
      ⟨classOrder, fun _ _ => 0, fun _ _ => [], ⟨fun b size h => classOrder_natural h, ?_, ?_⟩, .inl ⟨rfl, rfl⟩⟩, h8⟩
    · intro b c _ _ h
      rw [Nat.zero_testBit] at h
      cases h
    · show naturalOrders = _
      unfold naturalOrders
      refine List.map_congr_left fun b _ => List.map_congr_left fun c _ => ?_
      rw [Nat.zero_testBit]
      rfl
  · intro g hg
    rcases (by have : g < 2 := hg; omega : g = 0 ∨ g = 1) with rfl | rfl
    · refine ⟨0, d9 3, ?_⟩
      have e : ((wideCoded (ES.mk' ((treeCodes 1).map.map Int.ofNat) ds' none) (ES.mk' ((treeCodes 7425).map.map Int.ofNat) dc none)).groupBlocks wideFrame 0).map
        ((wideCoded (ES.mk' ((treeCodes 1).map.map Int.ofNat) ds' none) (ES.mk' ((treeCodes 7425).map.map Int.ofNat) dc none)).hfBlock wideFrame 0) = wideHF0 := rfl
      have h10 := treeNumbers (wideSection 3) 0 7425 dc h9 0 wideSymbols0 (by decide) (by decide) (by decide) (by decide +kernel) (by decide +kernel)
      rw [e]
      rw [show 0 + (wideSymbols0.flatMap fun o => treeWord o.2).length = 96 by decide +kernel, ← wide_symbols (q := wideCoefficients 0) (l := wideHF0) (out := wideSymbols0) (by decide) (by decide +kernel)] at h10
      exact h10
    · refine ⟨0, d9 4, ?_⟩
      have e : ((wideCoded (ES.mk' ((treeCodes 1).map.map Int.ofNat) ds' none) (ES.mk' ((treeCodes 7425).map.map Int.ofNat) dc none)).groupBlocks wideFrame 1).map
        ((wideCoded (ES.mk' ((treeCodes 1).map.map Int.ofNat) ds' none) (ES.mk' ((treeCodes 7425).map.map Int.ofNat) dc none)).hfBlock wideFrame 1) = wideHF1 := rfl
      have h10 := treeNumbers (wideSection 4) 0 7425 dc h9 0 wideSymbols1 (by decide) (by decide) (by decide) (by decide +kernel) (by decide +kernel)
      rw [e]
      rw [show 0 + (wideSymbols1.flatMap fun o => treeWord o.2).length = 9 by decide +kernel, ← wide_symbols (q := wideCoefficients 1) (l := wideHF1) (out := wideSymbols1) (by decide) (by decide +kernel)] at h10
      exact h10

theorem wide_ok (tree codes : ES) : (wideCoded tree codes).Ok wideFrame where
  blocks := by
    intro i hi
    obtain rfl : i = 0 := by
      have : i < 1 := hi
      omega
    show Tiled 1 33 (rowBlocks 33) ∧ ∀ b ∈ rowBlocks 33, b.type ≠ 3
    refine ⟨⟨row_laid 33 (Nat.le_refl _), ?_, ?_, ?_, ?_⟩, ?_⟩
    · intro y x hy hx
      exact ⟨_, rowBlocks_mem hx, row_covers.2 ⟨by omega, rfl⟩⟩
    · intro b hb
      rw [(mem_rowBlocks hb).1]
      exact ⟨Int.le_refl 1, by show (1 : Int) ≤ 2147483647; decide⟩
    · intro b hb
      rw [(mem_rowBlocks hb).1, row_rows, row_cols]
      dsimp only
      omega
    · intro b hb
      rw [(mem_rowBlocks hb).1, row_rows, row_cols]
      dsimp only
      omega
    · intro b hb
      rw [(mem_rowBlocks hb).1]
      show 0 ≠ 3
      decide
  quantizer := (tiny_ok tree codes).quantizer
  corr := (tiny_ok tree codes).corr
  presets := ⟨(tiny_ok tree codes).presets.1, (tiny_ok tree codes).presets.2.1, fun g _ => by show 0 < 1; decide⟩
  range := by
    intro g c y x
    show -2 ^ 30 ≤ wideCoefficients g c y x ∧ wideCoefficients g c y x < 2 ^ 30
    unfold wideCoefficients
    split <;> decide
  sharpness := fun h => absurd h (by decide)
  support := by
    intro g c y x hg _ hq
    have hq : wideCoefficients g c y x ≠ 0 := hq
    unfold wideCoefficients at hq
    split at hq
    · next h =>
      obtain ⟨rfl, -, rfl, h1, h2⟩ := h
      refine ⟨⟨0, 1, 0, 32⟩, List.mem_cons_self, 0, x, rfl, ?_, by decide, ?_, ?_⟩
      · show x = 8 * (32 - 32 * 1) + x
        omega
      · show x < 8 * 1
        omega
      · show ¬(0 < 1 ∧ x < 1)
        omega
    · exact absurd rfl hq

/-- The hypotheses of `C90_frame_partial` are met by the example. -/
theorem wide_decodes (P : FrameParts) (I : FloatImpl) : ∃ F weights out s', decodeFrame (P.withVarDCT inferInstance zeroParts I []) I tinyImage wideFrame ⟨2, 1, 2, 1⟩ ⟨none, [14, 29, 6, 12, 2]⟩ (BR.new wideData) = (.ok out, s') ∧
    ShowsVarDCT F tinyImage wideFrame (fun _ _ _ => .fin 0) (fun _ _ => .fin 0) zeroParts weights out ∧ F.blocks 0 = rowBlocks 33 ∧ AtBit s' (8 * 63) ∧ s'.data = wideData := by
  obtain ⟨tree, codes, h⟩ := wide_at
  obtain ⟨weights, hw⟩ := flat_weights
  have hsec : ∀ i : Fin 5, wideSection i = storedSection (wideData.drop 0) [14, 29, 6, 12, 2] i ++ [0, 0, 0, 0] := by decide
  have h' : VarDCTAt tinyImage (wideCoded tree codes) wideFrame (fun i => storedSection (wideData.drop 0) [14, 29, 6, 12, 2] i ++ [0, 0, 0, 0]) (fun _ => 0) wideStop := by
    refine ⟨?_, h.channels, h.range, ?_, ?_, ?_⟩
    · have := h.global
      rwa [show wideSection (0) = _ from hsec 0] at this
    · intro i hi
      obtain rfl : i = 0 := by
        have : i < 1 := hi
        omega
      have := h.lf 0 hi
      rwa [show wideSection (1 + 0) = _ from hsec 1] at this
    · have := h.hf
      rwa [show wideSection (1 + varLFGroups wideFrame) = _ from hsec 2] at this
    · intro g hg
      have hg2 : g < 2 := hg
      have := h.groups g hg
      rcases (by omega : g = 0 ∨ g = 1) with rfl | rfl
      · rwa [show wideSection (2 + varLFGroups wideFrame + 0) = _ from hsec 3] at this
      · rwa [show wideSection (2 + varLFGroups wideFrame + 1) = _ from hsec 4] at this
  obtain ⟨out, s', h1, h2, h3, h4⟩ := C90_frame_partial inferInstance zeroParts P I [] wideFrame_plain (by decide) zeroParts_ok (wide_ok tree codes) hw (l := ⟨2, 1, 2, 1⟩) (toc := ⟨none, [14, 29, 6, 12, 2]⟩) rfl
    (by decide) (data := wideData) (k := 0) (by decide) (by decide) h' (AtBit.new _) rfl
  exact ⟨_, weights, out, s', h1, h2, rfl, h3, h4⟩

end Jxl
