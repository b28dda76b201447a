import Verif.Spec.Coefficients
import Verif.Spec.Blocks

/-!
# Specification: the symbols of the coefficients of a group (C76)

What an encoder emits for the coefficients `q channel row column` of a group: for every block, first the symbols of the second channel, then those of the first and the third one.
-/
namespace Jxl.Spec

/-- The class of the position `k` in the order of an 8×8 block. -/
def freqClass (k : Nat) : Nat := if k < 16 then k - 1 else if k < 32 then 7 + k / 2 else 15 + k / 4

/-- The first context for `n` coefficients that are still to come. -/
def countClass (n : Nat) : Nat :=
  if n ≤ 1 then 0 else if n ≤ 2 then 31 else if n ≤ 4 then 62 else if n ≤ 8 then 93 else if n ≤ 12 then 123 else if n ≤ 20 then 152 else if n ≤ 32 then 180 else 206

/-- Numbers with a sign as symbols: 0, -1, 1, -2, 2, … -/
def packed (v : Int) : Nat := if 0 ≤ v then (2 * v).toNat else (-2 * v - 1).toNat

/-- The block context of channel `c` of a block: the entry of the table for the channel, the class of the block, the interval of its multiplier and the interval of its low frequencies. -/
def blockContext (hf : HFBlockContext) (c : Nat) (b : HFBlock) : Nat :=
  (hf.clusterMap.getD ((((if c = 0 then 1 else if c = 1 then 0 else 2) * 13 + b.tt.orderID.toNat) * (hf.qfThresholds.length + 1) + (hf.qfThresholds.filter (fun t => t < b.hfMult)).length) *
    hf.numLFContexts.toNat + b.lfIndex.toNat) 0).toNat

/-- The context of the number of coefficients, when `predicted` are predicted and there are `n` block contexts. -/
def countContext (n ctx predicted : Nat) : Nat := ctx + n * (if predicted < 8 then predicted else 4 + min predicted 64 / 2)

/-- The context of the coefficient `k` of a block of `B` 8×8 squares with `left` coefficients still to come. `prev`: is the coefficient before it non-zero? -/
def valueContext (n ctx B k left : Nat) (prev : Bool) : Nat := 37 * n + 458 * ctx + (2 * (countClass ((left + B - 1) / B) + freqClass (k / B)) + if prev then 1 else 0)

/-- The symbols of the coefficients `k`, `k + 1`, … of a block, with their contexts. Nothing is coded after the last one that is not zero. -/
def valueSymbols (n ctx B : Nat) : Nat → Nat → Bool → List Int → List (Nat × Nat)
  | _, _, _, [] => []
  | k, left, prev, v :: vs =>
    if left = 0 then []
    else (valueContext n ctx B k left prev, packed v) :: valueSymbols n ctx B (k + 1) (if v = 0 then left else left - 1) (decide (v ≠ 0)) vs

/-- How many numbers are not zero. -/
def nonzeros (vs : List Int) : Nat := vs.countP (fun v => v ≠ 0)

/-- The symbols of the coefficients `vs` of a block. -/
def blockSymbols (n ctx B predicted : Nat) (vs : List Int) : List (Nat × Nat) :=
  (countContext n ctx predicted, nonzeros vs) :: valueSymbols n ctx B B (nonzeros vs) (decide (nonzeros vs ≤ 64 * B / 16)) vs

/-- The number predicted for a place from those above and to the left. -/
def countPrediction (count : Nat → Nat → Nat) : Nat → Nat → Nat
  | 0, 0 => 32
  | y + 1, 0 => count y 0
  | 0, x + 1 => count 0 x
  | y + 1, x + 1 => (count y (x + 1) + count (y + 1) x + 1) / 2

/-- The number of 8×8 squares of a block. -/
def squares (tt : TransformType) : Nat := (tt.dctHeight * tt.dctWidth).toNat

/-- The places of the coded coefficients of a block, relative to its corner; `order` begins with the low frequencies. -/
def blockPlaces (tt : TransformType) (order : List Point) : List Point := (order.drop (squares tt)).map fun p => if tt.flip then ⟨p.x, p.y⟩ else p

/-- The block begins at a sample of a channel with the subsampling `uy`, `ux`. -/
def OnGrid (b : HFBlock) (uy ux : Nat) : Prop := b.groupY.toNat % 2 ^ uy = 0 ∧ b.groupX.toNat % 2 ^ ux = 0

instance (b : HFBlock) (uy ux : Nat) : Decidable (OnGrid b uy ux) := inferInstanceAs (Decidable (_ ∧ _))

/-- The coded coefficients of channel `c` of a block, in their order. -/
def channelValues (orders : List (List (List Point))) (uy ux : Nat → Nat) (q : Nat → Nat → Nat → Int) (b : HFBlock) (c : Nat) : List Int :=
  (blockPlaces b.tt ((orders.getD b.tt.orderID.toNat []).getD c [])).map fun p =>
    q c (8 * (b.groupY.toNat / 2 ^ uy c) + p.y.toNat) (8 * (b.groupX.toNat / 2 ^ ux c) + p.x.toNat)

/-- The symbols of channel `c` of a block, if the channel has the block. -/
def channelSymbols (hf : HFBlockContext) (orders : List (List (List Point))) (uy ux : Nat → Nat) (q : Nat → Nat → Nat → Int) (b : HFBlock) (c : Nat) (counts : Nat → Nat → Nat → Nat) :
    List (Nat × Nat) :=
  if OnGrid b (uy c) (ux c) then
    blockSymbols hf.numClusters.toNat (blockContext hf c b) (squares b.tt) (countPrediction (counts c) (b.groupY.toNat / 2 ^ uy c) (b.groupX.toNat / 2 ^ ux c)) (channelValues orders uy ux q b c)
  else []

/-- The numbers noted for the places of channel `c` after a block: the mean over its squares, rounded up. -/
def countsAfter (orders : List (List (List Point))) (uy ux : Nat → Nat) (q : Nat → Nat → Nat → Int) (b : HFBlock) (c : Nat) (counts : Nat → Nat → Nat → Nat) : Nat → Nat → Nat → Nat :=
  if OnGrid b (uy c) (ux c) then fun c' y x =>
    if c' = c ∧ (b.groupY.toNat / 2 ^ uy c ≤ y ∧ y < b.groupY.toNat / 2 ^ uy c + b.tt.dctHeight.toNat) ∧ (b.groupX.toNat / 2 ^ ux c ≤ x ∧ x < b.groupX.toNat / 2 ^ ux c + b.tt.dctWidth.toNat)
    then (nonzeros (channelValues orders uy ux q b c) + squares b.tt - 1) / squares b.tt else counts c' y x
  else counts

/-- The symbols of the blocks of a group. `counts c y x` is the number noted for a place of channel `c`. -/
def groupSymbols (hf : HFBlockContext) (orders : List (List (List Point))) (uy ux : Nat → Nat) (q : Nat → Nat → Nat → Int) : List HFBlock → (Nat → Nat → Nat → Nat) → List (Nat × Nat)
  | [], _ => []
  | b :: bs, n =>
    let n1 := countsAfter orders uy ux q b 1 n
    let n2 := countsAfter orders uy ux q b 0 n1
    let n3 := countsAfter orders uy ux q b 2 n2
    channelSymbols hf orders uy ux q b 1 n ++ (channelSymbols hf orders uy ux q b 0 n1 ++ (channelSymbols hf orders uy ux q b 2 n2 ++ groupSymbols hf orders uy ux q bs n3))

/-- A source of symbols delivers these symbols when it is asked for them in these contexts. -/
def Delivers {σ : Type} (read : σ → Int → Rd (Int × σ)) (offset : Nat) : List (Nat × Nat) → σ → BR → σ → BR → Prop
  | [], st, s, st', s' => st' = st ∧ s' = s
  | t :: ts, st, s, st', s' => ∃ st1 s1, read st ((offset + t.1 : Nat) : Int) s = (.ok ((t.2 : Int), st1), s1) ∧ Delivers read offset ts st1 s1 st' s'

/-- A coefficient of high frequency of channel `c` of a block: row `y` and column `x` of the channel. -/
def CoversPlace (uy ux : Nat → Nat) (b : HFBlock) (c y x : Nat) : Prop :=
  OnGrid b (uy c) (ux c) ∧ ∃ dy dx : Nat, y = 8 * (b.groupY.toNat / 2 ^ uy c) + dy ∧ x = 8 * (b.groupX.toNat / 2 ^ ux c) + dx ∧ dy < 8 * b.tt.dctHeight.toNat ∧ dx < 8 * b.tt.dctWidth.toNat ∧
    ¬(dy < b.tt.dctHeight.toNat ∧ dx < b.tt.dctWidth.toNat)

/-- The block lies inside of the group, in all channels that have it; `height c`, `width c` are the dimensions of the channel. -/
def FitsGroup (uy ux height width : Nat → Nat) (b : HFBlock) : Prop :=
  0 ≤ b.groupY ∧ 0 ≤ b.groupX ∧ ∀ c, c < 3 → OnGrid b (uy c) (ux c) →
    b.groupY.toNat / 2 ^ uy c + b.tt.dctHeight.toNat ≤ 32 ∧ b.groupX.toNat / 2 ^ ux c + b.tt.dctWidth.toNat ≤ 32 ∧
    8 * (b.groupY.toNat / 2 ^ uy c + b.tt.dctHeight.toNat) ≤ height c ∧ 8 * (b.groupX.toNat / 2 ^ ux c + b.tt.dctWidth.toNat) ≤ width c

end Jxl.Spec
