import Verif.Spec.Modular

/-!
# Specification: the self-correcting (weighted) predictor

In unbounded integers, as the format defines it: four sub-predictions with three fractional bits, each weighted by how
well it did on the neighbouring samples, and the bookkeeping after a sample is known.
-/
namespace Jxl

/-- Neighbours in a plane of errors; outside the image they count as 0. -/
def Img.eN (i : Img) (x y : Nat) : Int := if 0 < y then i (y - 1) x else 0
def Img.eW (i : Img) (x y : Nat) : Int := if 0 < x then i y (x - 1) else 0
def Img.eWW (i : Img) (x y : Nat) : Int := if 1 < x then i y (x - 2) else 0
def Img.eNW (i : Img) (x y : Nat) : Int := if 0 < x ∧ 0 < y then i (y - 1) (x - 1) else i.eN x y
def Img.eNE (i : Img) (w x y : Nat) : Int := if x + 1 < w ∧ 0 < y then i (y - 1) (x + 1) else i.eN x y

/-- The error of a sub-predictor around a sample; in the last column the west error counts twice. -/
def Img.errSum (i : Img) (w x y : Nat) : Int :=
  i.eN x y + i.eW x y + i.eNW x y + i.eWW x y + i.eNE w x y + (if x + 1 = w then i.eW x y else 0)

/-- `⌊2^24 / (n + 1)⌋` -/
def recip24 (n : Int) : Int := 16777216 / (n + 1)

/-- The weight of a sub-predictor with maximal weight `mw` and error `e`: about `mw · 2^24 / e`, at least 4. -/
def wpWeight (mw e : Int) : Int :=
  let sh := Nat.log2 (e.toNat + 1) - 5
  4 + mw * recip24 (e / 2 ^ sh) / 2 ^ sh

/-- The four sub-predictions of the sample. `t` is the plane of true errors. -/
def Img.wpSubs (i t : Img) (p : WPParams) (w x y : Nat) : List Int :=
  let N := 8 * i.N x y
  let W := 8 * i.W x y
  let NE := 8 * i.NE w x y
  let NW := 8 * i.NW x y
  let NN := 8 * i.NN x y
  let tN := t.eN x y
  let tW := t.eW x y
  let tNE := t.eNE w x y
  let tNW := t.eNW x y
  [W + NE - N,
   N - (tW + tN + tNE) * p.param1 / 32,
   W - (tW + tN + tNW) * p.param2 / 32,
   N - (tNW * p.param3a + tN * p.param3b + tNE * p.param3c + (NN - N) * p.param3d + (NW - W) * p.param3e) / 32]

/-- The weighted average: the weights are scaled to a sum between 13 and 31. -/
def wpAverage (subs ws : List Int) : Int :=
  let ws' := ws.map (· / 2 ^ (Nat.log2 ws.sum.toNat - 4))
  let dot := (List.zipWith (· * ·) subs ws').sum
  (dot + (ws'.sum / 2 - 1)) * recip24 (ws'.sum - 1) / 16777216

/-- Three errors of the same strict sense: all negative or all non-negative, and not all equal. -/
def sameSense (a b c : Int) : Bool :=
  ((decide (a < 0) && decide (b < 0) && decide (c < 0)) || (decide (0 ≤ a) && decide (0 ≤ b) && decide (0 ≤ c))) && !(a == b && a == c)

/-- The weighted prediction (three fractional bits): the average, limited to the range of W, N and NE unless all errors
around point the same way. `e k` are the planes of the errors of the sub-predictors. -/
def Img.wpPredict (i t : Img) (e : Nat → Img) (p : WPParams) (w x y : Nat) : Int :=
  let avg := wpAverage (i.wpSubs t p w x y)
    ((List.range 4).map (fun k => wpWeight (p.weight.getD k 0) ((e k).errSum w x y)))
  let lo := min (8 * i.W x y) (min (8 * i.N x y) (8 * i.NE w x y))
  let hi := max (8 * i.W x y) (max (8 * i.N x y) (8 * i.NE w x y))
  if sameSense (t.eN x y) (t.eW x y) (t.eNW x y) then avg else max lo (min avg hi)

/-- Of the true errors around the sample one of largest magnitude. -/
def Img.IsMaxError (t : Img) (w x y : Nat) (m : Int) : Prop :=
  (m = t.eW x y ∨ m = t.eN x y ∨ m = t.eNW x y ∨ m = t.eNE w x y) ∧
    (t.eW x y).natAbs ≤ m.natAbs ∧ (t.eN x y).natAbs ≤ m.natAbs ∧ (t.eNW x y).natAbs ≤ m.natAbs ∧ (t.eNE w x y).natAbs ≤ m.natAbs

/-- The error recorded for a sub-prediction `s` of the value `v`. -/
def wpErr (s v : Int) : Int := ((s - 8 * v).natAbs + 3) / 8

/-- Parameters as they can be read. -/
structure WPParams.OK (p : WPParams) : Prop where
  p1 : 0 ≤ p.param1 ∧ p.param1 ≤ 31
  p2 : 0 ≤ p.param2 ∧ p.param2 ≤ 31
  p3a : 0 ≤ p.param3a ∧ p.param3a ≤ 31
  p3b : 0 ≤ p.param3b ∧ p.param3b ≤ 31
  p3c : 0 ≤ p.param3c ∧ p.param3c ≤ 31
  p3d : 0 ≤ p.param3d ∧ p.param3d ≤ 31
  p3e : 0 ≤ p.param3e ∧ p.param3e ≤ 31
  count : p.weight.length = 4
  weights : ∀ v ∈ p.weight, 0 ≤ v ∧ v ≤ 15

/-- Planes of the size of the channel. -/
structure WPPlanes.Shape (p : WPPlanes) (h w : Nat) : Prop where
  count : p.err.length = 5
  rows : ∀ pl ∈ p.err, pl.length = h ∧ ∀ r ∈ pl, r.length = w
  pred : p.pred.length = h ∧ ∀ r ∈ p.pred, r.length = w

/-- Plane `k` of the errors as a table. -/
def WPPlanes.plane (p : WPPlanes) (k : Nat) : Img := Img.ofRows (p.err.getD k [])

/-- The recorded errors of the four sub-predictors lie between 0 and `2^28`: what any 32-bit error leaves there. -/
def WPPlanes.Fine (p : WPPlanes) : Prop := ∀ k < 4, ∀ y x, 0 ≤ p.plane k y x ∧ p.plane k y x ≤ 2 ^ 28

/-- All values of a table have magnitude at most `m`. -/
def Img.Within (i : Img) (m : Int) : Prop := ∀ y x, -m ≤ i y x ∧ i y x ≤ m

end Jxl
