import Verif.Spec.Modular
import Verif.Proofs.Permutation
import Verif.Props.MATree
import Verif.Props.Util

/-!
# Decoding a channel: neighbours, predictors and properties of a partly decoded channel
-/
namespace Jxl

theorem i32_id {z : Int} (h1 : -2147483648 ≤ z) (h2 : z < 2147483648) : i32 z = z := by unfold i32; omega

theorem ofRows_eq {b : List (List Int)} {y x : Nat} {r : List Int} {v : Int} (h1 : b[y]? = some r) (h2 : r[x]? = some v) : Img.ofRows b y x = v := by
  simp [Img.ofRows, List.getD_eq_getElem?_getD, h1, h2]

/-- The buffer is `h` by `w` and its samples before row `y`, column `x` are those of the image. -/
structure Agree (h w : Nat) (b : List (List Int)) (i : Img) (y x : Nat) : Prop where
  rows : b.length = h
  cols : ∀ r ∈ b, r.length = w
  eq : ∀ j k, (j < y ∨ (j = y ∧ k < x)) → k < w → j < h → Img.ofRows b j k = i j k

theorem at2_ofRows {h w : Nat} {b : List (List Int)} (hr : b.length = h) (hc : ∀ r ∈ b, r.length = w) {j k : Nat} (hj : j < h) (hk : k < w) :
    at2 b (j : Int) (k : Int) = .ok (Img.ofRows b j k) := by
  obtain ⟨r, hr'⟩ : ∃ r, b[j]? = some r := ⟨b[j]'(by omega), by simp⟩
  have hl := hc r (List.mem_of_getElem? hr')
  obtain ⟨v, hv⟩ : ∃ v, r[k]? = some v := ⟨r[k]'(by omega), by simp⟩
  rw [at2, idx_of_getElem? _ _ _ hr', Res.bind_ok, idx_of_getElem? _ _ _ hv, ofRows_eq hr' hv]

theorem Agree.at {h w : Nat} {b : List (List Int)} {i : Img} {y x : Nat} (hA : Agree h w b i y x) (hy : y < h) (j' k' : Int) (j k : Nat)
    (ej : j' = j) (ek : k' = k) (hlt : j < y ∨ (j = y ∧ k < x)) (hk : k < w) : at2 b j' k' = .ok (i j k) := by
  subst ej ek
  rw [at2_ofRows hA.rows hA.cols (by omega) hk, hA.eq j k hlt hk (by omega)]

section
variable {h w : Nat} {b : List (List Int)} {i : Img} {y x : Nat} (hA : Agree h w b i y x) (hy : y < h) (hx : x < w)
include hA hy hx

theorem Agree.west : west b (x : Int) (y : Int) = .ok (i.W x y) := by
  unfold Jxl.west Img.W
  by_cases h0 : 0 < x
  · rw [if_pos (by omega), if_pos h0]; exact hA.at hy _ _ _ _ rfl (by omega) (by omega) (by omega)
  · rw [if_neg (by omega), if_neg h0]
    by_cases h1 : 0 < y
    · rw [if_pos (by omega), if_pos h1]; exact hA.at hy _ _ _ _ (by omega) rfl (by omega) (by omega)
    · rw [if_neg (by omega), if_neg h1]

theorem Agree.north : north b (x : Int) (y : Int) = .ok (i.N x y) := by
  unfold Jxl.north Img.N Img.W
  by_cases h1 : 0 < y
  · rw [if_pos (by omega), if_pos h1]; exact hA.at hy _ _ _ _ (by omega) rfl (by omega) (by omega)
  · rw [if_neg (by omega), if_neg h1]
    by_cases h0 : 0 < x
    · rw [if_pos (by omega), if_pos h0]; exact hA.at hy _ _ _ _ rfl (by omega) (by omega) (by omega)
    · rw [if_neg (by omega), if_neg h0, if_neg h1]

theorem Agree.northWest : northWest b (x : Int) (y : Int) = .ok (i.NW x y) := by
  unfold Jxl.northWest Img.NW Img.W
  by_cases h0 : 0 < x
  · rw [if_neg (by omega), if_pos h0]
    by_cases h1 : 0 < y
    · rw [if_pos (by omega), if_pos ⟨h0, h1⟩]; exact hA.at hy _ _ _ _ (by omega) (by omega) (by omega) (by omega)
    · rw [if_neg (by omega), if_neg (by omega)]; exact hA.at hy _ _ _ _ rfl (by omega) (by omega) (by omega)
  · rw [if_pos (show (x : Int) ≤ 0 by omega), if_neg (show ¬(0 < x ∧ 0 < y) by omega), if_neg h0]
    by_cases h1 : 0 < y
    · rw [if_pos (by omega), if_pos h1]; exact hA.at hy _ _ _ _ (by omega) rfl (by omega) (by omega)
    · rw [if_neg (by omega), if_neg h1]

theorem Agree.northEast : northEast (w : Int) b (x : Int) (y : Int) = .ok (i.NE w x y) := by
  unfold Jxl.northEast Img.NE
  by_cases h1 : x + 1 < w ∧ 0 < y
  · rw [if_pos (by omega), if_pos h1]; exact hA.at hy _ _ _ _ (by omega) (by omega) (by omega) (by omega)
  · rw [if_neg (by omega), if_neg h1]; exact hA.north hy hx

theorem Agree.northNorth : northNorth b (x : Int) (y : Int) = .ok (i.NN x y) := by
  unfold Jxl.northNorth Img.NN
  by_cases h1 : 1 < y
  · rw [if_pos (by omega), if_pos h1]; exact hA.at hy _ _ _ _ (by omega) rfl (by omega) (by omega)
  · rw [if_neg (by omega), if_neg h1]; exact hA.north hy hx

theorem Agree.northEastEast : northEastEast (w : Int) b (x : Int) (y : Int) = .ok (i.NEE w x y) := by
  unfold Jxl.northEastEast Img.NEE
  by_cases h1 : x + 2 < w ∧ 0 < y
  · rw [if_pos (by omega), if_pos h1]; exact hA.at hy _ _ _ _ (by omega) (by omega) (by omega) (by omega)
  · rw [if_neg (by omega), if_neg h1]; exact hA.northEast hy hx

theorem Agree.westWest : westWest b (x : Int) (y : Int) = .ok (i.WW x y) := by
  unfold Jxl.westWest Img.WW
  by_cases h1 : 1 < x
  · rw [if_pos (by omega), if_pos h1]; exact hA.at hy _ _ _ _ rfl (by omega) (by omega) (by omega)
  · rw [if_neg (by omega), if_neg h1]; exact hA.west hy hx

end

/-- A buffer agrees with its own samples. -/
theorem Agree.self {h w : Nat} {b : List (List Int)} (h1 : b.length = h) (h2 : ∀ r ∈ b, r.length = w) (y x : Nat) : Agree h w b (Img.ofRows b) y x :=
  ⟨h1, h2, fun _ _ _ _ _ => rfl⟩

theorem Agree.mono {h w : Nat} {b : List (List Int)} {i : Img} {y x x' : Nat} (hA : Agree h w b i y x) (hx : x' ≤ x) : Agree h w b i y x' :=
  ⟨hA.rows, hA.cols, fun j k hjk hk hj => hA.eq j k (by omega) hk hj⟩

/-- All samples are at most 2^26 in magnitude. -/
def Img.Bounded (i : Img) : Prop := ∀ y x, -67108864 ≤ i y x ∧ i y x ≤ 67108864

theorem Small.bounded {b : List (List Int)} (h : Small b) : (Img.ofRows b).Bounded := by
  intro y x
  simp only [Img.ofRows, List.getD_eq_getElem?_getD]
  cases hr : b[y]? with
  | none => simp
  | some r =>
    simp only [Option.getD_some]
    cases hv : r[x]? with
    | none => simp
    | some v =>
      have := h r (List.mem_of_getElem? hr) v (List.mem_of_getElem? hv)
      simpa using this

section
variable {i : Img} (hb : i.Bounded) (x y w : Nat)
include hb
theorem Img.Bounded.W : -67108864 ≤ i.W x y ∧ i.W x y ≤ 67108864 := by
  unfold Img.W; split
  · exact hb _ _
  · split
    · exact hb _ _
    · omega
theorem Img.Bounded.N : -67108864 ≤ i.N x y ∧ i.N x y ≤ 67108864 := by
  unfold Img.N; split
  · exact hb _ _
  · exact hb.W x y
theorem Img.Bounded.NW : -67108864 ≤ i.NW x y ∧ i.NW x y ≤ 67108864 := by
  unfold Img.NW; split
  · exact hb _ _
  · exact hb.W x y
theorem Img.Bounded.NE : -67108864 ≤ i.NE w x y ∧ i.NE w x y ≤ 67108864 := by
  unfold Img.NE; split
  · exact hb _ _
  · exact hb.N x y
theorem Img.Bounded.NN : -67108864 ≤ i.NN x y ∧ i.NN x y ≤ 67108864 := by
  unfold Img.NN; split
  · exact hb _ _
  · exact hb.N x y
theorem Img.Bounded.WW : -67108864 ≤ i.WW x y ∧ i.WW x y ≤ 67108864 := by
  unfold Img.WW; split
  · exact hb _ _
  · exact hb.W x y
theorem Img.Bounded.NEE : -67108864 ≤ i.NEE w x y ∧ i.NEE w x y ≤ 67108864 := by
  unfold Img.NEE; split
  · exact hb _ _
  · exact hb.NE x y w
end

theorem toInt_ofInt32 {z : Int} (h1 : -2147483648 ≤ z) (h2 : z < 2147483648) : (BitVec.ofInt 32 z).toInt = z := by
  rw [BitVec.toInt_ofInt]
  simp only [Int.bmod_def]
  omega

theorem clamp3Int_eq {v a b : Int} (hv : -2147483648 ≤ v ∧ v < 2147483648) (ha : -2147483648 ≤ a ∧ a < 2147483648)
    (hb : -2147483648 ≤ b ∧ b < 2147483648) : clamp3Int v a b = limit v a b := by
  unfold clamp3Int limit
  rw [C41_clamp3, toInt_ofInt32 hv.1 hv.2, toInt_ofInt32 ha.1 ha.2, toInt_ofInt32 hb.1 hb.2]

theorem limit_comm (v a b : Int) : limit v a b = limit v b a := by unfold limit; omega

theorem abs32_eq {z : Int} (h1 : -2147483648 < z) (h2 : z < 2147483648) : abs32 z = z.natAbs := by
  unfold abs32
  split
  · rw [i32_id (by omega) (by omega)]; omega
  · omega

/-- The predictors of the code are those of the format. -/
theorem Agree.prediction {h w : Nat} {b : List (List Int)} {i : Img} {y x : Nat} (hA : Agree h w b i y x) (hy : y < h) (hx : x < w)
    (hb : i.Bounded) (pred : List (List Int)) (wp : Int) (k : Int) (h0 : 0 ≤ k) (h13 : k ≤ 13)
    (h6 : k = 6 → at2 pred (y : Int) (x : Int) = .ok wp ∧ -2147483648 ≤ wp ∧ wp < 2147483645) :
    prediction (w : Int) b pred (y : Int) (x : Int) k = .ok (i.predict w wp x y k.toNat) := by
  have hW := hA.west hy hx
  have hN := hA.north hy hx
  have hNW := hA.northWest hy hx
  have hNE := hA.northEast hy hx
  have hNN := hA.northNorth hy hx
  have hWW := hA.westWest hy hx
  have hNEE := hA.northEastEast hy hx
  have bW := hb.W x y
  have bN := hb.N x y
  have bNW := hb.NW x y
  have bNE := hb.NE x y w
  have bNN := hb.NN x y
  have bWW := hb.WW x y
  have bNEE := hb.NEE x y w
  obtain ⟨n, rfl⟩ := Int.eq_ofNat_of_zero_le h0
  have hn : n = 0 ∨ n = 1 ∨ n = 2 ∨ n = 3 ∨ n = 4 ∨ n = 5 ∨ n = 6 ∨ n = 7 ∨ n = 8 ∨ n = 9 ∨ n = 10 ∨ n = 11 ∨ n = 12 ∨ n = 13 := by omega
  rcases hn with rfl | rfl | rfl | rfl | rfl | rfl | rfl | rfl | rfl | rfl | rfl | rfl | rfl | rfl
  · simp [Jxl.prediction, Img.predict]
  · simp [Jxl.prediction, Img.predict, hW]
  · simp [Jxl.prediction, Img.predict, hN]
  · simp [Jxl.prediction, Img.predict, hW, hN]; rw [i32_id (by omega) (by omega)]
  · have e1 : abs32 (i32 (i.N x y - i.NW x y)) = ((i.N x y - i.NW x y).natAbs : Int) := by
      rw [i32_id (by omega) (by omega), abs32_eq (by omega) (by omega)]
    have e2 : abs32 (i32 (i.W x y - i.NW x y)) = ((i.W x y - i.NW x y).natAbs : Int) := by
      rw [i32_id (by omega) (by omega), abs32_eq (by omega) (by omega)]
    simp [Jxl.prediction, Img.predict, hW, hN, hNW, e1, e2]
    by_cases hc : (i.N x y - i.NW x y).natAbs < (i.W x y - i.NW x y).natAbs
    · rw [if_pos (by omega), if_pos (by omega)]
    · rw [if_neg (by omega), if_neg (by omega)]
  · simp [Jxl.prediction, Img.predict, hW, hN, hNW]
    rw [i32_id (by omega) (by omega), clamp3Int_eq (by omega) (by omega) (by omega), limit_comm]
  · obtain ⟨h1, h2, h3⟩ := h6 rfl
    simp [Jxl.prediction, Img.predict, h1, sar]; rw [i32_id (by omega) (by omega)]
  · simp [Jxl.prediction, Img.predict, hNE]
  · simp [Jxl.prediction, Img.predict, hNW]
  · simp [Jxl.prediction, Img.predict, hWW]
  · simp [Jxl.prediction, Img.predict, hW, hNW]; rw [i32_id (by omega) (by omega)]
  · simp [Jxl.prediction, Img.predict, hN, hNW]; rw [i32_id (by omega) (by omega)]
  · simp [Jxl.prediction, Img.predict, hN, hNE]; rw [i32_id (by omega) (by omega)]
  · simp [Jxl.prediction, Img.predict, hW, hN, hNW, hNE, hNN, hWW, hNEE]; rw [i32_id (by omega) (by omega)]

theorem Rect.shape {h w : Nat} {b : List (List Int)} (hR : Rect h w b) (hh : 0 < h) (hw : 0 < w) : b.length = h ∧ ∀ r ∈ b, r.length = w := by
  unfold Rect at hR
  rwa [if_neg (by omega)] at hR

theorem gradientDiff_eq {h w : Nat} {b : List (List Int)} (h1 : b.length = h) (h2 : ∀ r ∈ b, r.length = w) (hb : (Img.ofRows b).Bounded) {y x : Nat}
    (hy : y < h) (hx : x < w) : refGradient b (Img.ofRows b y x) (x : Int) (y : Int) = .ok ((Img.ofRows b).gradientDiff x y) ∧
      -268435456 ≤ (Img.ofRows b).gradientDiff x y ∧ (Img.ofRows b).gradientDiff x y ≤ 268435456 := by
  have hat : ∀ (j' k' : Int) (j k : Nat), j' = j → k' = k → j < h → k < w → at2 b j' k' = .ok (Img.ofRows b j k) := by
    intro j' k' j k e1 e2 hj hk
    subst e1 e2
    exact at2_ofRows h1 h2 hj hk
  unfold refGradient Img.gradientDiff
  generalize hi : Img.ofRows b = i at hb hat ⊢
  obtain ⟨W, hWd⟩ : ∃ W, W = (if 0 < x then i y (x - 1) else 0 : Int) := ⟨_, rfl⟩
  obtain ⟨N, hNd⟩ : ∃ N, N = (if 0 < y then i (y - 1) x else W : Int) := ⟨_, rfl⟩
  obtain ⟨NW, hNWd⟩ : ∃ NW, NW = (if 0 < x ∧ 0 < y then i (y - 1) (x - 1) else W : Int) := ⟨_, rfl⟩
  have eW : refWest b (x : Int) (y : Int) = .ok W := by
    rw [hWd, refWest]
    by_cases h0 : 0 < x
    · rw [if_pos (by omega), if_pos h0]; exact hat _ _ _ _ rfl (by omega) (by omega) (by omega)
    · rw [if_neg (by omega), if_neg h0]
  have eN : refNorth b W (x : Int) (y : Int) = .ok N := by
    rw [hNd, refNorth]
    by_cases h0 : 0 < y
    · rw [if_pos (by omega), if_pos h0]; exact hat _ _ _ _ (by omega) rfl (by omega) (by omega)
    · rw [if_neg (by omega), if_neg h0]
  have eNW : refNorthWest b W (x : Int) (y : Int) = .ok NW := by
    rw [hNWd, refNorthWest]
    by_cases h0 : 0 < x ∧ 0 < y
    · rw [if_pos (by omega), if_pos h0]; exact hat _ _ _ _ (by omega) (by omega) (by omega) (by omega)
    · rw [if_neg (by omega), if_neg h0]
  have bC := hb y x
  have bW : -67108864 ≤ W ∧ W ≤ 67108864 := by rw [hWd]; split; exact hb _ _; omega
  have bN : -67108864 ≤ N ∧ N ≤ 67108864 := by rw [hNd]; split; exact hb _ _; exact bW
  have bNW : -67108864 ≤ NW ∧ NW ≤ 67108864 := by rw [hNWd]; split; exact hb _ _; exact bW
  rw [eW, Res.bind_ok, eN, Res.bind_ok, eNW, Res.bind_ok]
  dsimp only
  rw [← hWd, ← hNd, ← hNWd, i32_id (z := W + N - NW) (by omega) (by omega), clamp3Int_eq (by omega) (by omega) (by omega)]
  have hl : -67108864 ≤ limit (W + N - NW) N W ∧ limit (W + N - NW) N W ≤ 67108864 := by unfold limit; omega
  rw [i32_id (by omega) (by omega)]
  exact ⟨rfl, by omega⟩

theorem refProperty_eq (c : Chan) (x y : Nat) (hx : x < c.width) (hy : y < c.height) : ∀ (chs : List Chan),
    (∀ d ∈ chs, Rect d.height d.width d.buffer ∧ Small d.buffer) → ∀ (q m : Nat), 
    refProperty c (x : Int) (y : Int) ((16 + 4 * q + m : Nat) : Int) ((16 + 4 * q : Nat) : Int) chs =
      .ok (match (chs.filter (sameShape c))[m / 4]? with
        | some d => (Img.ofRows d.buffer).refProp x y (m % 4)
        | none => 0)
  | [], _, q, m => by simp [refProperty]
  | d :: ds, hd, q, m => by
    have ih := refProperty_eq c x y hx hy ds (fun e he => hd e (List.mem_cons_of_mem _ he))
    rw [refProperty]
    by_cases hs : sameShape c d = true
    · have hs' : d.width = c.width ∧ d.height = c.height ∧ d.hshift = c.hshift ∧ d.vshift = c.vshift := by
        simp [sameShape] at hs; omega
      rw [if_neg (by omega), List.filter_cons_of_pos hs]
      by_cases hm : 4 ≤ m
      · rw [if_pos (by omega)]
        have := ih (q + 1) (m - 4)
        rw [show 16 + 4 * (q + 1) + (m - 4) = 16 + 4 * q + m by omega, show ((16 + 4 * (q + 1) : Nat) : Int) = ((16 + 4 * q : Nat) : Int) + 4 by omega] at this
        rw [this]
        rw [show m / 4 = (m - 4) / 4 + 1 by omega, List.getElem?_cons_succ, show (m - 4) % 4 = m % 4 by omega]
      · rw [if_neg (by omega)]
        obtain ⟨hR, hS⟩ := hd d List.mem_cons_self
        obtain ⟨h1, h2⟩ := hR.shape (by omega) (by omega)
        rw [at2_ofRows h1 h2 (by omega) (by omega), Res.bind_ok]
        rw [show m / 4 = 0 by omega, List.getElem?_cons_zero, show m % 4 = m by omega]
        dsimp only
        have hb := hS.bounded
        obtain ⟨g1, g2⟩ := gradientDiff_eq (y := y) (x := x) h1 h2 hb (by omega) (by omega)
        have bC := hb y x
        have hm' : m = 0 ∨ m = 1 ∨ m = 2 ∨ m = 3 := by omega
        rcases hm' with rfl | rfl | rfl | rfl
        · rw [if_pos (by omega), abs32_eq (by omega) (by omega)]; rfl
        · rw [if_neg (by omega), if_pos (by omega)]; rfl
        · rw [if_neg (by omega), if_neg (by omega), g1, Res.bind_ok, if_pos (by omega), abs32_eq (by omega) (by omega)]; rfl
        · rw [if_neg (by omega), if_neg (by omega), g1, Res.bind_ok, if_neg (by omega), if_pos (by omega)]; rfl
    · have hs' : ¬ (d.width = c.width ∧ d.height = c.height ∧ d.hshift = c.hshift ∧ d.vshift = c.vshift) := by
        simp [sameShape] at hs; omega
      rw [if_pos (by omega), List.filter_cons_of_neg hs]
      exact ih q m

/-- The properties of the code are those of the format. -/
theorem Agree.propValue {c : Chan} {prev : List Chan} {b : List (List Int)} {i : Img} {y x : Nat} (hA : Agree c.height c.width b i y x)
    (hy : y < c.height) (hx : x < c.width) (hb : i.Bounded) (hp : ∀ d ∈ prev, Rect d.height d.width d.buffer ∧ Small d.buffer)
    (ci si me : Int) (hci : ci = prev.length) (k : Int) (hk : 0 ≤ k) :
    propValue { c with buffer := b } prev ci si (x : Int) (y : Int) me k = .ok (i.prop c prev ci si me x y k.toNat) := by
  have hW := hA.west hy hx
  have hN := hA.north hy hx
  have hNW := hA.northWest hy hx
  have hNE := hA.northEast hy hx
  have hNN := hA.northNorth hy hx
  have hWW := hA.westWest hy hx
  have bW := hb.W x y
  have bN := hb.N x y
  have bNW := hb.NW x y
  have bNE := hb.NE x y c.width
  have bNN := hb.NN x y
  have bWW := hb.WW x y
  obtain ⟨n, rfl⟩ := Int.eq_ofNat_of_zero_le hk
  by_cases h16 : 16 ≤ n
  · obtain ⟨m, rfl⟩ : ∃ m, n = m + 16 := ⟨n - 16, by omega⟩
    have e : i.prop c prev ci si me x y ((m + 16 : Nat) : Int).toNat = (match (prev.filter (sameShape c))[m / 4]? with
        | some d => (Img.ofRows d.buffer).refProp x y (m % 4)
        | none => 0) := by
      rw [Int.toNat_natCast, Img.prop]
      rfl
    rw [e]
    unfold Jxl.propValue
    dsimp only
    iterate 16 rw [if_neg (by omega)]
    by_cases h4 : 4 * ci ≤ ((m + 16 : Nat) : Int) - 16
    · rw [if_pos h4]
      have : (prev.filter (sameShape c))[m / 4]? = none := by
        apply List.getElem?_eq_none
        have := List.length_filter_le (sameShape c) prev
        omega
      rw [this]
    · rw [if_neg h4]
      have := refProperty_eq { c with buffer := b } x y hx hy prev hp 0 m
      rw [show 16 + 4 * 0 + m = m + 16 by omega] at this
      exact this
  · have hn : n = 0 ∨ n = 1 ∨ n = 2 ∨ n = 3 ∨ n = 4 ∨ n = 5 ∨ n = 6 ∨ n = 7 ∨ n = 8 ∨ n = 9 ∨ n = 10 ∨ n = 11 ∨ n = 12 ∨ n = 13 ∨ n = 14 ∨ n = 15 := by omega
    rcases hn with rfl | rfl | rfl | rfl | rfl | rfl | rfl | rfl | rfl | rfl | rfl | rfl | rfl | rfl | rfl | rfl
    · simp [Jxl.propValue, Img.prop]
    · simp [Jxl.propValue, Img.prop]
    · simp [Jxl.propValue, Img.prop]
    · simp [Jxl.propValue, Img.prop]
    · simp only [Jxl.propValue, Img.prop, hN, Res.bind_ok, abs32_eq (show -2147483648 < i.N x y by omega) (show i.N x y < 2147483648 by omega)]
      rfl
    · simp only [Jxl.propValue, Img.prop, hW, Res.bind_ok, abs32_eq (show -2147483648 < i.W x y by omega) (show i.W x y < 2147483648 by omega)]
      rfl
    · simp [Jxl.propValue, Img.prop, hN]
    · simp [Jxl.propValue, Img.prop, hW]
    · simp [Jxl.propValue, Img.prop, hW]
      by_cases h0 : 0 < x
      · rw [if_pos h0, if_pos h0]
        have hA' := hA.mono (x' := x - 1) (by omega)
        have a1 := hA'.west hy (by omega)
        have a2 := hA'.north hy (by omega)
        have a3 := hA'.northWest hy (by omega)
        have b1 := hb.W (x - 1) y
        have b2 := hb.N (x - 1) y
        have b3 := hb.NW (x - 1) y
        rw [show ((x : Int) - 1) = ((x - 1 : Nat) : Int) by omega, a1, a2, a3, Res.bind_ok, Res.bind_ok, Res.bind_ok, i32_id (by omega) (by omega)]
      · rw [if_neg h0, if_neg h0]
    · simp [Jxl.propValue, Img.prop, hW, hN, hNW]; rw [i32_id (by omega) (by omega)]
    · simp [Jxl.propValue, Img.prop, hW, hNW]; rw [i32_id (by omega) (by omega)]
    · simp [Jxl.propValue, Img.prop, hN, hNW]; rw [i32_id (by omega) (by omega)]
    · simp [Jxl.propValue, Img.prop, hN, hNE]; rw [i32_id (by omega) (by omega)]
    · simp [Jxl.propValue, Img.prop, hN, hNN]; rw [i32_id (by omega) (by omega)]
    · simp [Jxl.propValue, Img.prop, hW, hWW]; rw [i32_id (by omega) (by omega)]
    · simp [Jxl.propValue, Img.prop]

theorem MATree.walk_eval (t : MATree) (f : Int → Res Int) (g : Nat → Int) (hu : t.Usable) (h : ∀ k : Int, 0 ≤ k → f k = .ok (g k.toNat)) :
    t.walk f = .ok (t.eval g) ∧ 0 ≤ (t.eval g).predictor ∧ (t.eval g).predictor ≤ 13 := by
  induction t with
  | leaf l => exact ⟨rfl, hu⟩
  | node p v a b iha ihb =>
    obtain ⟨h0, ha, hb⟩ := hu
    rw [MATree.walk, MATree.eval, h p h0, Res.bind_ok]
    split
    · exact iha ha
    · exact ihb hb

theorem set2_ok {h w : Nat} {b : List (List Int)} (hr : b.length = h) (hc : ∀ r ∈ b, r.length = w) {y x : Nat} (hy : y < h) (hx : x < w) (v : Int) :
    ∃ b', set2 b (y : Int) (x : Int) v = .ok b' ∧ b'.length = h ∧ (∀ r ∈ b', r.length = w) ∧
      ∀ j k, Img.ofRows b' j k = if j = y ∧ k = x then v else Img.ofRows b j k := by
  obtain ⟨r, hr'⟩ : ∃ r, b[y]? = some r := ⟨b[y]'(by omega), by simp⟩
  have hl := hc r (List.mem_of_getElem? hr')
  refine ⟨b.set y (r.set x v), ?_, ?_, ?_, ?_⟩
  · rw [set2, idx_of_getElem? _ _ _ hr', Res.bind_ok]
    simp only [setAt]
    rw [if_neg (by omega), if_pos (by omega), Res.bind_ok, if_neg (by omega), if_pos (by omega)]
    simp
  · simp [hr]
  · intro r' hr2
    rcases List.mem_or_eq_of_mem_set hr2 with h1 | h1
    · exact hc _ h1
    · rw [h1]; simp [hl]
  · intro j k
    simp only [Img.ofRows, List.getD_eq_getElem?_getD, List.getElem?_set]
    by_cases e : y = j
    · subst e
      rw [if_pos rfl, if_pos (by omega)]
      simp only [Option.getD_some, hr', true_and, List.getElem?_set]
      by_cases e2 : x = k
      · subst e2
        rw [if_pos rfl, if_pos (by omega), if_pos rfl]; rfl
      · rw [if_neg e2, if_neg (by omega)]
    · rw [if_neg e, if_neg (by omega)]

theorem Agree.set2 {h w : Nat} {b : List (List Int)} {i : Img} {y x : Nat} (hA : Agree h w b i y x) (hy : y < h) (hx : x < w) :
    ∃ b', Jxl.set2 b (y : Int) (x : Int) (i y x) = .ok b' ∧ Agree h w b' i y (x + 1) := by
  obtain ⟨b', h1, h2, h3, h4⟩ := set2_ok hA.rows hA.cols hy hx (i y x)
  refine ⟨b', h1, h2, h3, ?_⟩
  intro j k hjk hk hj
  rw [h4]
  split
  · rename_i e; rw [e.1, e.2]
  · exact hA.eq j k (by omega) hk hj

theorem Agree.nextRow {h w : Nat} {b : List (List Int)} {i : Img} {y : Nat} (hA : Agree h w b i y w) : Agree h w b i (y + 1) 0 :=
  ⟨hA.rows, hA.cols, fun j k hjk hk hj => hA.eq j k (by omega) hk hj⟩

/-- What is assumed about a channel and its surroundings. -/
structure EnvOK (env : ChanEnv) : Prop where
  index : env.channelIndex = env.prev.length
  prev : ∀ d ∈ env.prev, Rect d.height d.width d.buffer ∧ Small d.buffer

theorem unpack_pack (r : Int) (h1 : -1073741824 ≤ r) (h2 : r < 2147483648) : unpackSigned (packSigned r) = r ∧ packSigned r < 4294967296 := by
  unfold unpackSigned packSigned
  by_cases h0 : 0 ≤ r
  · simp only [h0, if_true]
    rw [if_pos (by omega)]
    have : (2 * r).toNat / 2 = r.toNat := by omega
    rw [this, i32_id (by omega) (by omega)]
    omega
  · simp only [h0, if_false]
    rw [if_neg (by omega)]
    have : (((-2 * r - 1).toNat : Nat) : Int) = -2 * r - 1 := by omega
    rw [this, i32_id (z := -2 * r - 1) (by omega) (by omega)]
    have e : i32 (-2 * r - 1 + 1) = if r = -1073741824 then -2147483648 else -2 * r := by
      split
      · rename_i h; subst h; decide
      · unfold i32; omega
    rw [e]
    split
    · rename_i h; subst h; decide
    · rw [i32_id (by omega) (by omega)]
      omega

theorem residual_spec {v p : Int} {l : MALeaf} {u : Nat} (h : residual v p l = some u) (hv : -2147483648 ≤ v ∧ v < 2147483648) :
    i32 (i32 (unpackSigned u * l.multiplier + l.offset) + p) = v ∧ u < 4294967296 := by
  unfold residual at h
  dsimp only at h
  split at h
  · rename_i hc
    obtain ⟨hm, hdiv, h1, h2⟩ := hc
    cases h
    obtain ⟨e1, e2⟩ := unpack_pack _ (by simpa using h1) (by simpa using h2)
    refine ⟨?_, e2⟩
    rw [e1]
    have := Int.ediv_mul_cancel (Int.dvd_of_emod_eq_zero hdiv)
    rw [this]
    unfold i32
    omega
  · cases h

/-- The state of the weighted predictor does not depend on samples that are not decoded yet. -/
theorem Agree.wpStep {env : ChanEnv} {b img : List (List Int)} {y x : Nat} (hA : Agree env.chan.height env.chan.width b (Img.ofRows img) y x)
    (hI : Agree env.chan.height env.chan.width img (Img.ofRows img) y x) (hy : y < env.chan.height) (hx : x < env.chan.width) (pl : WPPlanes) :
    Jxl.wpStep env b pl x y = Jxl.wpStep env img pl x y := by
  unfold Jxl.wpStep prePredictWP
  rw [hA.north hy hx, hA.northWest hy hx, hA.northEast hy hx, hA.west hy hx, hA.northNorth hy hx,
    hI.north hy hx, hI.northWest hy hx, hI.northEast hy hx, hI.west hy hx, hI.northNorth hy hx]

theorem i32_range (z : Int) : -2147483648 ≤ i32 z ∧ i32 z < 2147483648 := by unfold i32; omega

theorem BitVec32_range (b : BitVec 32) : -2147483648 ≤ b.toInt ∧ b.toInt < 2147483648 := by
  have h1 := BitVec.le_toInt b
  have h2 := BitVec.toInt_lt (x := b)
  simp at h1 h2
  omega

theorem weightedAverage_range {sub weights : List Int} {a : Int} (h : weightedAverage sub weights = .ok a) : -2147483648 ≤ a ∧ a < 2147483648 := by
  unfold weightedAverage at h
  dsimp only at h
  split at h
  · cases h
  · cases ht : idx oneL24OverKP1 (i32 (List.map (fun x => sar x ((floorLog1p 64 ((i32 weights.sum - 1) % 18446744073709551616).toNat : Int) - 4).toNat) weights).sum - 1) with
    | ok t => rw [ht, Res.bind_ok] at h; cases h; exact i32_range _
    | err => rw [ht] at h; cases h
    | panic => rw [ht] at h; cases h

theorem set2_at2 {b b' : List (List Int)} {y x : Nat} {v : Int} (h : set2 b (y : Int) (x : Int) v = .ok b') : at2 b' (y : Int) (x : Int) = .ok v := by
  unfold set2 at h
  unfold idx setAt at h
  rw [if_neg (by omega)] at h
  simp only [Int.toNat_natCast] at h
  cases hr : b[y]? with
  | none => rw [hr] at h; cases h
  | some r =>
    rw [hr] at h
    simp only [Res.bind_ok] at h
    rw [if_neg (by omega)] at h
    split at h
    · rename_i h1
      simp only [Res.bind_ok] at h
      rw [if_neg (by omega)] at h
      split at h
      · rename_i h2
        cases h
        rw [at2, idx_of_getElem? _ y (r.set x v) (by simp [h2]), Res.bind_ok, idx_of_getElem? _ x v (by simp [h1])]
      · cases h
    · cases h

theorem wpStep_pred {env : ChanEnv} {b : List (List Int)} {pl pl' : WPPlanes} {x y : Nat} {r : WPResult} (h : wpStep env b pl x y = .ok (r, pl'))
    (hu : env.useWP = true) : at2 pl'.pred (y : Int) (x : Int) = .ok r.pred ∧ -2147483648 ≤ r.pred := by
  unfold wpStep at h
  rw [if_pos hu] at h
  cases hp : prePredictWP env.chan.width env.wp b pl x y with
  | err => rw [hp] at h; cases h
  | panic => rw [hp] at h; cases h
  | ok q =>
    rw [hp, Res.bind_ok] at h
    cases hs : set2 pl.pred (y : Int) (x : Int) q.pred with
    | err => rw [hs] at h; cases h
    | panic => rw [hs] at h; cases h
    | ok pr =>
      rw [hs, Res.bind_ok] at h
      cases h
      refine ⟨set2_at2 hs, ?_⟩
      unfold prePredictWP at hp
      revert hp
      cases north b x y <;> try (intro h; cases h; done)
      cases northWest b x y <;> try (intro h; cases h; done)
      cases northEast env.chan.width b x y <;> try (intro h; cases h; done)
      cases west b x y <;> try (intro h; cases h; done)
      cases northNorth b x y <;> try (intro h; cases h; done)
      cases errN pl x y 4 <;> try (intro h; cases h; done)
      cases errW pl x y 4 <;> try (intro h; cases h; done)
      cases errNE env.chan.width pl x y 4 <;> try (intro h; cases h; done)
      cases errNW pl x y 4 <;> try (intro h; cases h; done)
      simp only [Res.bind_ok]
      cases errorWeights env.chan.width pl x y 0 env.wp.weight <;> try (intro h; cases h; done)
      simp only [Res.bind_ok]
      generalize hav : weightedAverage _ _ = av
      cases av <;> try (intro h; cases h; done)
      simp only [Res.bind_ok]
      intro h
      cases h
      dsimp only
      split
      · exact (BitVec32_range _).1
      · exact (weightedAverage_range hav).1

theorem Usable.compactify (t : MATree) (c s : Int) (h : t.Usable) : (t.compactify c s).Usable := by
  induction t with
  | leaf l => exact h
  | node p v a b iha ihb =>
    obtain ⟨h0, ha, hb⟩ := h
    rw [MATree.compactify]
    repeat' split
    all_goals first | exact iha ha | exact ihb hb | exact ⟨h0, ha, hb⟩

theorem lift_ok {α : Type} {r : Res α} {a : α} (h : r = .ok a) (s : BR) : Rd.lift r s = (.ok a, s) := by rw [h]; rfl

theorem decodeSample_encoded {env : ChanEnv} {tree : MATree} {b img : List (List Int)} {pl pl' : WPPlanes} {y x : Nat} {ctx : Int} {u : Nat}
    (hE : EnvOK env) (hA : Agree env.chan.height env.chan.width b (Img.ofRows img) y x)
    (hI : Agree env.chan.height env.chan.width img (Img.ofRows img) y x) (hy : y < env.chan.height) (hx : x < env.chan.width)
    (hS : (Img.ofRows img).Bounded) (hu : tree.Usable) (hwp : env.useWP = false → (tree.compactify env.channelIndex env.streamIndex).useWP = false)
    (henc : encodeSample env tree img pl y x = some ((ctx, u), pl')) {es es' : ES} {s s' : BR} {sym : Int}
    (hsym : es.readSymbolMul ctx env.distMultiplier s = (.ok (sym, es'), s')) (hval : toU32 sym = u) :
    ∃ b', decodeSample env ((tree.compactify env.channelIndex env.streamIndex).compactifyWithY env.channelIndex env.streamIndex y) y x ⟨b, pl, es⟩ s =
      (.ok ⟨b', pl', es'⟩, s') ∧ Agree env.chan.height env.chan.width b' (Img.ofRows img) y (x + 1) := by
  unfold encodeSample at henc
  dsimp only at henc
  have hws := hA.wpStep (env := env) hI hy hx pl
  cases hw : wpStep env img pl x y with
  | err => rw [hw] at henc; cases henc
  | panic => rw [hw] at henc; cases henc
  | ok r =>
    obtain ⟨wp, pl1⟩ := r
    rw [hw] at henc hws
    dsimp only at henc
    have hprop := fun (k : Int) (hk : 0 ≤ k) => hA.propValue (prev := env.prev) hy hx hS hE.prev env.channelIndex env.streamIndex wp.maxError hE.index k hk
    obtain ⟨hw1, hw2, hw3⟩ := tree.walk_eval _ _ hu hprop
    generalize hl : tree.eval ((Img.ofRows img).prop env.chan env.prev env.channelIndex env.streamIndex wp.maxError x y) = l at henc hw1 hw2 hw3
    have hleaf : leafFor env ((tree.compactify env.channelIndex env.streamIndex).compactifyWithY env.channelIndex env.streamIndex y) b wp.maxError x y = .ok l := by
      unfold leafFor
      rw [C20_refined]
      · exact hw1
      · rfl
      · rfl
      · rfl
    cases hres : residual (Img.ofRows img y x) ((Img.ofRows img).predict env.chan.width wp.pred x y l.predictor.toNat) l with
    | none => rw [hres] at henc; cases henc
    | some u' =>
      cases hup : wpUpdate env wp (Img.ofRows img y x) pl1 x y with
      | err => rw [hres, hup] at henc; cases henc
      | panic => rw [hres, hup] at henc; cases henc
      | ok pl2 =>
        rw [hres, hup] at henc
        dsimp only at henc
        split at henc
        · rename_i hlim
          cases henc
          have h6 : l.predictor = 6 → at2 pl1.pred (y : Int) (x : Int) = .ok wp.pred ∧ -2147483648 ≤ wp.pred ∧ wp.pred < 2147483645 := by
            intro h6
            have hu' : env.useWP = true := by
              by_contra hcon
              have hf : env.useWP = false := by simpa using hcon
              have h3 := (C20_useWP (tree.compactify env.channelIndex env.streamIndex) (hwp hf)
                (propValue { env.chan with buffer := b } env.prev env.channelIndex env.streamIndex x y wp.maxError) _ (fun _ _ => rfl)).2 l (by
                  rw [C20_compactify]
                  · exact hw1
                  · rfl
                  · rfl)
              exact h3 h6
            obtain ⟨h1, h2⟩ := wpStep_pred hw hu'
            exact ⟨h1, h2, by simpa using hlim⟩
          have hpred := hA.prediction hy hx hS pl1.pred wp.pred l.predictor hw2 hw3 h6
          have hv := hS y x
          obtain ⟨hr1, hr2⟩ := residual_spec hres (by omega)
          obtain ⟨b', hb1, hb2⟩ := hA.set2 hy hx
          refine ⟨b', ?_, hb2⟩
          unfold decodeSample
          dsimp only
          rw [Rd.bind_ok (lift_ok hws s)]
          dsimp only
          rw [Rd.bind_ok (lift_ok hleaf s), Rd.bind_ok hsym]
          dsimp only
          rw [Rd.bind_ok (lift_ok hpred s'), hval, hr1, Rd.bind_ok (lift_ok hb1 s'), Rd.bind_ok (lift_ok hup s'), Rd.pure_eq]
        · cases henc

/-- Splitting the reading of a sequence of values. -/
theorem readSeq_cons {mult c : Int} {cs : List Int} {es es' : ES} {s s' : BR} {vals : List Int}
    (h : ES.readSeq mult (c :: cs) es s = (.ok (vals, es'), s')) :
    ∃ v vs es1 s1, vals = v :: vs ∧ es.readSymbolMul c mult s = (.ok (v, es1), s1) ∧ ES.readSeq mult cs es1 s1 = (.ok (vs, es'), s') := by
  rw [ES.readSeq, Rd.bind_eq] at h
  rcases hm : es.readSymbolMul c mult s with ⟨_ | _ | _, s1⟩ <;> rw [hm] at h
  · rename_i r
    obtain ⟨v, es1⟩ := r
    dsimp only at h
    rw [Rd.bind_eq] at h
    rcases hm2 : ES.readSeq mult cs es1 s1 with ⟨_ | _ | _, s2⟩ <;> rw [hm2] at h
    · rename_i r2
      obtain ⟨vs, es2⟩ := r2
      dsimp only at h
      rw [Rd.pure_eq] at h
      cases h
      exact ⟨v, vs, es1, s1, rfl, rfl, hm2⟩
    · cases h
    · cases h
  · cases h
  · cases h

theorem readSeq_split {mult : Int} : ∀ {c1 c2 : List Int} {es es' : ES} {s s' : BR} {vals : List Int},
    ES.readSeq mult (c1 ++ c2) es s = (.ok (vals, es'), s') →
    ∃ v1 v2 es1 s1, vals = v1 ++ v2 ∧ v1.length = c1.length ∧ ES.readSeq mult c1 es s = (.ok (v1, es1), s1) ∧ ES.readSeq mult c2 es1 s1 = (.ok (v2, es'), s')
  | [], c2, es, es', s, s', vals, h => ⟨[], vals, es, s, rfl, rfl, rfl, h⟩
  | c :: cs, c2, es, es', s, s', vals, h => by
    obtain ⟨v, vs, es1, s1, e1, e2, e3⟩ := readSeq_cons h
    obtain ⟨v1, v2, es2, s2, f1, f2, f3, f4⟩ := readSeq_split e3
    refine ⟨v :: v1, v2, es2, s2, by rw [e1, f1]; rfl, by simp [f2], ?_, f4⟩
    rw [ES.readSeq, Rd.bind_ok e2]
    dsimp only
    rw [Rd.bind_ok f3]
    rfl

theorem decodeRow_encoded {env : ChanEnv} {tree : MATree} {img : List (List Int)} {y : Nat}
    (hE : EnvOK env) (hI1 : img.length = env.chan.height) (hI2 : ∀ r ∈ img, r.length = env.chan.width) (hy : y < env.chan.height)
    (hS : (Img.ofRows img).Bounded) (hu : tree.Usable) (hwp : env.useWP = false → (tree.compactify env.channelIndex env.streamIndex).useWP = false) :
    ∀ (n x : Nat) (pl pl' : WPPlanes) (b : List (List Int)) (out : List (Int × Nat)) (es es' : ES) (s s' : BR) (vals : List Int),
      x + n = env.chan.width → Agree env.chan.height env.chan.width b (Img.ofRows img) y x →
      encodeRow env tree img y n x pl = some (out, pl') →
      ES.readSeq env.distMultiplier (out.map Prod.fst) es s = (.ok (vals, es'), s') → vals.map toU32 = out.map Prod.snd →
      ∃ b', decodeRow env ((tree.compactify env.channelIndex env.streamIndex).compactifyWithY env.channelIndex env.streamIndex y) y n x ⟨b, pl, es⟩ s =
        (.ok ⟨b', pl', es'⟩, s') ∧ Agree env.chan.height env.chan.width b' (Img.ofRows img) y env.chan.width := by
  intro n
  induction n with
  | zero =>
    intro x pl pl' b out es es' s s' vals hx hA henc hseq hval
    simp only [encodeRow] at henc
    cases henc
    simp only [List.map_nil, ES.readSeq] at hseq
    rw [Rd.pure_eq] at hseq
    cases hseq
    refine ⟨b, rfl, ?_⟩
    have : x = env.chan.width := by omega
    rw [this] at hA; exact hA
  | succ n ih =>
    intro x pl pl' b out es es' s s' vals hx hA henc hseq hval
    simp only [encodeRow] at henc
    cases ha : encodeSample env tree img pl y x with
    | none => rw [ha] at henc; cases henc
    | some a =>
      obtain ⟨⟨ctx, u⟩, pl1⟩ := a
      rw [ha] at henc
      simp only [Option.bind_eq_bind, Option.bind_some] at henc
      cases hr : encodeRow env tree img y n (x + 1) pl1 with
      | none => rw [hr] at henc; cases henc
      | some r =>
        obtain ⟨out1, pl2⟩ := r
        rw [hr] at henc
        simp only [Option.bind_some] at henc
        cases henc
        simp only [List.map_cons] at hseq hval
        obtain ⟨v, vs, es1, s1, e1, e2, e3⟩ := readSeq_cons hseq
        subst e1
        simp only [List.map_cons, List.cons.injEq] at hval
        obtain ⟨b1, d1, d2⟩ := decodeSample_encoded hE hA (Agree.self hI1 hI2 y x) hy (by omega) hS hu hwp ha e2 hval.1
        obtain ⟨b2, d3, d4⟩ := ih (x + 1) pl1 _ b1 out1 es1 es' s1 s' vs (by omega) d2 hr e3 hval.2
        refine ⟨b2, ?_, d4⟩
        rw [decodeRow, Rd.bind_ok d1]
        exact d3

theorem decodeRows_encoded {env : ChanEnv} {tree : MATree} {img : List (List Int)}
    (hE : EnvOK env) (hI1 : img.length = env.chan.height) (hI2 : ∀ r ∈ img, r.length = env.chan.width)
    (hS : (Img.ofRows img).Bounded) (hu : tree.Usable) (hwp : env.useWP = false → (tree.compactify env.channelIndex env.streamIndex).useWP = false) :
    ∀ (n y : Nat) (pl pl' : WPPlanes) (b : List (List Int)) (out : List (Int × Nat)) (es es' : ES) (s s' : BR) (vals : List Int),
      y + n = env.chan.height → Agree env.chan.height env.chan.width b (Img.ofRows img) y 0 →
      encodeRows env tree img n y pl = some (out, pl') →
      ES.readSeq env.distMultiplier (out.map Prod.fst) es s = (.ok (vals, es'), s') → vals.map toU32 = out.map Prod.snd →
      ∃ b', decodeRows env (tree.compactify env.channelIndex env.streamIndex) n y ⟨b, pl, es⟩ s =
        (.ok ⟨b', pl', es'⟩, s') ∧ Agree env.chan.height env.chan.width b' (Img.ofRows img) env.chan.height 0 := by
  intro n
  induction n with
  | zero =>
    intro y pl pl' b out es es' s s' vals hy hA henc hseq hval
    simp only [encodeRows] at henc
    cases henc
    simp only [List.map_nil, ES.readSeq] at hseq
    rw [Rd.pure_eq] at hseq
    cases hseq
    refine ⟨b, rfl, ?_⟩
    have : y = env.chan.height := by omega
    rw [this] at hA; exact hA
  | succ n ih =>
    intro y pl pl' b out es es' s s' vals hy hA henc hseq hval
    simp only [encodeRows] at henc
    cases ha : encodeRow env tree img y env.chan.width 0 pl with
    | none => rw [ha] at henc; cases henc
    | some a =>
      obtain ⟨out1, pl1⟩ := a
      rw [ha] at henc
      simp only [Option.bind_eq_bind, Option.bind_some] at henc
      cases hr : encodeRows env tree img n (y + 1) pl1 with
      | none => rw [hr] at henc; cases henc
      | some r =>
        obtain ⟨out2, pl2⟩ := r
        rw [hr] at henc
        simp only [Option.bind_some] at henc
        cases henc
        rw [List.map_append] at hseq hval
        obtain ⟨v1, v2, es1, s1, e1, e2, e3, e4⟩ := readSeq_split hseq
        subst e1
        rw [List.map_append] at hval
        obtain ⟨hv1, hv2⟩ := List.append_inj hval (by simp at e2 ⊢; exact e2)
        obtain ⟨b1, d1, d2⟩ := decodeRow_encoded hE hI1 hI2 (by omega) hS hu hwp env.chan.width 0 pl pl1 b out1 es es1 s s1 v1 (by omega) hA ha e3 hv1
        obtain ⟨b2, d3, d4⟩ := ih (y + 1) pl1 _ b1 out2 es1 es' s1 s' v2 (by omega) d2.nextRow hr e4 hv2
        refine ⟨b2, ?_, d4⟩
        rw [decodeRows, Rd.bind_ok d1]
        exact d3

theorem rows_ext {h w : Nat} {a b : List (List Int)} (ha1 : a.length = h) (ha2 : ∀ r ∈ a, r.length = w) (hb1 : b.length = h) (hb2 : ∀ r ∈ b, r.length = w)
    (he : ∀ j k, j < h → k < w → Img.ofRows a j k = Img.ofRows b j k) : a = b := by
  apply List.ext_getElem (by omega)
  intro j h1 h2
  apply List.ext_getElem
  · rw [ha2 _ (List.getElem_mem h1), hb2 _ (List.getElem_mem h2)]
  · intro k h3 h4
    have := he j k (by omega) (by rw [ha2 _ (List.getElem_mem h1)] at h3; exact h3)
    rwa [ofRows_eq (r := a[j]) (v := a[j][k]) (by simp) (by simp), ofRows_eq (r := b[j]) (v := b[j][k]) (by simp) (by simp)] at this

end Jxl
