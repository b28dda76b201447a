import Verif.Spec.Groups
import Verif.Props.Util
import Verif.Proofs.BlendLoops

/-! # Grids of groups -/
namespace Jxl
open Spec

theorem ceilDiv_ok {n d : Nat} (hn : 0 < n) (hn2 : n < 4294967296) (hd : 0 < d) : ceilDiv n d = .ok ((n - 1) / d + 1) := by
  unfold ceilDiv u32
  rw [if_neg (by omega)]
  have h1 : (n + 4294967295) % 4294967296 = n - 1 := by omega
  have h2 : (n - 1) / d ≤ n - 1 := Nat.div_le_self _ _
  rw [h1, Nat.mod_eq_of_lt (by omega)]

/-- The cells of a grid tile the picture. -/
theorem grid_tiles (H W gh gw : Nat) (hH : 0 < H) (hW : 0 < W) (hgh : 0 < gh) (hgw : 0 < gw) :
    Tiles H W gh gw (((W - 1) / gw + 1) * ((H - 1) / gh + 1)) (fun i => .ok
      ⟨(i / ((W - 1) / gw + 1) * gh : Nat), (i % ((W - 1) / gw + 1) * gw : Nat), min gh (H - i / ((W - 1) / gw + 1) * gh),
        min gw (W - i % ((W - 1) / gw + 1) * gw)⟩) := by
  generalize hs : (W - 1) / gw + 1 = s
  generalize hr : (H - 1) / gh + 1 = r
  have hs0 : 0 < s := hs ▸ Nat.succ_pos _
  have hcol : ∀ c, c < s → c * gw < W := by
    intro c hc
    have h1 : c ≤ (W - 1) / gw := by omega
    have h2 := Nat.mul_le_mul_right gw h1
    have h3 := Nat.div_mul_le_self (W - 1) gw
    omega
  have hrow : ∀ c, c < r → c * gh < H := by
    intro c hc
    have h1 : c ≤ (H - 1) / gh := by omega
    have h2 := Nat.mul_le_mul_right gh h1
    have h3 := Nat.div_mul_le_self (H - 1) gh
    omega
  have hdiv : ∀ i, i < s * r → i / s < r := fun i hi => Nat.div_lt_of_lt_mul hi
  constructor
  · intro i hi
    have h1 := hrow _ (hdiv i hi)
    have h2 := hcol _ (Nat.mod_lt i hs0)
    refine ⟨_, rfl, ?_⟩
    dsimp only
    generalize i / s * gh = a at *
    generalize i % s * gw = b at *
    clear hcol hrow hdiv hs hr hi
    omega
  · intro y x hy hx
    have hcx : x / gw < s := by
      have : x / gw ≤ (W - 1) / gw := Nat.div_le_div_right (by omega)
      omega
    have hcy : y / gh < r := by
      have : y / gh ≤ (H - 1) / gh := Nat.div_le_div_right (by omega)
      omega
    have hlt : y / gh * s + x / gw < s * r := by
      have h1 : (y / gh + 1) * s ≤ r * s := Nat.mul_le_mul_right s hcy
      have h2 : (y / gh + 1) * s = y / gh * s + s := Nat.succ_mul _ _
      have h3 : s * r = r * s := Nat.mul_comm _ _
      omega
    have hd : (y / gh * s + x / gw) / s = y / gh := by
      rw [Nat.add_comm, Nat.add_mul_div_right _ _ hs0, Nat.div_eq_of_lt hcx, Nat.zero_add]
    have hm : (y / gh * s + x / gw) % s = x / gw := by
      rw [Nat.add_comm, Nat.add_mul_mod_self_right, Nat.mod_eq_of_lt hcx]
    have ey := Nat.div_add_mod y gh
    have ex := Nat.div_add_mod x gw
    have my := Nat.mod_lt y hgh
    have mx := Nat.mod_lt x hgw
    rw [Nat.mul_comm gh] at ey
    rw [Nat.mul_comm gw] at ex
    refine ⟨y / gh * s + x / gw, hlt, ⟨_, rfl, ?_⟩, ?_⟩
    · unfold InArea
      dsimp only
      rw [hd, hm]
      generalize y / gh * gh = a at *
      generalize x / gw * gw = b at *
      omega
    · intro j hj a ha hin
      cases ha
      unfold InArea at hin
      dsimp only at hin
      have h1 : y / gh = j / s := by
        have hlo : j / s * gh ≤ y := by
          generalize j / s * gh = q at *
          omega
        have hhi : y < (j / s + 1) * gh := by
          rw [Nat.succ_mul]
          generalize j / s * gh = q at *
          omega
        exact Nat.div_eq_of_lt_le hlo hhi
      have h2 : x / gw = j % s := by
        have hlo : j % s * gw ≤ x := by
          generalize j % s * gw = q at *
          omega
        have hhi : x < (j % s + 1) * gw := by
          rw [Nat.succ_mul]
          generalize j % s * gw = q at *
          omega
        exact Nat.div_eq_of_lt_le hlo hhi
      rw [h1, h2, Nat.mul_comm]
      exact (Nat.div_add_mod j s).symm

theorem Spec.Tiles.congr {H W gh gw n : Nat} {a b : Nat → Res Area} (h : Tiles H W gh gw n a) (e : ∀ i, i < n → b i = a i) : Tiles H W gh gw n b := by
  constructor
  · intro i hi
    rw [e i hi]
    exact h.1 i hi
  · intro y x hy hx
    obtain ⟨i, hi, hin, hu⟩ := h.2 y x hy hx
    refine ⟨i, hi, ?_, ?_⟩
    · rw [e i hi]
      exact hin
    · intro j hj a hja
      rw [e j hj] at hja
      exact hu j hj a hja

/-- One side of the padded frame. -/
theorem paddedFrameSide_ok (v : Bool) {d s : Nat} (hd : 0 < d) (hd2 : d ≤ 2147481600) (hs : s ≤ 1) :
    ∃ p, paddedFrameSide v d s = .ok p ∧ d ≤ p ∧ p ≤ d + 15 ∧ ∀ k, d ≤ 16 * k → p ≤ 16 * k := by
  have hs' : s = 0 ∨ s = 1 := by omega
  unfold paddedFrameSide
  cases v
  · rw [if_neg (by decide)]
    rcases hs' with rfl | rfl
    · refine ⟨d, ?_, by omega, by omega, fun k hk => hk⟩
      rw [ceilDiv_ok hd (by omega) (by decide), Res.bind_ok]
      unfold u32
      congr 1
      change ((d - 1) / 1 + 1) * 1 % 4294967296 = d
      omega
    · refine ⟨(d + 1) / 2 * 2, ?_, by omega, by omega, fun k hk => by omega⟩
      rw [ceilDiv_ok hd (by omega) (by decide), Res.bind_ok]
      unfold u32
      congr 1
      change ((d - 1) / 2 + 1) * 2 % 4294967296 = _
      omega
  · rw [if_pos rfl]
    have hu : u32 (d + 7) >>> 3 = (d + 7) / 8 := by
      unfold u32
      rw [Nat.shiftRight_eq_div_pow, Nat.mod_eq_of_lt (by omega)]
    rcases hs' with rfl | rfl
    · refine ⟨(d + 7) / 8 * 8, ?_, by omega, by omega, fun k hk => by omega⟩
      rw [hu, ceilDiv_ok (by omega) (by omega) (by decide), Res.bind_ok]
      unfold u32
      rw [Nat.shiftLeft_eq]
      congr 1
      change (((d + 7) / 8 - 1) / 1 + 1) * 1 % 4294967296 * 8 % 4294967296 = _
      omega
    · refine ⟨((d + 7) / 8 + 1) / 2 * 16, ?_, by omega, by omega, fun k hk => by omega⟩
      rw [hu, ceilDiv_ok (by omega) (by omega) (by decide), Res.bind_ok]
      unfold u32
      rw [Nat.shiftLeft_eq]
      congr 1
      change (((d + 7) / 8 - 1) / 2 + 1) * 2 % 4294967296 * 8 % 4294967296 = _
      omega

theorem maxList_le (l : List Nat) (b : Nat) (h : ∀ v ∈ l, v ≤ b) : maxList l ≤ b := by
  unfold maxList
  have : ∀ (l : List Nat) (a : Nat), a ≤ b → (∀ v ∈ l, v ≤ b) → l.foldl max a ≤ b := by
    intro l
    induction l with
    | nil => intro a ha _; exact ha
    | cons v l ih =>
      intro a ha hv
      refine ih (max a v) ?_ (fun x hx => hv x (List.mem_cons_of_mem _ hx))
      have := hv v List.mem_cons_self
      omega
  exact this l 0 (Nat.zero_le _) h

/-- Padding does not change the number of groups. -/
theorem padded_count {d p g : Nat} (hd : 0 < d) (hg : 0 < g) (h1 : d ≤ p) (h2 : ∀ k, d ≤ 16 * k → p ≤ 16 * k) (hg16 : ∃ m, g = 16 * m) :
    (p - 1) / g = (d - 1) / g := by
  obtain ⟨m, rfl⟩ := hg16
  apply Nat.le_antisymm
  · have hq : d ≤ 16 * (m * ((d - 1) / (16 * m) + 1)) := by
      have := Nat.lt_div_mul_add hg (a := d - 1)
      have e : 16 * (m * ((d - 1) / (16 * m) + 1)) = (d - 1) / (16 * m) * (16 * m) + 16 * m := by ring
      omega
    have hp := h2 _ hq
    have e : 16 * (m * ((d - 1) / (16 * m) + 1)) = 16 * m * ((d - 1) / (16 * m) + 1) := by ring
    rw [e] at hp
    have := Nat.div_lt_of_lt_mul (show p - 1 < 16 * m * ((d - 1) / (16 * m) + 1) by omega)
    omega
  · exact Nat.div_le_div_right (by omega)

theorem i32_ofNat {n : Nat} (h : n < 2147483648) : i32 (n : Int) = n := i32_in (by omega) (by omega)

theorem gridLocation_ok {s i : Nat} (hs : 0 < s) (hs2 : s < 2147483648) (hi : i < 2147483648) :
    gridLocation s (i : Int) = .ok (((i / s : Nat) : Int), ((i % s : Nat) : Int)) := by
  unfold gridLocation
  have h1 : i / s ≤ i := Nat.div_le_self _ _
  have h2 : i % s ≤ i := Nat.mod_le _ _
  rw [i32_ofNat hs2, if_neg (by omega), ← Int.ofNat_tdiv, ← Int.ofNat_tmod, i32_ofNat (by omega), i32_ofNat (by omega)]

theorem toU32_nat {n : Nat} (h : n < 4294967296) : toU32 (n : Int) = n := by
  unfold toU32
  omega

theorem groupSide_ok {g p c : Nat} (hp : p < 4294967296) (hc : c < 4294967296) (h : c * g < p) : groupSide g p (c : Int) = min g (p - c * g) := by
  unfold groupSide subU32 u32
  rw [toU32_nat hc]
  generalize c * g = q at *
  rw [Nat.mod_eq_of_lt (show q < 4294967296 by omega)]
  congr 1
  omega

end Jxl
