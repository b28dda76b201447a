import Verif.Proofs.Paste
import Verif.Props.Blend
import Verif.Proofs.FrameHeaderSafe
import Verif.Proofs.Cluster

/-! # Groups (C26) -/
namespace Jxl
open Spec

/-- The dimensions of groups and LF groups. -/
theorem Spec.Framed.dims {f : FrameHeader} (hf : Framed f) : (∃ m, f.groupDim = 16 * m) ∧ 128 ≤ f.groupDim ∧ f.groupDim ≤ 1024 ∧ f.lfGroupDim = f.groupDim * 8 ∧
    u32 (f.groupDim <<< 3) = f.groupDim * 8 := by
  obtain ⟨k, hk, e⟩ := hf.dim
  have e2 := hf.lfDim
  rw [Nat.shiftLeft_eq] at e2
  have h : f.groupDim = 128 ∨ f.groupDim = 256 ∨ f.groupDim = 512 ∨ f.groupDim = 1024 := by
    rw [e]
    rcases (by omega : k = 0 ∨ k = 1 ∨ k = 2 ∨ k = 3) with rfl | rfl | rfl | rfl
    · exact Or.inl rfl
    · exact Or.inr (Or.inl rfl)
    · exact Or.inr (Or.inr (Or.inl rfl))
    · exact Or.inr (Or.inr (Or.inr rfl))
  refine ⟨⟨f.groupDim / 16, by omega⟩, by omega, by omega, by omega, ?_⟩
  unfold u32
  rw [Nat.shiftLeft_eq]
  omega

/-- One side of a group, and where it starts. -/
theorem side_ok {g p c : Nat} (hg2 : g ≤ 8192) (hp : p ≤ 2147481615) (h : c * g < p) (hg : 0 < g) :
    i32 ((c : Int) * (g : Int)) = ((c * g : Nat) : Int) ∧ groupSide g p (c : Int) = min g (p - c * g) := by
  have h1 : c ≤ c * g := Nat.le_mul_of_pos_right c hg
  refine ⟨?_, groupSide_ok (by omega) (by omega) h⟩
  rw [← Int.natCast_mul]
  exact i32_ofNat (by omega)

/-- The cells of either grid. -/
theorem area_tiles {P Q g : Nat} (hg : 0 < g) (hg2 : g ≤ 8192) (hP : 0 < P) (hP2 : P ≤ 2147481615) (hQ : 0 < Q) (hQ2 : Q ≤ 2147481615)
    (hn : ((Q - 1) / g + 1) * ((P - 1) / g + 1) < 2147483648) :
    ∀ i, i < ((Q - 1) / g + 1) * ((P - 1) / g + 1) →
      ∃ y x, gridLocation ((Q - 1) / g + 1) (i : Int) = .ok (((y : Nat) : Int), ((x : Nat) : Int)) ∧ y = i / ((Q - 1) / g + 1) ∧ x = i % ((Q - 1) / g + 1) ∧
        y * g < P ∧ x * g < Q ∧ (⟨i32 ((y : Int) * (g : Int)), i32 ((x : Int) * (g : Int)), groupSide g P (y : Int), groupSide g Q (x : Int)⟩ : Area) =
          ⟨(y * g : Nat), (x * g : Nat), min g (P - y * g), min g (Q - x * g)⟩ := by
  intro i hi
  have hs : (Q - 1) / g ≤ Q - 1 := Nat.div_le_self _ _
  have h1 : i / ((Q - 1) / g + 1) < (P - 1) / g + 1 := Nat.div_lt_of_lt_mul hi
  have h2 : i % ((Q - 1) / g + 1) < (Q - 1) / g + 1 := Nat.mod_lt _ (Nat.succ_pos _)
  have hy : i / ((Q - 1) / g + 1) * g < P := by
    have h3 := Nat.mul_le_mul_right g (Nat.le_of_lt_succ h1)
    have h4 := Nat.div_mul_le_self (P - 1) g
    generalize i / ((Q - 1) / g + 1) * g = a at *
    generalize (P - 1) / g * g = b at *
    omega
  have hx : i % ((Q - 1) / g + 1) * g < Q := by
    have h3 := Nat.mul_le_mul_right g (Nat.le_of_lt_succ h2)
    have h4 := Nat.div_mul_le_self (Q - 1) g
    generalize i % ((Q - 1) / g + 1) * g = a at *
    generalize (Q - 1) / g * g = b at *
    omega
  refine ⟨_, _, gridLocation_ok (Nat.succ_pos _) (by omega) (by omega), rfl, rfl, hy, hx, ?_⟩
  obtain ⟨a1, a2⟩ := side_ok hg2 hP2 hy hg
  obtain ⟨b1, b2⟩ := side_ok hg2 hQ2 hx hg
  rw [a1, a2, b1, b2]

/-- The groups of a frame tile it (with its padding), and so do its LF groups. Every group lies in the LF group it is assigned to, at the position it is said to have there.
For frames with at least one pixel and fewer than 2^31 groups. -/
theorem C26_groups_partial (f : FrameHeader) (hf : Framed f)
    (hn : ((f.size.width - 1) / f.groupDim + 1) * ((f.size.height - 1) / f.groupDim + 1) < 2147483648) :
    ∃ l s, frameLayout f = .ok l ∧ paddedFrameSize f = .ok s ∧ f.size.height ≤ s.height ∧ f.size.width ≤ s.width ∧
      Tiles s.height s.width f.groupDim f.groupDim l.numGroups (fun i => groupArea f l i) ∧
      Tiles s.height s.width f.lfGroupDim f.lfGroupDim l.numLFGroups (fun i => lfGroupArea f l i) ∧
      ∀ i, i < l.numGroups → ∃ (j : Nat) (a b : Area) (p : Int × Int), lfGroupFor l i = .ok (j : Int) ∧ j < l.numLFGroups ∧ groupArea f l i = .ok a ∧ lfGroupArea f l j = .ok b ∧
        (∀ y x, InArea a y x → InArea b y x) ∧ groupPosInLFGroup l j i = .ok p ∧ a.y = b.y + p.1 * f.groupDim ∧ a.x = b.x + p.2 * f.groupDim := by
  obtain ⟨hm, hg1, hg2, hlg, hu⟩ := hf.dims
  obtain ⟨hw, hw2⟩ := hf.width
  obtain ⟨hh, hh2⟩ := hf.height
  have hmx := maxList_le f.jpegX 1 hf.jpegX
  have hmy := maxList_le f.jpegY 1 hf.jpegY
  obtain ⟨P, eP, P1, P2, P3⟩ := paddedFrameSide_ok (f.encoding == 0) hh hh2 hmy
  obtain ⟨Q, eQ, Q1, Q2, Q3⟩ := paddedFrameSide_ok (f.encoding == 0) hw hw2 hmx
  have hsize : paddedFrameSize f = .ok ⟨Q, P⟩ := by
    unfold paddedFrameSize
    rw [eP, Res.bind_ok, eQ, Res.bind_ok]
  generalize hG : f.groupDim = g at *
  generalize hW : f.size.width = w at *
  generalize hH : f.size.height = h at *
  have hg0 : 0 < g := by omega
  obtain ⟨m, hm⟩ := hm
  have cQ := padded_count hw hg0 Q1 Q3 ⟨m, hm⟩
  have cP := padded_count hh hg0 P1 P3 ⟨m, hm⟩
  have cQ8 := padded_count hw (show 0 < g * 8 by omega) Q1 Q3 ⟨m * 8, by omega⟩
  have cP8 := padded_count hh (show 0 < g * 8 by omega) P1 P3 ⟨m * 8, by omega⟩
  have d8 : ∀ z, z / (g * 8) = z / g / 8 := fun z => (Nat.div_div_eq_div_mul z g 8).symm
  -- the numbers of groups
  have hn8 : ((w - 1) / (g * 8) + 1) * ((h - 1) / (g * 8) + 1) < 2147483648 := by
    refine Nat.lt_of_le_of_lt (Nat.mul_le_mul ?_ ?_) hn
    · rw [d8]
      have := Nat.div_le_self ((w - 1) / g) 8
      omega
    · rw [d8]
      have := Nat.div_le_self ((h - 1) / g) 8
      omega
  have hl : frameLayout f = .ok ⟨(w - 1) / g + 1, (w - 1) / (g * 8) + 1, ((w - 1) / g + 1) * ((h - 1) / g + 1), ((w - 1) / (g * 8) + 1) * ((h - 1) / (g * 8) + 1)⟩ := by
    unfold frameLayout
    rw [hG, hu]
    rw [hW, hH, ceilDiv_ok hw (by omega) hg0, Res.bind_ok, ceilDiv_ok hw (by omega) (by omega), Res.bind_ok, ceilDiv_ok hh (by omega) hg0, Res.bind_ok,
      ceilDiv_ok hh (by omega) (by omega), Res.bind_ok]
    unfold u32
    rw [Nat.mod_eq_of_lt (Nat.lt_trans hn (by decide)), Nat.mod_eq_of_lt (Nat.lt_trans hn8 (by decide))]
  rw [← cQ, ← cP, ← cQ8, ← cP8] at hl
  rw [← cQ, ← cP] at hn
  rw [← cQ8, ← cP8] at hn8
  have hP0 : 0 < P := by omega
  have hQ0 : 0 < Q := by omega
  have tg := area_tiles hg0 (by omega) hP0 (by omega) hQ0 (by omega) hn
  have tl := area_tiles (show 0 < g * 8 by omega) (by omega) hP0 (by omega) hQ0 (by omega) hn8
  generalize hL : (⟨(Q - 1) / g + 1, (Q - 1) / (g * 8) + 1, ((Q - 1) / g + 1) * ((P - 1) / g + 1), ((Q - 1) / (g * 8) + 1) * ((P - 1) / (g * 8) + 1)⟩ : Layout) = l at hl
  have l1 : l.groupRowStride = (Q - 1) / g + 1 := by rw [← hL]
  have l2 : l.lfGroupRowStride = (Q - 1) / (g * 8) + 1 := by rw [← hL]
  have l3 : l.numGroups = ((Q - 1) / g + 1) * ((P - 1) / g + 1) := by rw [← hL]
  have l4 : l.numLFGroups = ((Q - 1) / (g * 8) + 1) * ((P - 1) / (g * 8) + 1) := by rw [← hL]
  have ag : ∀ i, i < l.numGroups → groupArea f l (i : Int) = .ok ⟨(i / ((Q - 1) / g + 1) * g : Nat), (i % ((Q - 1) / g + 1) * g : Nat),
      min g (P - i / ((Q - 1) / g + 1) * g), min g (Q - i % ((Q - 1) / g + 1) * g)⟩ := by
    intro i hi
    obtain ⟨y, x, e, ey, ex, _, _, ea⟩ := tg i (l3 ▸ hi)
    unfold groupArea
    rw [l1, e, Res.bind_ok, hsize, Res.bind_ok, hG]
    dsimp only
    rw [ea, ey, ex]
  have al : ∀ i, i < l.numLFGroups → lfGroupArea f l (i : Int) = .ok ⟨(i / ((Q - 1) / (g * 8) + 1) * (g * 8) : Nat), (i % ((Q - 1) / (g * 8) + 1) * (g * 8) : Nat),
      min (g * 8) (P - i / ((Q - 1) / (g * 8) + 1) * (g * 8)), min (g * 8) (Q - i % ((Q - 1) / (g * 8) + 1) * (g * 8))⟩ := by
    intro i hi
    obtain ⟨y, x, e, ey, ex, _, _, ea⟩ := tl i (l4 ▸ hi)
    unfold lfGroupArea
    rw [l2, e, Res.bind_ok, hsize, Res.bind_ok, hlg]
    dsimp only
    rw [ea, ey, ex]
  refine ⟨l, ⟨Q, P⟩, hl, hsize, P1, Q1, ?_, ?_, ?_⟩
  · rw [l3]
    refine (grid_tiles P Q g g hP0 hQ0 hg0 hg0).congr ?_
    intro i hi
    exact ag i (l3 ▸ hi)
  · rw [l4, hlg]
    refine (grid_tiles P Q (g * 8) (g * 8) hP0 hQ0 (by omega) (by omega)).congr ?_
    intro i hi
    exact al i (l4 ▸ hi)
  · intro i hi
    have hi' := hi
    rw [l3] at hi'
    obtain ⟨y, x, e, ey, ex, hy, hx, _⟩ := tg i hi'
    have hyr : y / 8 < (P - 1) / (g * 8) + 1 := by
      have : y < (P - 1) / g + 1 := ey ▸ Nat.div_lt_of_lt_mul hi'
      rw [d8]
      generalize (P - 1) / g = z at *
      omega
    have hxr : x / 8 < (Q - 1) / (g * 8) + 1 := by
      have : x < (Q - 1) / g + 1 := ex ▸ Nat.mod_lt _ (Nat.succ_pos _)
      rw [d8]
      generalize (Q - 1) / g = z at *
      omega
    generalize hs8 : (Q - 1) / (g * 8) + 1 = s8 at *
    generalize hr8 : (P - 1) / (g * 8) + 1 = r8 at *
    have hjlt : y / 8 * s8 + x / 8 < s8 * r8 := by
      have h1 : (y / 8 + 1) * s8 ≤ r8 * s8 := Nat.mul_le_mul_right s8 hyr
      have h2 : (y / 8 + 1) * s8 = y / 8 * s8 + s8 := Nat.succ_mul _ _
      have h3 : s8 * r8 = r8 * s8 := Nat.mul_comm _ _
      omega
    have hs80 : 0 < s8 := hs8 ▸ Nat.succ_pos _
    have jd : (y / 8 * s8 + x / 8) / s8 = y / 8 := by
      rw [Nat.add_comm, Nat.add_mul_div_right _ _ hs80, Nat.div_eq_of_lt hxr, Nat.zero_add]
    have jm : (y / 8 * s8 + x / 8) % s8 = x / 8 := by
      rw [Nat.add_comm, Nat.add_mul_mod_self_right, Nat.mod_eq_of_lt hxr]
    have hs8b : s8 < 2147483648 := by
      have h1 := Nat.div_le_self (Q - 1) (g * 8)
      omega
    have hmul : y / 8 * s8 ≤ y / 8 * s8 + x / 8 := Nat.le_add_right _ _
    have hag := ag i hi
    rw [← ey, ← ex] at hag
    have hal := al (y / 8 * s8 + x / 8) (l4 ▸ hjlt)
    rw [jd, jm] at hal
    have yb : y < 2147483648 := by
      have := Nat.le_mul_of_pos_right y hg0
      omega
    have xb : x < 2147483648 := by
      have := Nat.le_mul_of_pos_right x hg0
      omega
    refine ⟨y / 8 * s8 + x / 8, _, _, (((y % 8 : Nat) : Int), ((x % 8 : Nat) : Int)), ?_, l4 ▸ hjlt, hag, hal, ?_, ?_, ?_, ?_⟩
    · unfold lfGroupFor
      rw [l1, e, Res.bind_ok, l2]
      dsimp only
      have e1 : (y : Int) / 8 = ((y / 8 : Nat) : Int) := by omega
      have e2 : (x : Int) / 8 = ((x / 8 : Nat) : Int) := by omega
      rw [i32_ofNat hs8b, e1, e2, ← Int.natCast_mul, i32_ofNat (Nat.lt_of_le_of_lt hmul (Nat.lt_trans hjlt hn8)), ← Int.natCast_add,
        i32_ofNat (Nat.lt_trans hjlt hn8), if_pos ⟨Int.natCast_nonneg _, by rw [l4]; exact_mod_cast hjlt⟩]
    · have c1 : y * g + g ≤ y / 8 * (g * 8) + g * 8 := by
        have h1 : (y + 1) * g ≤ (y / 8 * 8 + 8) * g := Nat.mul_le_mul_right g (by omega)
        have h2 : (y / 8 * 8 + 8) * g = y / 8 * (g * 8) + g * 8 := by ring
        have h3 : (y + 1) * g = y * g + g := Nat.succ_mul _ _
        omega
      have c2 : y / 8 * (g * 8) ≤ y * g := by
        have h1 : (y / 8 * 8) * g ≤ y * g := Nat.mul_le_mul_right g (by omega)
        have h2 : (y / 8 * 8) * g = y / 8 * (g * 8) := by ring
        omega
      have c3 : x * g + g ≤ x / 8 * (g * 8) + g * 8 := by
        have h1 : (x + 1) * g ≤ (x / 8 * 8 + 8) * g := Nat.mul_le_mul_right g (by omega)
        have h2 : (x / 8 * 8 + 8) * g = x / 8 * (g * 8) + g * 8 := by ring
        have h3 : (x + 1) * g = x * g + g := Nat.succ_mul _ _
        omega
      have c4 : x / 8 * (g * 8) ≤ x * g := by
        have h1 : (x / 8 * 8) * g ≤ x * g := Nat.mul_le_mul_right g (by omega)
        have h2 : (x / 8 * 8) * g = x / 8 * (g * 8) := by ring
        omega
      intro y' x' hin
      unfold InArea at hin ⊢
      dsimp only at hin ⊢
      generalize y / 8 * (g * 8) = q1 at *
      generalize x / 8 * (g * 8) = q2 at *
      generalize y * g = q3 at *
      generalize x * g = q4 at *
      clear hn hn8 tg tl ag al hl hL l1 l2 l3 l4 cQ cP cQ8 cP8 d8 hjlt jd jm hmul hi' hi hag hal
      omega
    · unfold groupPosInLFGroup
      rw [l1, e, Res.bind_ok, l2, gridLocation_ok hs80 hs8b (Nat.lt_trans hjlt hn8), Res.bind_ok, jd, jm]
      dsimp only
      have e1 : ((y / 8 : Nat) : Int) * 8 = ((y / 8 * 8 : Nat) : Int) := by omega
      have e2 : ((x / 8 : Nat) : Int) * 8 = ((x / 8 * 8 : Nat) : Int) := by omega
      have e3 : (y : Int) - ((y / 8 * 8 : Nat) : Int) = ((y % 8 : Nat) : Int) := by omega
      have e4 : (x : Int) - ((x / 8 * 8 : Nat) : Int) = ((x % 8 : Nat) : Int) := by omega
      rw [e1, e2, i32_ofNat (by omega), i32_ofNat (by omega), e3, e4, i32_ofNat (by omega), i32_ofNat (by omega)]
    · dsimp only
      rw [← Int.natCast_mul, ← Int.natCast_add]
      have h1 : (y / 8 * 8 + y % 8) * g = y / 8 * (g * 8) + y % 8 * g := by ring
      have h2 : y / 8 * 8 + y % 8 = y := Nat.div_add_mod' y 8
      rw [← h1, h2]
    · dsimp only
      rw [← Int.natCast_mul, ← Int.natCast_add]
      have h1 : (x / 8 * 8 + x % 8) * g = x / 8 * (g * 8) + x % 8 * g := by ring
      have h2 : x / 8 * 8 + x % 8 = x := Nat.div_add_mod' x 8
      rw [← h1, h2]

/-- The part of a channel in a group. -/
theorem channelTile_ok (groupDim height width vshift hshift : Nat) (hg : groupDim ≤ 1024) (hv : 0 < groupDim >>> vshift) (hh : 0 < groupDim >>> hshift)
    (h0 : 0 < height) (h1 : height < 2147483648) (w0 : 0 < width) (w1 : width < 2147483648)
    (hn : ((width - 1) / (groupDim >>> hshift) + 1) * ((height - 1) / (groupDim >>> vshift) + 1) < 4294967296) (i : Nat)
    (hi : i < ((width - 1) / (groupDim >>> hshift) + 1) * ((height - 1) / (groupDim >>> vshift) + 1)) :
    channelTile groupDim height width vshift hshift i = .ok ⟨(i / ((width - 1) / (groupDim >>> hshift) + 1) * (groupDim >>> vshift) : Nat),
      (i % ((width - 1) / (groupDim >>> hshift) + 1) * (groupDim >>> hshift) : Nat),
      min (groupDim >>> vshift) (height - i / ((width - 1) / (groupDim >>> hshift) + 1) * (groupDim >>> vshift)),
      min (groupDim >>> hshift) (width - i % ((width - 1) / (groupDim >>> hshift) + 1) * (groupDim >>> hshift))⟩ := by
  unfold channelTile
  dsimp only
  rw [ceilDiv_ok w0 (by omega) hh, Res.bind_ok, if_neg (Nat.succ_ne_zero _)]
  generalize groupDim >>> vshift = gh at *
  generalize groupDim >>> hshift = gw at *
  have a1 : i / ((width - 1) / gw + 1) < (height - 1) / gh + 1 := Nat.div_lt_of_lt_mul hi
  have a2 : i % ((width - 1) / gw + 1) < (width - 1) / gw + 1 := Nat.mod_lt _ (Nat.succ_pos _)
  have b1 : i / ((width - 1) / gw + 1) * gh < height := by
    have h3 := Nat.mul_le_mul_right gh (Nat.le_of_lt_succ a1)
    have h4 := Nat.div_mul_le_self (height - 1) gh
    generalize i / ((width - 1) / gw + 1) * gh = a at *
    generalize (height - 1) / gh * gh = b at *
    omega
  have b2 : i % ((width - 1) / gw + 1) * gw < width := by
    have h3 := Nat.mul_le_mul_right gw (Nat.le_of_lt_succ a2)
    have h4 := Nat.div_mul_le_self (width - 1) gw
    generalize i % ((width - 1) / gw + 1) * gw = a at *
    generalize (width - 1) / gw * gw = b at *
    omega
  generalize i / ((width - 1) / gw + 1) * gh = y at *
  generalize i % ((width - 1) / gw + 1) * gw = x at *
  have u1 : u32 y = y := Nat.mod_eq_of_lt (by omega)
  have u2 : u32 x = x := Nat.mod_eq_of_lt (by omega)
  rw [u1, u2, i32_ofNat (by omega), i32_ofNat (by omega), toU32_nat (by omega), toU32_nat (by omega)]
  have s1 : subU32 height y = height - y := by
    unfold subU32
    rw [u1]
    unfold u32
    omega
  have s2 : subU32 width x = width - x := by
    unfold subU32
    rw [u2]
    unfold u32
    omega
  rw [s1, s2, Nat.min_comm, Nat.min_comm (width - x)]

/-- The parts of a channel that the groups decode tile the channel. For a channel of the size and shifts that a colour channel has after `hshift` horizontal and `vshift`
vertical halvings there are as many parts as groups. -/
theorem C26_channel_partial (groupDim height width vshift hshift : Nat) (hg : groupDim ≤ 1024) (hv : 0 < groupDim >>> vshift) (hh : 0 < groupDim >>> hshift)
    (h0 : 0 < height) (h1 : height < 2147483648) (w0 : 0 < width) (w1 : width < 2147483648)
    (hn : ((width - 1) / (groupDim >>> hshift) + 1) * ((height - 1) / (groupDim >>> vshift) + 1) < 4294967296) :
    Tiles height width (groupDim >>> vshift) (groupDim >>> hshift)
      (((width - 1) / (groupDim >>> hshift) + 1) * ((height - 1) / (groupDim >>> vshift) + 1)) (fun i => channelTile groupDim height width vshift hshift i) := by
  exact (grid_tiles height width _ _ h0 w0 hv hh).congr (channelTile_ok groupDim height width vshift hshift hg hv hh h0 h1 w0 w1 hn)

/-- The number of parts of a halved channel is the number of groups of the frame. -/
theorem C26_channel_count (d g k : Nat) (hd : 0 < d) (hg : 2 ^ k ∣ g) (hg0 : 0 < g) :
    ((d - 1) / 2 ^ k + 1 - 1) / (g >>> k) + 1 = (d - 1) / g + 1 := by
  obtain ⟨m, rfl⟩ := hg
  rw [Nat.shiftRight_eq_div_pow, Nat.mul_div_cancel_left m (Nat.two_pow_pos k), Nat.add_sub_cancel, Nat.div_div_eq_div_mul]

/-- Copying the parts that the groups have decoded into a channel puts the channel together, whatever was in it before. -/
theorem C26_reassembled {α : Type} (H W gh gw n : Nat) (area : Nat → Res Area) (ht : Tiles H W gh gw n area) (pic buf : List (List α)) (hp : Table H W pic)
    (hb : Table H W buf) (ts : List (Area × List (List α))) (hlen : ts.length = n)
    (hts : ∀ i t, ts[i]? = some t → area i = .ok t.1 ∧ CutFrom pic t.1 t.2) : pasteGroups ts buf = .ok pic := by
  obtain ⟨out, e1, e2, e3⟩ := pasteGroups_ok pic ts buf hb (by
    intro t hmem
    obtain ⟨i, hi⟩ := List.mem_iff_getElem?.mp hmem
    obtain ⟨ea, hc⟩ := hts i t hi
    obtain ⟨a, ea', _, _, _, _, r⟩ := ht.1 i (by rw [← hlen]; exact getElem?_lt hi)
    rw [ea] at ea'
    cases ea'
    exact ⟨hc, r⟩)
  rw [e1]
  congr 1
  refine Table.ext e2 hp ?_
  intro y x hy hx
  apply e3
  right
  obtain ⟨i, hi, ⟨a, ea, hin⟩, _⟩ := ht.2 y x hy hx
  have hi' : i < ts.length := by rw [hlen]; exact hi
  refine ⟨ts[i], List.getElem_mem hi', ?_⟩
  obtain ⟨ea', _⟩ := hts i ts[i] (List.getElem?_eq_getElem hi')
  rw [ea] at ea'
  cases ea'
  exact hin

/-- LF groups are not put together this way: each is copied to the left end of its rows. A channel of one row, cut into two LF groups, comes out with the second one
at the left and nothing at the right. -/
theorem C26_lf_groups_wrong : pasteGroups [(⟨0, 0, 1, 2⟩, [[1, 2]]), (⟨0, 2, 1, 2⟩, [[3, 4]])] [[0, 0, 0, 0]] = .ok [[1, 2, 3, 4]] ∧
    pasteLFGroups [(⟨0, 0, 1, 2⟩, [[1, 2]]), (⟨0, 2, 1, 2⟩, [[3, 4]])] [[0, 0, 0, 0]] = .ok [[3, 4, 0, 0]] := ⟨rfl, rfl⟩

/-- If a channel has been halved so often that a group would have no column of it, decoding a group crashes. -/
theorem C26_shift_panics (groupDim height width vshift hshift id : Nat) (h : groupDim >>> hshift = 0) :
    channelTile groupDim height width vshift hshift id = .panic := by
  unfold channelTile ceilDiv
  dsimp only
  rw [if_pos h]
  rfl

/-- A frame of a given size, with groups of 256 pixels. -/
def frameSized (w h : Nat) : FrameHeader := { frameAt 0 0 ⟨0, 0, false, 0⟩ [] with size := ⟨w, h⟩ }

/-- An empty frame has millions of groups, a frame of 2^24 by 2^24 pixels has none. -/
theorem C26_counts_wrong : frameLayout (frameSized 0 256) = .ok ⟨16777216, 2097152, 16777216, 2097152⟩ ∧
    frameLayout (frameSized 16777216 16777216) = .ok ⟨65536, 8192, 0, 67108864⟩ := by decide

theorem OnOk.if' {α : Type} {b : Bool} {m : Rd α} {d : α} {Q : α → Prop} (h : OnOk m Q) (hd : Q d) : OnOk (readIf b m d) Q := by
  unfold readIf
  split
  · exact h
  · exact OnOk.pure hd

theorem OnOk.list {α : Type} {m : Rd α} {Q : α → Prop} (h : OnOk m Q) : ∀ n, OnOk (readList m n) (fun l => ∀ a ∈ l, Q a) := by
  intro n
  induction n with
  | zero => exact OnOk.pure (fun a ha => by cases ha)
  | succ n ih =>
    unfold readList
    refine OnOk.bind h (fun a ha => OnOk.bind ih (fun l hl => OnOk.pure ?_))
    intro x hx
    rcases List.mem_cons.mp hx with rfl | hx
    · exact ha
    · exact hl x hx

/-- Every frame header that is read has the dimensions and shifts that the theorems above assume. -/
theorem C26_headers (xyb : Bool) (nec : Nat) (image : Dim) (s s' : BR) (h : FrameHeader) (hr : readFrameHeader xyb nec image s = (.ok h, s')) :
    (∃ k, k < 4 ∧ h.groupDim = 128 <<< k) ∧ h.lfGroupDim = h.groupDim <<< 3 ∧ (∀ v ∈ h.jpegX, v ≤ 1) ∧ (∀ v ∈ h.jpegY, v ≤ 1) := by
  suffices key : OnOk (readFrameHeader xyb nec image) (fun h => (∃ k, k < 4 ∧ h.groupDim = 128 <<< k) ∧ h.lfGroupDim = h.groupDim <<< 3 ∧
      (∀ v ∈ h.jpegX, v ≤ 1) ∧ (∀ v ∈ h.jpegY, v ≤ 1)) from key s h s' hr
  unfold readFrameHeader
  refine OnOk.bind (OnOk.trivial _) (fun ad _ => OnOk.bind (OnOk.trivial _) (fun k _ => OnOk.bind (OnOk.trivial _) (fun ycc _ => ?_)))
  have hmode : OnOk readJpegMode (fun m => m.1 ≤ 1 ∧ m.2 ≤ 1) := by
    unfold readJpegMode
    refine OnOk.bind (OnOk.trivial _) (fun m _ => OnOk.pure ?_)
    split
    · decide
    · split
      · decide
      · split <;> decide
  refine OnOk.bind (OnOk.if' (OnOk.list hmode 3) (by decide)) (fun ms hms => OnOk.bind (OnOk.trivial _) (fun ups _ => ?_))
  refine OnOk.bind (P := fun v => v < 4) (OnOk.if' (safe_bits 2).onOk (by decide)) (fun gss hgss => ?_)
  dsimp only
  refine OnOk.bind (OnOk.trivial _) (fun _ _ => OnOk.bind (OnOk.trivial _) (fun _ _ => OnOk.bind (OnOk.trivial _) (fun _ _ => OnOk.bind (OnOk.trivial _) (fun _ _ =>
    OnOk.bind (OnOk.trivial _) (fun _ _ => OnOk.bind (OnOk.trivial _) (fun _ _ => OnOk.bind (OnOk.trivial _) (fun _ _ => OnOk.bind (OnOk.trivial _) (fun _ _ =>
    OnOk.bind (OnOk.trivial _) (fun _ _ => OnOk.bind (OnOk.trivial _) (fun _ _ => OnOk.bind (OnOk.trivial _) (fun _ _ => OnOk.bind (OnOk.trivial _) (fun _ _ =>
    OnOk.bind (OnOk.trivial _) (fun _ _ => OnOk.bind (OnOk.trivial _) (fun _ _ => OnOk.bind (OnOk.trivial _) (fun _ _ => OnOk.bind (OnOk.trivial _) (fun _ _ =>
    OnOk.bind (OnOk.trivial _) (fun _ _ => OnOk.pure ?_)))))))))))))))))
  have hb : ∀ (p : Nat × Nat → Nat), (∀ m ∈ ms, p m ≤ 1) → ∀ v ∈ ms.map (fun m => maxList (ms.map p) - p m), v ≤ 1 := by
    intro p hp v hv
    obtain ⟨m, _, rfl⟩ := List.mem_map.mp hv
    have := maxList_le (ms.map p) 1 (by
      intro v hv
      obtain ⟨m, hm, rfl⟩ := List.mem_map.mp hv
      exact hp m hm)
    omega
  exact ⟨⟨gss, hgss, rfl⟩, rfl, hb (·.1) (fun m hm => (hms m hm).1), hb (·.2) (fun m hm => (hms m hm).2)⟩

/-- A frame of 1000 by 700 pixels meets the hypotheses of `C26_groups_partial`. -/
example : Framed (frameSized 1000 700) ∧ ((1000 - 1) / 256 + 1) * ((700 - 1) / 256 + 1) < 2147483648 :=
  ⟨⟨⟨1, by decide, rfl⟩, rfl, by decide, by decide, by decide, by decide⟩, by decide⟩

/-- The last group of such a frame, and its LF group. -/
example : groupArea (frameSized 1000 700) ⟨4, 1, 12, 1⟩ 11 = .ok ⟨512, 768, 188, 232⟩ ∧ lfGroupFor ⟨4, 1, 12, 1⟩ 11 = .ok 0 := by decide

end Jxl
