import Verif.Spec.VarDCTFrame
import Verif.Props.ModularCoding
import Verif.Props.GroupSamples

/-!
# Proofs: the groups of VarDCT frames
-/
namespace Jxl
open Spec

theorem varSide {d : Nat} (h0 : 0 < d) (h1 : d ≤ 2 ^ 30) : paddedFrameSide true d 0 = .ok (8 * ((d + 7) / 8)) := by
  have e0 : u32 (d + 7) >>> 3 = (d + 7) / 8 := by
    unfold u32
    rw [Nat.shiftRight_eq_div_pow, Nat.mod_eq_of_lt (by omega)]
  unfold paddedFrameSide
  rw [if_pos rfl, show 1 <<< 0 = 1 from rfl, e0, ceilDiv_ok (by omega) (by omega) (by decide), Res.bind_ok]
  unfold u32
  rw [Nat.shiftLeft_eq]
  congr 1
  omega

theorem varPadded {h : ImageHeader} {f : FrameHeader} (hp : PlainVarDCT h f) : paddedFrameSize f = .ok ⟨8 * ((f.size.width + 7) / 8), 8 * ((f.size.height + 7) / 8)⟩ := by
  unfold paddedFrameSize
  rw [hp.encoding, hp.jpegX, hp.jpegY]
  rw [show maxList [0, 0, 0] = 0 from rfl, show ((0 : Nat) == 0) = true from rfl, varSide hp.framed.height.1 hp.small.1, Res.bind_ok,
    varSide hp.framed.width.1 hp.small.2, Res.bind_ok]

/-- The numbers of groups. -/
def varLayout (f : FrameHeader) : Layout := ⟨groupsAcross 256 f.size.width, groupsAcross 2048 f.size.width, varGroups f, varLFGroups f⟩

theorem varLayout_ok {h : ImageHeader} {f : FrameHeader} (hp : PlainVarDCT h f) (hn : varGroups f < 2 ^ 31) : frameLayout f = .ok (varLayout f) := by
  have hg := hp.groups
  have := layout_ok hp.framed (by rw [hg]; exact hn)
  rw [hg] at this
  exact this

theorem across_padded {d : Nat} (h0 : 0 < d) : groupsAcross 256 (8 * ((d + 7) / 8)) = groupsAcross 256 d ∧ groupsAcross 2048 (8 * ((d + 7) / 8)) = groupsAcross 2048 d := by
  unfold groupsAcross
  omega

theorem lfAcross (d : Nat) : groupsAcross 2048 d = (groupsAcross 256 d - 1) / 8 + 1 := by
  unfold groupsAcross
  omega

/-- What is known about the groups of a frame. -/
structure VarGrid (f : FrameHeader) : Prop where
  lfPlace : ∀ i : Nat, i < varLFGroups f → gridLocation (varLayout f).lfGroupRowStride (i : Int) =
    .ok (((i / groupsAcross 2048 f.size.width : Nat) : Int), ((i % groupsAcross 2048 f.size.width : Nat) : Int))
  lfArea : ∀ i : Nat, i < varLFGroups f → ∃ a, lfGroupArea f (varLayout f) (i : Int) = .ok a ∧ a.height = 8 * lfRows f i ∧ a.width = 8 * lfCols f i
  lfSize : ∀ i : Nat, i < varLFGroups f → 0 < lfRows f i ∧ 0 < lfCols f i ∧ lfRows f i ≤ 256 ∧ lfCols f i ≤ 256
  place : ∀ g : Nat, g < varGroups f → gridLocation (varLayout f).groupRowStride (g : Int) =
    .ok (((g / groupsAcross 256 f.size.width : Nat) : Int), ((g % groupsAcross 256 f.size.width : Nat) : Int))
  area : ∀ g : Nat, g < varGroups f → ∃ a, groupArea f (varLayout f) (g : Int) = .ok a ∧ a.height = groupRows (lfRows f (lfGroupOf f g)) (placeInLF f g).1 ∧
    a.width = groupRows (lfCols f (lfGroupOf f g)) (placeInLF f g).2
  lfOf : ∀ g : Nat, g < varGroups f → lfGroupOf f g < varLFGroups f ∧ lfGroupFor (varLayout f) (g : Int) = .ok (lfGroupOf f g : Int) ∧
    groupPosInLFGroup (varLayout f) (lfGroupOf f g : Int) (g : Int) = .ok (((placeInLF f g).1 : Int), ((placeInLF f g).2 : Int))
  rows : ∀ g : Nat, g < varGroups f → lfGroupOf f g / groupsAcross 2048 f.size.width = g / groupsAcross 256 f.size.width / 8 ∧
    lfGroupOf f g % groupsAcross 2048 f.size.width = g % groupsAcross 256 f.size.width / 8 ∧
    256 * (g / groupsAcross 256 f.size.width) < 8 * ((f.size.height + 7) / 8) ∧ 256 * (g % groupsAcross 256 f.size.width) < 8 * ((f.size.width + 7) / 8)

theorem varGrid {h : ImageHeader} {f : FrameHeader} (hp : PlainVarDCT h f) (hn : varGroups f < 2 ^ 31) : VarGrid f := by
  have hh := hp.framed.height.1
  have hw := hp.framed.width.1
  have hs := hp.small
  obtain ⟨ap1, ap2⟩ := across_padded hh
  obtain ⟨aq1, aq2⟩ := across_padded hw
  have hpad := varPadded hp
  have hgd := hp.groups
  have hld : f.lfGroupDim = 2048 := by rw [hp.framed.lfDim, hgd]; rfl
  have lw := lfAcross f.size.width
  have lh := lfAcross f.size.height
  have hAw : 0 < groupsAcross 256 f.size.width := Nat.succ_pos _
  have hAh : 0 < groupsAcross 256 f.size.height := Nat.succ_pos _
  have hLw : 0 < groupsAcross 2048 f.size.width := Nat.succ_pos _
  have hn8 : varLFGroups f < 2 ^ 31 := Nat.lt_of_le_of_lt (Nat.mul_le_mul (by omega) (by omega)) hn
  have hn1 : ((8 * ((f.size.width + 7) / 8) - 1) / 256 + 1) * ((8 * ((f.size.height + 7) / 8) - 1) / 256 + 1) = varGroups f := by
    show groupsAcross 256 _ * groupsAcross 256 _ = _
    rw [ap1, aq1]
    rfl
  have hn2 : ((8 * ((f.size.width + 7) / 8) - 1) / 2048 + 1) * ((8 * ((f.size.height + 7) / 8) - 1) / 2048 + 1) = varLFGroups f := by
    show groupsAcross 2048 _ * groupsAcross 2048 _ = _
    rw [ap2, aq2]
    rfl
  have tg := area_tiles (P := 8 * ((f.size.height + 7) / 8)) (Q := 8 * ((f.size.width + 7) / 8)) (g := 256) (by decide) (by decide) (by omega) (by omega) (by omega) (by omega)
    (by rw [hn1]; exact hn)
  have tl := area_tiles (P := 8 * ((f.size.height + 7) / 8)) (Q := 8 * ((f.size.width + 7) / 8)) (g := 2048) (by decide) (by decide) (by omega) (by omega) (by omega) (by omega)
    (by rw [hn2]; exact hn8)
  rw [hn1, show (8 * ((f.size.width + 7) / 8) - 1) / 256 + 1 = groupsAcross 256 f.size.width from aq1] at tg
  rw [hn2, show (8 * ((f.size.width + 7) / 8) - 1) / 2048 + 1 = groupsAcross 2048 f.size.width from aq2] at tl
  have fact : ∀ g, g < varGroups f → lfGroupOf f g / groupsAcross 2048 f.size.width = g / groupsAcross 256 f.size.width / 8 ∧
      lfGroupOf f g % groupsAcross 2048 f.size.width = g % groupsAcross 256 f.size.width / 8 ∧ lfGroupOf f g < varLFGroups f := by
    intro g hg
    have h1 : g / groupsAcross 256 f.size.width < groupsAcross 256 f.size.height := Nat.div_lt_of_lt_mul hg
    have h2 : g % groupsAcross 256 f.size.width < groupsAcross 256 f.size.width := Nat.mod_lt _ hAw
    have h3 : g % groupsAcross 256 f.size.width / 8 < groupsAcross 2048 f.size.width := by omega
    have h4 : g / groupsAcross 256 f.size.width / 8 < groupsAcross 2048 f.size.height := by omega
    unfold lfGroupOf
    refine ⟨?_, ?_, ?_⟩
    · rw [Nat.add_comm, Nat.add_mul_div_right _ _ hLw, Nat.div_eq_of_lt h3, Nat.zero_add]
    · rw [Nat.add_comm, Nat.add_mul_mod_self_right, Nat.mod_eq_of_lt h3]
    · have h5 : (g / groupsAcross 256 f.size.width / 8 + 1) * groupsAcross 2048 f.size.width ≤ groupsAcross 2048 f.size.height * groupsAcross 2048 f.size.width := Nat.mul_le_mul_right _ h4
      rw [Nat.add_mul, Nat.one_mul] at h5
      have h7 : varLFGroups f = groupsAcross 2048 f.size.height * groupsAcross 2048 f.size.width := Nat.mul_comm _ _
      rw [h7]
      generalize groupsAcross 2048 f.size.height * groupsAcross 2048 f.size.width = a at *
      generalize g / groupsAcross 256 f.size.width / 8 * groupsAcross 2048 f.size.width = b at *
      omega
  refine ⟨?_, ?_, ?_, ?_, ?_, ?_, ?_⟩
  · intro i hi
    obtain ⟨y, x, e, ey, ex, -⟩ := tl i hi
    rw [← ey, ← ex]
    exact e
  · intro i hi
    obtain ⟨y, x, e, ey, ex, hy, hx, ea⟩ := tl i hi
    refine ⟨⟨(y * 2048 : Nat), (x * 2048 : Nat), min 2048 (8 * ((f.size.height + 7) / 8) - y * 2048), min 2048 (8 * ((f.size.width + 7) / 8) - x * 2048)⟩, ?_, ?_⟩
    · unfold lfGroupArea
      rw [show (varLayout f).lfGroupRowStride = groupsAcross 2048 f.size.width from rfl, e, Res.bind_ok, hpad, Res.bind_ok, hld]
      dsimp only
      rw [ea]
    · unfold lfRows lfCols
      rw [← ey, ← ex]
      dsimp only
      omega
  · intro i hi
    obtain ⟨y, x, e, ey, ex, hy, hx, ea⟩ := tl i hi
    unfold lfRows lfCols
    rw [← ey, ← ex]
    omega
  · intro i hi
    obtain ⟨y, x, e, ey, ex, -⟩ := tg i hi
    rw [← ey, ← ex]
    exact e
  · intro g hg
    obtain ⟨y, x, e, ey, ex, hy, hx, ea⟩ := tg g hg
    obtain ⟨f1, f2, f3⟩ := fact g hg
    refine ⟨⟨(y * 256 : Nat), (x * 256 : Nat), min 256 (8 * ((f.size.height + 7) / 8) - y * 256), min 256 (8 * ((f.size.width + 7) / 8) - x * 256)⟩, ?_, ?_⟩
    · unfold groupArea
      rw [show (varLayout f).groupRowStride = groupsAcross 256 f.size.width from rfl, e, Res.bind_ok, hpad, Res.bind_ok, hgd]
      dsimp only
      rw [ea]
    · unfold lfRows lfCols groupRows placeInLF
      rw [f1, f2, ← ey, ← ex]
      dsimp only
      omega
  · intro g hg
    obtain ⟨y, x, e, ey, ex, hy, hx, ea⟩ := tg g hg
    obtain ⟨f1, f2, f3⟩ := fact g hg
    have hjl := tl _ f3
    obtain ⟨y', x', e', ey', ex', -⟩ := hjl
    rw [f1] at ey'
    rw [f2] at ex'
    refine ⟨f3, ?_, ?_⟩
    · unfold lfGroupFor
      rw [show (varLayout f).groupRowStride = groupsAcross 256 f.size.width from rfl, e, Res.bind_ok, show (varLayout f).lfGroupRowStride = groupsAcross 2048 f.size.width from rfl]
      dsimp only
      have hb : groupsAcross 2048 f.size.width < 2147483648 := by unfold groupsAcross; omega
      have e1 : (y : Int) / 8 = ((y / 8 : Nat) : Int) := by omega
      have e2 : (x : Int) / 8 = ((x / 8 : Nat) : Int) := by omega
      have e3 : lfGroupOf f g = y / 8 * groupsAcross 2048 f.size.width + x / 8 := by rw [ey, ex]; rfl
      have hmul : y / 8 * groupsAcross 2048 f.size.width ≤ lfGroupOf f g := by rw [e3]; exact Nat.le_add_right _ _
      rw [i32_ofNat hb, e1, e2, ← Int.natCast_mul, i32_ofNat (Nat.lt_of_le_of_lt hmul (Nat.lt_trans f3 hn8)), ← Int.natCast_add, ← e3,
        i32_ofNat (Nat.lt_trans f3 hn8), if_pos ⟨Int.natCast_nonneg _, by exact_mod_cast f3⟩]
    · unfold groupPosInLFGroup
      rw [show (varLayout f).groupRowStride = groupsAcross 256 f.size.width from rfl, e, Res.bind_ok, show (varLayout f).lfGroupRowStride = groupsAcross 2048 f.size.width from rfl, e', Res.bind_ok]
      dsimp only
      have e1 : (y' : Int) * 8 = ((y' * 8 : Nat) : Int) := by omega
      have e2 : (x' : Int) * 8 = ((x' * 8 : Nat) : Int) := by omega
      have e3 : (y : Int) - ((y' * 8 : Nat) : Int) = ((placeInLF f g).1 : Int) := by
        unfold placeInLF
        rw [← ey]
        rw [← ey] at ey'
        dsimp only
        omega
      have e4 : (x : Int) - ((x' * 8 : Nat) : Int) = ((placeInLF f g).2 : Int) := by
        unfold placeInLF
        rw [← ex]
        rw [← ex] at ex'
        dsimp only
        omega
      have b1 : (placeInLF f g).1 < 8 := Nat.mod_lt _ (by decide)
      have b2 : (placeInLF f g).2 < 8 := Nat.mod_lt _ (by decide)
      have b3 : y' * 8 < 2147483648 := by rw [← ey] at ey'; omega
      have b4 : x' * 8 < 2147483648 := by rw [← ex] at ex'; omega
      rw [e1, e2, i32_ofNat b3, i32_ofNat b4, e3, e4, i32_ofNat (by omega), i32_ofNat (by omega)]
  · intro g hg
    obtain ⟨y, x, e, ey, ex, hy, hx, ea⟩ := tg g hg
    obtain ⟨f1, f2, f3⟩ := fact g hg
    refine ⟨f1, f2, ?_, ?_⟩
    · rw [← ey]; omega
    · rw [← ex]; omega

end Jxl
