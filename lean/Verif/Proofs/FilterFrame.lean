import Verif.Model.VarDCTFrame
import Verif.Props.Filters
import Verif.Proofs.VarDCTLF

/-!
# Proofs: the filters of VarDCT frames
-/
namespace Jxl
open Spec

/-- The planes of a VarDCT frame: floats, rounded up to whole blocks. -/
def varBuffer (f : FrameHeader) (m : List (List F32)) : ImageBuffer := ⟨8 * ((f.size.width + 7) / 8) , 8 * ((f.size.height + 7) / 8), 1, m, []⟩

/-- A number of goroutines that fits, and orders of their steps. -/
structure FilterParts.Ok {α : Type} (Q : FilterParts α) : Prop where
  goroutines : Q.goroutines ≤ 2 ^ 30
  gab : ∀ (f : FrameHeader) (c : Nat) workers, gabWorkers ((8 * ((f.size.height + 7) / 8) : Nat) : Int) ((8 * ((f.size.width + 7) / 8) : Nat) : Int) Q.goroutines = .ok workers → Interleaving workers (Q.gabOrder f c)
  epf : ∀ (f : FrameHeader) (pass : Nat) workers, epfWorkers ((8 * ((f.size.height + 7) / 8) : Nat) : Int) ((8 * ((f.size.width + 7) / 8) : Nat) : Int) 3 Q.goroutines = .ok workers → Interleaving workers (Q.epfOrder f pass)

theorem varBuffer_size (f : FrameHeader) (m : List (List F32)) : (varBuffer f m).height = ((8 * ((f.size.height + 7) / 8) : Nat) : Int) ∧ (varBuffer f m).width = ((8 * ((f.size.width + 7) / 8) : Nat) : Int) := by
  unfold varBuffer
  constructor
  · dsimp only
    omega
  · dsimp only
    omega

theorem newFloats_ok {h w : Nat} (hh : h ≤ 2 ^ 30) (hw : w ≤ 2 ^ 30) : ∃ nb, newImageBuffer 1 (h : Int) (w : Int) = .ok nb ∧ Table h w nb.floats := by
  unfold newImageBuffer
  rw [if_neg (by omega), if_neg (by omega), if_neg (by decide), makeMatrix_table, Res.bind_ok]
  exact ⟨_, rfl, table_replicate _ _ _⟩

theorem gabBuffer_ok (A : Arith F32) {Q : FilterParts F32} (hQ : Q.Ok) {f : FrameHeader} (hf : f.size.height + 8 ≤ 2 ^ 30) (hfw : f.size.width ≤ 2 ^ 30) (depth : Nat) (w1 w2 : F32) (c : Nat) {m : List (List F32)} {p : Nat → Nat → F32}
    (hm : HoldsPlane (8 * ((f.size.height + 7) / 8)) (8 * ((f.size.width + 7) / 8)) p m) :
    ∃ m', gabBuffer A Q.goroutines depth w1 w2 (Q.gabOrder f c) (varBuffer f m) = .ok (varBuffer f m') ∧
      HoldsPlane (8 * ((f.size.height + 7) / 8)) (8 * ((f.size.width + 7) / 8)) (fun y x => gabValue w1 w2 (8 * ((f.size.height + 7) / 8)) (8 * ((f.size.width + 7) / 8)) p y x) m' := by
  obtain ⟨eh, ew⟩ := varBuffer_size f m
  obtain ⟨nb, e1, t1⟩ := newFloats_ok (h := 8 * ((f.size.height + 7) / 8)) (w := 8 * ((f.size.width + 7) / 8)) (by omega) (by omega)
  obtain ⟨ws, e2, r⟩ := C27_gab w1 w2 (h := 8 * ((f.size.height + 7) / 8)) (w := 8 * ((f.size.width + 7) / 8)) (by omega) (mg := Q.goroutines) (by have := hQ.goroutines; omega) hm t1
  obtain ⟨m', e3, h3⟩ := r _ (hQ.gab f c ws e2)
  refine ⟨m', ?_, h3⟩
  unfold gabBuffer castToFloatIfMax
  rw [if_pos (by rfl), Res.bind_ok, eh, ew, e1, Res.bind_ok, e2, Res.bind_ok, show (varBuffer f m).floats = m from rfl, e3, Res.bind_ok]
  rfl

/-- Three planes of a frame. -/
abbrev Planes3 {β : Type} (f : FrameHeader) (p : Nat → Nat → Nat → β) (a b c : List (List β)) : Prop :=
  HoldsPlane (8 * ((f.size.height + 7) / 8)) (8 * ((f.size.width + 7) / 8)) (p 0) a ∧ HoldsPlane (8 * ((f.size.height + 7) / 8)) (8 * ((f.size.width + 7) / 8)) (p 1) b ∧
    HoldsPlane (8 * ((f.size.height + 7) / 8)) (8 * ((f.size.width + 7) / 8)) (p 2) c

theorem performGab_ok (A : Arith F32) {ex : List ImageBuffer} {Q : FilterParts F32} (hQ : Q.Ok) {h : ImageHeader} {f : FrameHeader} (hp : PlainVarDCT h f) (hf : f.size.height + 8 ≤ 2 ^ 30)
    (hn : frameColourCount h f.encoding = 3) {p : Nat → Nat → Nat → F32} {a b c : List (List F32)} (H : Planes3 f p a b c) :
    ∃ a' b' c', performGab A Q h f (varBuffer f a :: varBuffer f b :: varBuffer f c :: ex) = .ok (varBuffer f a' :: varBuffer f b' :: varBuffer f c' :: ex) ∧
      Planes3 f (fun c y x => gabValue (Arith.lit (f.restoration.gab1.getD c 0)) (Arith.lit (f.restoration.gab2.getD c 0)) (8 * ((f.size.height + 7) / 8)) (8 * ((f.size.width + 7) / 8)) (p c) y x) a' b' c' := by
  obtain ⟨l1, l2, -, -⟩ := hp.restoration
  have i1 : ∀ c : Nat, c < 3 → idx f.restoration.gab1 (c : Int) = .ok (f.restoration.gab1.getD c 0) := fun c hc => idx_nat _ _ _ (by
    rw [List.getElem?_eq_getElem (by omega), List.getD_eq_getElem?_getD, List.getElem?_eq_getElem (by omega)]; rfl)
  have i2 : ∀ c : Nat, c < 3 → idx f.restoration.gab2 (c : Int) = .ok (f.restoration.gab2.getD c 0) := fun c hc => idx_nat _ _ _ (by
    rw [List.getElem?_eq_getElem (by omega), List.getD_eq_getElem?_getD, List.getElem?_eq_getElem (by omega)]; rfl)
  have key := fun (c : Nat) {m : List (List F32)} {q : Nat → Nat → F32} (hm : HoldsPlane (8 * ((f.size.height + 7) / 8)) (8 * ((f.size.width + 7) / 8)) q m) =>
    gabBuffer_ok A hQ hf hp.small.2 h.bitDepth.bits (Arith.lit (f.restoration.gab1.getD c 0)) (Arith.lit (f.restoration.gab2.getD c 0)) c hm
  obtain ⟨a', ea, ha⟩ := key 0 H.1
  obtain ⟨b', eb, hb⟩ := key 1 H.2.1
  obtain ⟨c', ec, hc⟩ := key 2 H.2.2
  refine ⟨a', b', c', ?_, ha, hb, hc⟩
  unfold performGab
  rw [hn, forFrom, i1 0 (by omega), Res.bind_ok, i2 0 (by omega), Res.bind_ok]
  have o0 : onBuffer (gabBuffer A Q.goroutines h.bitDepth.bits (Arith.lit (f.restoration.gab1.getD 0 0)) (Arith.lit (f.restoration.gab2.getD 0 0)) (Q.gabOrder f 0)) 0
      (varBuffer f a :: varBuffer f b :: varBuffer f c :: ex) = .ok (varBuffer f a' :: varBuffer f b :: varBuffer f c :: ex) := by
    unfold onBuffer
    rw [(by rfl : idx _ _ = Res.ok (varBuffer f a)), Res.bind_ok, ea, Res.bind_ok]
    rfl
  have o1 : onBuffer (gabBuffer A Q.goroutines h.bitDepth.bits (Arith.lit (f.restoration.gab1.getD 1 0)) (Arith.lit (f.restoration.gab2.getD 1 0)) (Q.gabOrder f 1)) 1
      (varBuffer f a' :: varBuffer f b :: varBuffer f c :: ex) = .ok (varBuffer f a' :: varBuffer f b' :: varBuffer f c :: ex) := by
    unfold onBuffer
    rw [(by rfl : idx _ _ = Res.ok (varBuffer f b)), Res.bind_ok, eb, Res.bind_ok]
    rfl
  have o2 : onBuffer (gabBuffer A Q.goroutines h.bitDepth.bits (Arith.lit (f.restoration.gab1.getD 2 0)) (Arith.lit (f.restoration.gab2.getD 2 0)) (Q.gabOrder f 2)) 2
      (varBuffer f a' :: varBuffer f b' :: varBuffer f c :: ex) = .ok (varBuffer f a' :: varBuffer f b' :: varBuffer f c' :: ex) := by
    unfold onBuffer
    rw [(by rfl : idx _ _ = Res.ok (varBuffer f c)), Res.bind_ok, ec, Res.bind_ok]
    rfl
  rw [o0, Res.bind_ok, forFrom, i1 1 (by omega), Res.bind_ok, i2 1 (by omega), Res.bind_ok, o1, Res.bind_ok, forFrom, i1 2 (by omega), Res.bind_ok, i2 2 (by omega), Res.bind_ok, o2, Res.bind_ok]
  rfl

section
variable {α : Type} [Arith α]

theorem epfLoop_ok {h w n : Nat} (hh : h < 2 ^ 30) (h0 : 0 < h) (w0 : 0 < w) {mg : Int} (hm : mg + h < 2 ^ 31) (p : EPF α)
    (p1 : p.height = h) (p2 : p.width = w) (sg : Nat → α) {scale : Nat → α} {s : Nat → Nat → α}
    (hl : n ≤ p.scales.length) (hs : ∀ i v, p.scales[i]? = some v → v = scale i)
    (hi : ∀ y x, y < h → x < w → sample p.inverseSigma (y / 8) (x / 8) = some (s (y / 8) (x / 8)))
    (order : Nat → List ((Int × Int) × Nat)) (hord : ∀ pass workers, epfWorkers h w n mg = .ok workers → Interleaving workers (order pass)) :
    ∀ (passes : List Nat) (f : Nat → Nat → Nat → α) (bufs outs : List (List (List α))), bufs.length = n → outs.length = n → (∀ b ∈ outs, Table h w b) →
      (∀ (c : Nat) b, bufs[c]? = some b → HoldsPlane h w (f c) b) →
      ∃ out, epfLoop p sg n mg order passes bufs outs = .ok out ∧ out.length = n ∧ ∀ (c : Nat) b, out[c]? = some b →
        HoldsPlane h w (epfAll n h w scale p.borderSadMul s sg passes f c) b
  | [], f, bufs, outs, hn, _, _, hb => ⟨bufs, rfl, hn, hb⟩
  | pass :: passes, f, bufs, outs, hn, ho, ht, hb => by
    subst hn
    obtain ⟨ws, e1, e2⟩ := C27_epf hh h0 w0 hm p p1 p2 pass (sg pass) hl hs hi hb ht ho
    obtain ⟨o, r1, r2, r3⟩ := e2 _ (hord pass ws e1)
    obtain ⟨o', u1, u2, u3⟩ := epfLoop_ok hh h0 w0 hm p p1 p2 sg hl hs hi order hord passes _ o bufs r2 rfl (fun b hb' => by
      obtain ⟨c, hc⟩ := List.mem_iff_getElem?.1 hb'
      exact (hb c b hc).1) r3
    refine ⟨o', ?_, u2, u3⟩
    rw [epfLoop, p1, p2, e1, Res.bind_ok, r1, Res.bind_ok]
    exact u1

theorem passScale_eq (f : FrameHeader) (step : α) : epfSigmaScale step (Arith.lit f.restoration.pass0) (Arith.lit f.restoration.pass2) = passScale f step := by
  funext k
  unfold epfSigmaScale passScale
  match k with
  | 0 => rfl
  | 1 => rfl
  | 2 => rfl
  | k + 3 =>
    rw [if_neg (by omega), if_neg (by omega)]
    rfl

theorem filterPasses_eq {n : Nat} (h : 0 < n) : epfPasses n = filterPasses n := by
  match n, h with
  | 1, _ => rfl
  | 2, _ => rfl
  | n + 3, _ =>
    unfold epfPasses filterPasses
    rw [if_neg (by omega), if_neg (by omega)]
    rfl

end

theorem performEPF_ok (A : Arith F32) {ex : List ImageBuffer} {Q : FilterParts F32} (hQ : Q.Ok) {h : ImageHeader} {f : FrameHeader} (hp : PlainVarDCT h f) (hf : f.size.height + 8 ≤ 2 ^ 30)
    (hn : frameColourCount h f.encoding = 3) (hpad : paddedFrameSize f = .ok ⟨8 * ((f.size.width + 7) / 8), 8 * ((f.size.height + 7) / 8)⟩) (hit : 0 < f.restoration.iterations)
    {s : Nat → Nat → F32} {sig : List (List F32)}
    (hs : HoldsMat ((f.size.height + 7) / 8) ((f.size.width + 7) / 8) s sig) {p : Nat → Nat → Nat → F32} {a b c : List (List F32)} (H : Planes3 f p a b c) :
    ∃ a' b' c', performEPF A Q h f (.ok sig) (varBuffer f a :: varBuffer f b :: varBuffer f c :: ex) = .ok (varBuffer f a' :: varBuffer f b' :: varBuffer f c' :: ex) ∧
      Planes3 f (epfAll 3 (8 * ((f.size.height + 7) / 8)) (8 * ((f.size.width + 7) / 8)) (fun c => Arith.lit (f.restoration.channelScale.getD c 0)) (Arith.lit f.restoration.borderSad) s
        (passScale f Q.stepMultiplier) (filterPasses f.restoration.iterations) p) a' b' c' := by
  obtain ⟨-, -, l3, -⟩ := hp.restoration
  have hfw := hp.small.2
  have h0 := hp.framed.height.1
  have w0 := hp.framed.width.1
  obtain ⟨nb, e1, t1⟩ := newFloats_ok (h := 8 * ((f.size.height + 7) / 8)) (w := 8 * ((f.size.width + 7) / 8)) (by omega) (by omega)
  obtain ⟨out, e2, l2, h2⟩ := epfLoop_ok (h := 8 * ((f.size.height + 7) / 8)) (w := 8 * ((f.size.width + 7) / 8)) (n := 3) (by omega) (by omega) (by omega) (mg := Q.goroutines)
    (by have := hQ.goroutines; omega)
    (⟨((8 * ((f.size.height + 7) / 8) : Nat) : Int), ((8 * ((f.size.width + 7) / 8) : Nat) : Int), f.restoration.channelScale.map A.lit, A.lit f.restoration.borderSad, sig⟩ : EPF F32) rfl rfl
    (passScale f Q.stepMultiplier) (scale := fun c => Arith.lit (f.restoration.channelScale.getD c 0)) (s := s) (by
      dsimp only
      rw [List.length_map, l3]) (by
      intro i v hv
      dsimp only at hv
      rw [List.getElem?_map] at hv
      obtain ⟨q, hq, rfl⟩ := Option.map_eq_some_iff.1 hv
      rw [List.getD_eq_getElem?_getD, hq]
      rfl) (by
      intro y x hy hx
      exact hs.2 _ _ (by omega) (by omega)) (Q.epfOrder f) (fun pass ws e => hQ.epf f pass ws e) (filterPasses f.restoration.iterations) p [a, b, c] (List.replicate 3 nb.floats) rfl rfl
      (fun m hm => by rw [List.eq_of_mem_replicate hm]; exact t1) (by
      intro k m hk
      match k, hk with
      | 0, hk => cases hk; exact H.1
      | 1, hk => cases hk; exact H.2.1
      | 2, hk => cases hk; exact H.2.2)
  obtain ⟨a', b', c', rfl⟩ : ∃ a b c, out = [a, b, c] := by
    match out, l2 with
    | [a, b, c], _ => exact ⟨a, b, c, rfl⟩
  refine ⟨a', b', c', ?_, h2 0 a' rfl, h2 1 b' rfl, h2 2 c' rfl⟩
  unfold performEPF
  rw [hpad, Res.bind_ok, Res.bind_ok, hn]
  dsimp only
  have ec : forFrom (fun c bufs => onBuffer (fun b => castToFloatIfMax b (mask32 h.bitDepth.bits)) c bufs) 3 0 (varBuffer f a :: varBuffer f b :: varBuffer f c :: ex) =
      .ok (varBuffer f a :: varBuffer f b :: varBuffer f c :: ex) := rfl
  rw [ec, Res.bind_ok, i32_ofNat (by omega), i32_ofNat (by omega), e1, Res.bind_ok, passScale_eq, filterPasses_eq hit]
  have e2' : epfLoop (⟨((8 * ((f.size.height + 7) / 8) : Nat) : Int), ((8 * ((f.size.width + 7) / 8) : Nat) : Int), f.restoration.channelScale.map A.lit, A.lit f.restoration.borderSad, sig⟩ : EPF F32)
      (passScale f Q.stepMultiplier) 3 Q.goroutines (Q.epfOrder f) (filterPasses f.restoration.iterations) (((varBuffer f a :: varBuffer f b :: varBuffer f c :: ex).take 3).map ImageBuffer.floats)
      (List.replicate 3 nb.floats) = .ok [a', b', c'] := e2
  rw [e2', Res.bind_ok]
  rfl

/-! ## Sigmas -/

section
variable {α : Type} [Arith α]

theorem blockSigma_ok {f : FrameHeader} {F : CodedFrame} (hok : F.Ok f) (hit : 0 < f.restoration.iterations) (hl8 : f.restoration.sharp.length = 8) {lfgs : List (VarLFGroup α)} {i : Nat} (hi : i < varLFGroups f)
    (hr : lfRows f i ≤ 256) (hc : lfCols f i ≤ 256) {v : VarLFGroup α} (hv : lfgs[i]? = some v) (hL : LFDecoded F f i v) {b : Block} (hb : b ∈ F.blocks i) {y x : Nat} (hcov : b.Covers y x) :
    blockSigma F.globalScale f.restoration.sharp f.restoration.quantMul (groupsAcross 2048 f.size.width) lfgs (256 * (i / groupsAcross 2048 f.size.width) + y) (256 * (i % groupsAcross 2048 f.size.width) + x) =
      .ok (Arith.lit 1 / (Arith.lit 65536 / Arith.lit (F.globalScale : ℚ) * (Arith.lit (f.restoration.sharp.getD (F.sharpness i y x).toNat 0) * Arith.lit f.restoration.quantMul) / Arith.lit (b.mul : ℚ))) := by
  obtain ⟨hT, -⟩ := hok.blocks i hi
  obtain ⟨m, em, hm⟩ := format_holds (lfRows f i) (lfCols f i) (F.blocks i) hT.laid (fun b hb => by have := hT.mul b hb; omega)
  have hcells : v.cells = m := (Prod.mk.inj (Res.ok.inj (em.symm.trans hL.cells))).2.symm
  obtain ⟨-, hin1, hin2⟩ := hm.inside b hb
  have hcov' := hcov
  unfold Block.Covers at hcov'
  have hy : y < lfRows f i := by omega
  have hx : x < lfCols f i := by omega
  have ey : (256 * (i / groupsAcross 2048 f.size.width) + y) >>> 8 = i / groupsAcross 2048 f.size.width := by
    rw [Nat.shiftRight_eq_div_pow]
    omega
  have ex : (256 * (i % groupsAcross 2048 f.size.width) + x) >>> 8 = i % groupsAcross 2048 f.size.width := by
    rw [Nat.shiftRight_eq_div_pow]
    omega
  have ei : i / groupsAcross 2048 f.size.width * groupsAcross 2048 f.size.width + i % groupsAcross 2048 f.size.width = i := Nat.div_add_mod' _ _
  have ey2 : 256 * (i / groupsAcross 2048 f.size.width) + y - (i / groupsAcross 2048 f.size.width) <<< 8 = y := by
    rw [Nat.shiftLeft_eq]
    omega
  have ex2 : 256 * (i % groupsAcross 2048 f.size.width) + x - (i % groupsAcross 2048 f.size.width) <<< 8 = x := by
    rw [Nat.shiftLeft_eq]
    omega
  obtain ⟨s0, s7⟩ := hok.sharpness hit i y x hi hy hx
  unfold blockSigma
  rw [ey, ex, ei, ey2, ex2, idx_of_getElem? _ _ _ hv, Res.bind_ok, hcells, at2_sample (hm.covered b hb y x hcov).2, Res.bind_ok, at2_sample (hL.sharp.2 y x hy hx), Res.bind_ok, if_neg (by omega)]
  generalize F.sharpness i y x = t at s0 s7 ⊢
  obtain ⟨k, rfl⟩ := Int.eq_ofNat_of_zero_le s0
  rw [Int.toNat_natCast]
  have hk8 : k < f.restoration.sharp.length := by omega
  rw [idx_of_getElem? _ _ _ (List.getElem?_eq_getElem hk8), Res.bind_ok, List.getD_eq_getElem?_getD, List.getElem?_eq_getElem hk8]
  rfl

theorem varSigmas_ok {st : GlobalStream} {f : FrameHeader} {F : CodedFrame} (hok : F.Ok f) (hgrid : VarGrid f) (hit : 0 < f.restoration.iterations) (hl8 : f.restoration.sharp.length = 8)
    (hpad : paddedFrameSize f = .ok ⟨8 * ((f.size.width + 7) / 8), 8 * ((f.size.height + 7) / 8)⟩) {lfgs : List (VarLFGroup α)} (hlen : lfgs.length = varLFGroups f)
    (hL : ∀ (i : Nat) v, lfgs[i]? = some v → LFDecoded F f i v) :
    ∃ sig s, varSigmas f (varLayout f) (F.varGlobal st) lfgs = .ok sig ∧ HoldsMat ((f.size.height + 7) / 8) ((f.size.width + 7) / 8) s sig ∧ F.HasSigmas f s := by
  have hA : 0 < groupsAcross 2048 f.size.width := Nat.succ_pos _
  have hat : ∀ i, i < varLFGroups f → ∃ v, lfgs[i]? = some v ∧ LFDecoded F f i v := by
    intro i hi
    have h' : i < lfgs.length := by omega
    exact ⟨lfgs[i], List.getElem?_eq_getElem h', hL i _ (List.getElem?_eq_getElem h')⟩
  have key : ∀ Y X, Y < (f.size.height + 7) / 8 → X < (f.size.width + 7) / 8 →
      ∃ v : α, blockSigma F.globalScale f.restoration.sharp f.restoration.quantMul (groupsAcross 2048 f.size.width) lfgs Y X = .ok v := by
    intro Y X hY hX
    have hi : Y / 256 * groupsAcross 2048 f.size.width + X / 256 < varLFGroups f := by
      have h1 : Y / 256 < groupsAcross 2048 f.size.height := by unfold groupsAcross; omega
      have h2 : X / 256 < groupsAcross 2048 f.size.width := by unfold groupsAcross; omega
      unfold varLFGroups
      calc Y / 256 * groupsAcross 2048 f.size.width + X / 256 < Y / 256 * groupsAcross 2048 f.size.width + groupsAcross 2048 f.size.width := by omega
        _ = (Y / 256 + 1) * groupsAcross 2048 f.size.width := by rw [Nat.add_mul, Nat.one_mul]
        _ ≤ groupsAcross 2048 f.size.height * groupsAcross 2048 f.size.width := Nat.mul_le_mul_right _ h1
        _ = _ := Nat.mul_comm _ _
    have h2 : X / 256 < groupsAcross 2048 f.size.width := by unfold groupsAcross; omega
    have hdiv : (Y / 256 * groupsAcross 2048 f.size.width + X / 256) / groupsAcross 2048 f.size.width = Y / 256 := by
      rw [Nat.add_comm, Nat.add_mul_div_right _ _ hA, Nat.div_eq_of_lt h2, Nat.zero_add]
    have hmod : (Y / 256 * groupsAcross 2048 f.size.width + X / 256) % groupsAcross 2048 f.size.width = X / 256 := by
      rw [Nat.add_comm, Nat.add_mul_mod_self_right, Nat.mod_eq_of_lt h2]
    generalize hid : Y / 256 * groupsAcross 2048 f.size.width + X / 256 = i at *
    obtain ⟨v, hv, hLv⟩ := hat i hi
    obtain ⟨r0, c0, r1, c1⟩ := hgrid.lfSize i hi
    obtain ⟨hT, -⟩ := hok.blocks i hi
    obtain ⟨b, hb, hcov⟩ := hT.all (Y % 256) (X % 256) (by unfold lfRows; rw [hdiv]; omega) (by unfold lfCols; rw [hmod]; omega)
    have := blockSigma_ok hok hit hl8 hi r1 c1 hv hLv hb hcov
    rw [hdiv, hmod, Nat.div_add_mod, Nat.div_add_mod] at this
    exact ⟨_, this⟩
  obtain ⟨sig, e, hs⟩ := tabulate_ok (f := blockSigma F.globalScale f.restoration.sharp f.restoration.quantMul (groupsAcross 2048 f.size.width) lfgs) (h := (f.size.height + 7) / 8) (w := (f.size.width + 7) / 8)
    (g := fun Y X => match (blockSigma F.globalScale f.restoration.sharp f.restoration.quantMul (groupsAcross 2048 f.size.width) lfgs Y X : Res α) with | .ok v => v | _ => Arith.lit 0)
    (fun Y X hY hX => by
      obtain ⟨v, hv⟩ := key Y X hY hX
      rw [hv])
  refine ⟨sig, _, ?_, hs, ?_⟩
  · unfold varSigmas
    rw [hpad, Res.bind_ok]
    dsimp only
    rw [show (8 * ((f.size.width + 7) / 8) + 7) >>> 3 = (f.size.width + 7) / 8 by rw [Nat.shiftRight_eq_div_pow]; omega,
      show (8 * ((f.size.height + 7) / 8) + 7) >>> 3 = (f.size.height + 7) / 8 by rw [Nat.shiftRight_eq_div_pow]; omega]
    exact e
  · intro i hi b hb y x hcov
    obtain ⟨v, hv, hLv⟩ := hat i hi
    obtain ⟨r0, c0, r1, c1⟩ := hgrid.lfSize i hi
    beta_reduce
    rw [blockSigma_ok hok hit hl8 hi r1 c1 hv hLv hb hcov]

end

/-! ## Filters -/

theorem runFilters_ok (A : Arith F32) {ex : List ImageBuffer} {st : GlobalStream} {Q : FilterParts F32} (hQ : Q.Ok) {h : ImageHeader} {f : FrameHeader} (hp : PlainVarDCT h f) {F : CodedFrame} (hok : F.Ok f) (hgrid : VarGrid f)
    {lfgs : List (VarLFGroup F32)} (hlen : lfgs.length = varLFGroups f) (hL : ∀ (i : Nat) v, lfgs[i]? = some v → @LFDecoded F32 A F f i v) (P : FrameParts) {a b c : List (List F32)}
    (hT : Table (8 * ((f.size.height + 7) / 8)) (8 * ((f.size.width + 7) / 8)) a ∧ Table (8 * ((f.size.height + 7) / 8)) (8 * ((f.size.width + 7) / 8)) b ∧
      Table (8 * ((f.size.height + 7) / 8)) (8 * ((f.size.width + 7) / 8)) c) :
    ∃ a' b' c', applyFilters { P with filters := runFilters A Q (@varSigmas F32 A f (varLayout f) (F.varGlobal st) lfgs) } h f (varBuffer f a :: varBuffer f b :: varBuffer f c :: ex) =
        .ok (varBuffer f a' :: varBuffer f b' :: varBuffer f c' :: ex) ∧ F.Filtered f Q.stepMultiplier [a, b, c] [a', b', c'] := by
  have hn : frameColourCount h f.encoding = 3 := by
    unfold frameColourCount
    rw [hp.encoding]
    cases h.xyb <;> rfl
  have hold : ∀ {m : List (List F32)}, Table (8 * ((f.size.height + 7) / 8)) (8 * ((f.size.width + 7) / 8)) m →
      HoldsPlane (8 * ((f.size.height + 7) / 8)) (8 * ((f.size.width + 7) / 8)) (fun y x => (sample m y x).getD (Arith.lit 0)) m := fun hm => ⟨hm, fun y x hy hx => by
    obtain ⟨v, hv⟩ := hm.sample hy hx
    beta_reduce
    rw [hv]
    rfl⟩
  have H : Planes3 f (fun k y x => (sample ([a, b, c].getD k []) y x).getD (Arith.lit 0)) a b c := ⟨hold hT.1, hold hT.2.1, hold hT.2.2⟩
  generalize (fun (k y x : Nat) => (sample ([a, b, c].getD k []) y x).getD (Arith.lit 0 : F32)) = p at H
  have hpl : ∀ {q : Nat → Nat → Nat → F32} {a b c : List (List F32)}, Planes3 f q a b c →
      Planes (fun _ => 8 * ((f.size.height + 7) / 8)) (fun _ => 8 * ((f.size.width + 7) / 8)) q [a, b, c] := fun H => holds3_iff.2 ⟨_, _, _, rfl, H.1, H.2.1, H.2.2⟩
  have gabbed : ∃ a' b' c', (if f.restoration.gab = true then performGab A Q h f (varBuffer f a :: varBuffer f b :: varBuffer f c :: ex) else .ok (varBuffer f a :: varBuffer f b :: varBuffer f c :: ex)) =
      .ok (varBuffer f a' :: varBuffer f b' :: varBuffer f c' :: ex) ∧ Planes3 f (gaborished f (8 * ((f.size.height + 7) / 8)) (8 * ((f.size.width + 7) / 8)) p) a' b' c' := by
    unfold gaborished
    cases hg : f.restoration.gab with
    | false => exact ⟨a, b, c, rfl, H⟩
    | true =>
      obtain ⟨a', b', c', e, h'⟩ := performGab_ok A hQ hp (hp.filtered (Or.inl hg)) hn H
      exact ⟨a', b', c', e, h'⟩
  obtain ⟨a1, b1, c1, e1, h1⟩ := gabbed
  by_cases hit : 0 < f.restoration.iterations
  · obtain ⟨sig, s, es, hs, hsig⟩ := varSigmas_ok (st := st) hok hgrid hit hp.restoration.2.2.2 (varPadded hp) hlen hL
    obtain ⟨a2, b2, c2, e2, h2⟩ := performEPF_ok A hQ hp (hp.filtered (Or.inr hit)) hn (varPadded hp) hit hs h1
    refine ⟨a2, b2, c2, ?_, p, s, fun _ => hsig, hpl H, hpl h2⟩
    unfold applyFilters
    rw [if_pos (by simp [hit])]
    dsimp only
    unfold runFilters
    rw [e1, Res.bind_ok, if_pos hit, es]
    exact e2
  · have h0 : f.restoration.iterations = 0 := by omega
    refine ⟨a1, b1, c1, ?_, p, fun _ _ => Arith.lit 0, fun h => absurd h hit, hpl H, ?_⟩
    · unfold applyFilters
      dsimp only
      unfold runFilters
      rw [e1, Res.bind_ok, if_neg hit]
      cases hg : f.restoration.gab with
      | true => rfl
      | false =>
        rw [hg] at e1
        rw [show (false || decide (0 < f.restoration.iterations)) = false by simp [hit]]
        exact e1
    · rw [h0]
      exact hpl h1

end Jxl
