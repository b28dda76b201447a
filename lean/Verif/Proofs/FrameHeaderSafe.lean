import Verif.Proofs.Passes
import Verif.Props.ImageHeader
/-!
# No frame header crashes the parser
-/
namespace Jxl
open Spec

theorem safe_passes : Safe readPasses (fun _ => True) := by
  unfold readPasses
  refine Safe.bind (safe_u32 _ _ _ _ _ _ _ _) (fun np _ => Safe.bind (safe_if (safe_any (safe_u32 _ _ _ _ _ _ _ _)) trivial) (fun nds _ => ?_))
  refine Safe.bind (safe_list' (safe_any (safe_bits 2)) _) (fun _ _ => Safe.bind (safe_list' (Q := fun _ => True) ?_ _) (fun _ _ => Safe.bind (safe_list' (safe_any (safe_u32 _ _ _ _ _ _ _ _)) _) (fun _ _ => Safe.pure trivial)))
  exact Safe.bind (safe_bits 2) (fun _ _ => Safe.pure trivial)

theorem safe_blending (extra full : Bool) : Safe (readBlending extra full) (fun _ => True) :=
  Safe.bind (safe_u32 _ _ _ _ _ _ _ _) (fun _ _ => Safe.bind (safe_if (safe_any (safe_u32 _ _ _ _ _ _ _ _)) trivial) (fun _ _ =>
    Safe.bind (safe_if safe_bool trivial) (fun _ _ => Safe.bind (safe_if (safe_any (safe_bits 2)) trivial) (fun _ _ => Safe.pure trivial))))

theorem safe_ignored (n : Nat) : Safe (readIgnored n) (fun _ => True) := by
  intro s
  have := safe_bits n s
  unfold readIgnored
  rcases h : readBits n s with ⟨_ | _ | _, s'⟩
  · trivial
  · trivial
  · rw [h] at this; exact this

theorem safe_scale : Safe readScale (fun _ => True) :=
  Safe.bind (safe_list' safe_f16 3) (fun _ _ => Safe.bind (safe_ignored 32) (fun _ _ => Safe.pure trivial))

/-- Whatever is read as restoration filter has no custom weights. -/
theorem safe_restoration (encoding : Nat) : Safe (readRestoration encoding) (fun r => r.weightCustom = false ∧ r.channelScale = scaleDefault) := by
  unfold readRestoration
  refine Safe.bind safe_bool (fun ad _ => Safe.bind (safe_if safe_bool trivial) (fun gab _ => Safe.bind (safe_if safe_bool trivial) (fun cg _ => ?_)))
  refine Safe.bind (safe_if (safe_list' (Q := fun _ => True) (Safe.bind safe_f16 (fun _ _ => Safe.bind safe_f16 (fun _ _ => Safe.pure trivial))) 3) trivial) (fun gabs _ => ?_)
  refine Safe.bind (safe_if (safe_bits 2) (by decide)) (fun it hit => ?_)
  refine Safe.bind (safe_if safe_bool trivial) (fun sc _ => Safe.bind (safe_if (safe_list' safe_f16 8) trivial) (fun sl _ => ?_))
  have : (!ad && decide (it > 9)) = false := by
    rw [decide_eq_false (by omega)]
    exact Bool.and_false _
  rw [this]
  refine Safe.bind (P := fun w => w = false) (Safe.pure rfl) (fun w hw => ?_)
  subst hw
  refine Safe.bind (P := fun c => c = scaleDefault) (Safe.pure rfl) (fun c hc => ?_)
  subst hc
  refine Safe.bind (safe_if safe_bool trivial) (fun sg _ => Safe.bind (safe_if safe_f16 trivial) (fun qm _ => Safe.bind (safe_if (safe_list' safe_f16 3) trivial) (fun sig _ => ?_)))
  exact Safe.bind (safe_if safe_f16 trivial) (fun sm _ => Safe.bind (safe_if safe_extensions trivial) (fun ext _ => Safe.pure ⟨rfl, rfl⟩))

theorem safe_coord : Safe readCoord (fun _ => True) := safe_any (safe_u32 _ _ _ _ _ _ _ _)

theorem safe_ceilDiv (a b : Nat) (hb : 0 < b) : SafeRes (ceilDiv a b) (fun _ => True) := by
  unfold ceilDiv
  rw [if_neg (by omega)]
  trivial

theorem safe_scaledSide (d up lvl : Nat) (hu : 0 < up) (hl : lvl ≤ 4) : SafeRes (scaledSide d up lvl) (fun _ => True) := by
  refine SafeRes.bind (safe_ceilDiv d up hu) (fun a _ => safe_ceilDiv a _ ?_)
  have : lvl = 0 ∨ lvl = 1 ∨ lvl = 2 ∨ lvl = 3 ∨ lvl = 4 := by omega
  rcases this with rfl | rfl | rfl | rfl | rfl <;> decide

theorem safe_paddedSide (d sh : Nat) : SafeRes (paddedSide d sh) (fun _ => True) := by
  refine SafeRes.bind (safe_ceilDiv d _ ?_) (fun a _ => SafeRes.ok trivial)
  rw [Nat.one_shiftLeft]
  exact Nat.pos_of_ne_zero (by positivity)

theorem safe_upsampling : Safe readUpsampling (fun v => 0 < v) := by
  refine Safe.bind (safe_bits 2) (fun v _ => Safe.pure ?_)
  rw [Nat.one_shiftLeft]
  exact Nat.pos_of_ne_zero (by positivity)

/-- No header crashes the parser; and a header that states no passes has none: empty lists. -/
theorem safe_frameHeader (xyb : Bool) (nec : Nat) (image : Dim) :
    Safe (readFrameHeader xyb nec image) (fun h => h.frameType = 2 → h.passes = Passes.dflt) := by
  unfold readFrameHeader
  refine Safe.bind safe_bool (fun ad _ => ?_)
  refine Safe.bind (P := fun _ => True) (safe_if (Safe.bind (safe_bits 2) (fun _ _ => Safe.bind (safe_bits 1) (fun _ _ => Safe.bind safe_u64 (fun _ _ => Safe.pure trivial)))) trivial) (fun k _ => ?_)
  refine Safe.bind (safe_if safe_bool trivial) (fun ycc _ => ?_)
  refine Safe.bind (safe_if (safe_list' (Q := fun _ => True) (Safe.bind (safe_bits 2) (fun _ _ => Safe.pure trivial)) 3) trivial) (fun ms _ => ?_)
  refine Safe.bind (P := fun u => 0 < u.1) (safe_if (Safe.bind safe_upsampling (fun u hu => Safe.bind (safe_list' (safe_any safe_upsampling) nec) (fun _ _ => Safe.pure hu))) Nat.one_pos) (fun ups hups => ?_)
  refine Safe.bind (safe_if (safe_any (safe_bits 2)) trivial) (fun gss _ => ?_)
  refine Safe.bind (P := fun _ => True) (safe_if (Safe.bind (safe_bits 3) (fun _ _ => Safe.bind (safe_bits 3) (fun _ _ => Safe.pure trivial))) trivial) (fun qm _ => ?_)
  have hp : Safe (readIf (!ad && k.1 != 2) readPasses Passes.dflt) (fun p => k.1 = 2 → p = Passes.dflt) := by
    by_cases h2 : k.1 = 2
    · have : (!ad && k.1 != 2) = false := by rw [h2]; cases ad <;> rfl
      rw [this]
      exact Safe.pure (fun _ => rfl)
    · exact (safe_if safe_passes trivial).mono (fun _ _ h => absurd h h2)
  refine Safe.bind hp (fun passes hpass => ?_)
  refine Safe.bind (P := fun v => v ≤ 4) (safe_if (Safe.bind (safe_bits 2) (fun v hv => Safe.pure (by
    rw [show u32 (v + 1) = v + 1 from Nat.mod_eq_of_lt (by omega)]; omega))) (by decide)) (fun lvl hlvl => ?_)
  refine Safe.bind (safe_if safe_bool trivial) (fun crop _ => ?_)
  refine Safe.bind (P := fun _ => True) (safe_if (Safe.bind safe_coord (fun _ _ => Safe.bind safe_coord (fun _ _ => Safe.pure trivial))) trivial) (fun org _ => ?_)
  refine Safe.bind (P := fun _ => True) (safe_if (Safe.bind safe_coord (fun _ _ => Safe.bind safe_coord (fun _ _ => Safe.pure trivial))) trivial) (fun d _ => ?_)
  refine Safe.bind (Safe.lift (safe_scaledSide _ _ _ hups hlvl)) (fun h1 _ => Safe.bind (Safe.lift (safe_scaledSide _ _ _ hups hlvl)) (fun w1 _ => ?_))
  refine Safe.bind (P := fun _ => True) (safe_if (Safe.bind (safe_blending _ _) (fun _ _ => Safe.bind (safe_list' (safe_blending _ _) nec) (fun _ _ => Safe.pure trivial))) trivial) (fun bl _ => ?_)
  refine Safe.bind (safe_if safe_bool trivial) (fun il _ => Safe.bind (safe_if (safe_any (safe_bits 2)) trivial) (fun save _ => Safe.bind (safe_if safe_bool trivial) (fun before _ => ?_)))
  refine Safe.bind (P := fun _ => True) (safe_if (Safe.bind (safe_u32 _ _ _ _ _ _ _ _) (fun n _ => safe_list' safe_byte8 n)) trivial) (fun name _ => ?_)
  refine Safe.bind (safe_if (safe_any (safe_restoration _)) trivial) (fun rf _ => Safe.bind (safe_if safe_extensions trivial) (fun ext _ => ?_))
  exact Safe.bind (Safe.lift (safe_paddedSide _ _)) (fun h2 _ => Safe.bind (Safe.lift (safe_paddedSide _ _)) (fun w2 _ => Safe.pure hpass))

end Jxl
