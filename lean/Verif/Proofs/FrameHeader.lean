import Verif.Spec.FrameHeader
import Verif.Proofs.ImageHeader
/-! Lemmas on the frame header. -/
namespace Jxl
open Spec

theorem Follows.if2 {α β γ : Type} {c c' c'' : Bool} {m : Rd (α × β)} {A : Dec α} {B : Dec β} {a : α} {b : β} {k : α × β} {f : α × β → Rd γ} {e : α → β → Dec γ}
    (hc : c = c') (hc2 : c' = c'') (hk : k = (a, b)) (P : α → β → Prop) (hab : c = false → P a b)
    (hP : ∀ l x r, A l = some (x, r) → ∀ l' y r', B l' = some (y, r') → P x y)
    (h : c = true → Follows m (A >>= fun x => B >>= fun y => Pure.pure (x, y)))
    (hr : ∀ x y, P x y → Follows (f (x, y)) (e x y)) :
    Follows (readIf c m k >>= f) (decIf c' A a >>= fun x => decIf c'' B b >>= fun y => e x y) := by
  subst hc; subst hc2; subst hk
  cases c
  · exact hr a b (hab rfl)
  · have : (decIf true A a >>= fun x => decIf true B b >>= fun y => e x y) = ((A >>= fun x => B >>= fun y => Pure.pure (x, y)) >>= fun k => e k.1 k.2) := by
      simp only [dec_bind_assoc, dec_pure_bind]
      rfl
    rw [this]
    refine Follows.bind' (fun k => P k.1 k.2) (h rfl) ?_ (fun k hk => hr k.1 k.2 hk)
    intro l k r hk
    obtain ⟨x, r1, h1, h2⟩ := Dec.of_bind hk
    obtain ⟨y, r2, h3, h4⟩ := Dec.of_bind h2
    cases h4
    exact hP _ _ _ h1 _ _ _ h3

theorem Follows.if3 {α β δ γ : Type} {c : Bool} {m : Rd (α × β × δ)} {A : Dec α} {B : Dec β} {C : Dec δ} {a : α} {b : β} {d : δ} {f : α × β × δ → Rd γ} {e : α → β → δ → Dec γ}
    (P : α → Prop) (ha : c = false → P a) (hP : c = true → ∀ l x r, A l = some (x, r) → P x)
    (h : c = true → Follows m (A >>= fun x => B >>= fun y => C >>= fun z => Pure.pure (x, y, z)))
    (hr : ∀ x y z, P x → Follows (f (x, y, z)) (e x y z)) :
    Follows (readIf c m (a, b, d) >>= f) (decIf c A a >>= fun x => decIf c B b >>= fun y => decIf c C d >>= fun z => e x y z) := by
  cases c
  · exact hr a b d (ha rfl)
  · have : (decIf true A a >>= fun x => decIf true B b >>= fun y => decIf true C d >>= fun z => e x y z) =
        ((A >>= fun x => B >>= fun y => C >>= fun z => Pure.pure (x, y, z)) >>= fun k => e k.1 k.2.1 k.2.2) := by
      simp only [dec_bind_assoc, dec_pure_bind]
      rfl
    rw [this]
    refine Follows.bind' (fun k => P k.1) (h rfl) ?_ (fun k hk => hr k.1 k.2.1 k.2.2 hk)
    intro l k r hk
    obtain ⟨x, r1, h1, h2⟩ := Dec.of_bind hk
    obtain ⟨y, r2, h3, h4⟩ := Dec.of_bind h2
    obtain ⟨z, r3, h5, h6⟩ := Dec.of_bind h4
    cases h6
    exact hP rfl _ _ _ h1

theorem follows_pow2 : Follows (do let v ← readBits 2; Pure.pure (1 <<< v)) (do let v ← decBits 2; Pure.pure (2 ^ v) : Dec Nat) := by
  refine Follows.bind (follows_bits 2 (by decide)) (fun v => ?_)
  rw [Nat.one_shiftLeft]
  exact Follows.pure _

theorem bne_decide (a b : Nat) : (a != b) = decide (a ≠ b) := by
  rw [Bool.eq_iff_iff]
  simp

theorem follows_passes : Follows readPasses decPasses := by
  unfold readPasses decPasses
  refine Follows.bind (implements_u32 (fun k => match k with | 0 => (1, 0) | 1 => (2, 0) | 2 => (3, 0) | 3 => (4, 3)) (by decide)).follows (fun np => ?_)
  refine Follows.bind (Follows.if (bne_decide np 1) rfl (fun _ =>
    (implements_u32 (fun k => match k with | 0 => (0, 0) | 1 => (1, 0) | 2 => (2, 0) | 3 => (3, 1)) (by decide)).follows)) (fun nds => ?_)
  refine Follows.bind (Follows.list (follows_bits 2 (by decide)) _) (fun sh => ?_)
  refine Follows.bind (Follows.list follows_pow2 _) (fun ds => ?_)
  refine Follows.bind (Follows.list (implements_u32 (fun k => match k with | 0 => (0, 0) | 1 => (1, 0) | 2 => (2, 0) | 3 => (0, 3)) (by decide)).follows _) (fun lp => ?_)
  exact Follows.pure _

/-- Blending information, except for mode 4 without extra channels. -/
theorem follows_blending (extra full : Bool) : Follows (readBlending extra full) (do
    let b ← decBlending extra (!full)
    decCheck (decide (b.mode ≠ 4) || extra) b) := by
  unfold readBlending decBlending
  simp only [dec_bind_assoc]
  refine Follows.bind (implements_u32 (fun k => match k with | 0 => (0, 0) | 1 => (1, 0) | 2 => (2, 0) | 3 => (3, 2)) (by decide)).follows (fun mode => ?_)
  refine Follows.check_left (fun hm => ?_)
  have hm : mode ≤ 4 := by simpa using hm
  refine Follows.bind (Follows.if ?_ rfl (fun _ =>
    (implements_u32 (fun k => match k with | 0 => (0, 0) | 1 => (1, 0) | 2 => (2, 0) | 3 => (3, 3)) (by decide)).follows)) (fun alpha => ?_)
  · rw [Bool.eq_iff_iff]; simp
  · by_cases hx : (decide (mode ≠ 4) || extra) = true
    · refine Follows.bind (Follows.if ?_ rfl (fun _ => implements_bool.follows)) (fun cl => ?_)
      · rw [Bool.eq_iff_iff]
        simp only [Bool.or_eq_true, decide_eq_true_eq, Bool.and_eq_true, beq_iff_eq] at hx ⊢
        tauto
      · refine Follows.bind (Follows.if ?_ rfl (fun _ => follows_bits 2 (by decide))) (fun src => ?_)
        · rw [bne_decide]
        · show Follows _ (decCheck (decide (mode ≠ 4) || extra) _)
          exact Follows.check_pure (fun _ => Follows.pure _)
    · intro s p _ b r hb
      obtain ⟨cl, r1, _, h2⟩ := Dec.of_bind hb
      obtain ⟨src, r2, _, h4⟩ := Dec.of_bind h2
      exact absurd (Dec.of_check h4).1 hx

theorem follows_blending_extra (full : Bool) : Follows (readBlending true full) (decBlending true (!full)) := by
  have := follows_blending true full
  intro s p hs a r h
  refine this s p hs a r ?_
  rw [Dec.bind_eq, h]
  simp only [Bool.or_true]
  rfl

theorem follows_gabPair : Follows readGabPair (do let a ← decF16; let b ← decF16; Pure.pure (a, b)) :=
  Follows.bind C08_readF16.follows (fun _ => Follows.bind C08_readF16.follows (fun _ => Follows.pure _))

theorem follows_restoration (encoding : Nat) : Follows (readRestoration encoding) (decRestoration 0 encoding) := by
  unfold readRestoration decRestoration decRestorationW
  refine Follows.bind implements_bool.follows (fun ad => ?_)
  refine Follows.bind (Follows.if rfl rfl (fun _ => implements_bool.follows)) (fun gab => ?_)
  refine Follows.bind (Follows.if rfl rfl (fun _ => implements_bool.follows)) (fun cg => ?_)
  refine Follows.bind (Follows.if rfl rfl (fun _ => Follows.list follows_gabPair 3)) (fun gabs => ?_)
  have hit : Follows (readIf (!ad) (readBits 2) 2) (decIf (!ad) (do let v ← decBits 2; decCheck (decide (v ≤ 0)) v) 2) := by
    refine Follows.if rfl rfl (fun _ s p hs a r h => ?_)
    obtain ⟨v, r1, h1, h2⟩ := Dec.of_bind h
    obtain ⟨_, rfl, rfl⟩ := Dec.of_check h2
    exact follows_bits 2 (by decide) s p hs _ _ h1
  refine Follows.bind' (fun it => ad = false → it = 0) hit ?_ (fun it hi => ?_)
  · intro l a r h had
    subst had
    obtain ⟨v, r1, h1, h2⟩ := Dec.of_bind (show ((decBits 2 >>= fun v => decCheck (decide (v ≤ 0)) v) l = some (a, r)) from h)
    obtain ⟨h3, rfl, rfl⟩ := Dec.of_check h2
    simpa using h3
  · have e0 : (!ad && decide (0 < it)) = false := by
      cases ad
      · rw [hi rfl]; rfl
      · rfl
    have e9 : (!ad && decide (it > 9)) = false := by
      cases ad
      · rw [hi rfl]; rfl
      · rfl
    simp only [gt_iff_lt] at e9 ⊢
    simp only [e0, e9, Bool.false_and, Bool.and_false]
    have hdi : ∀ {γ δ : Type} (A : Dec γ) (x : γ) (e : γ → Dec δ), (decIf false A x >>= e) = e x := fun _ _ _ => rfl
    have hri : ∀ {γ δ : Type} (A : Rd γ) (x : γ) (e : γ → Rd δ), (readIf false A x >>= e) = e x := fun _ _ _ => rfl
    simp only [hdi, hri, Bool.false_and]
    exact Follows.bind (Follows.if rfl rfl (fun _ => follows_noPayload)) (fun ext => Follows.pure _)

/-- But for the custom weights, all bundles are read as the format has them. -/
theorem follows_restoration_all (encoding : Nat) : Follows (readRestoration encoding) (decRestorationW false 3 encoding) := by
  unfold readRestoration decRestorationW
  refine Follows.bind implements_bool.follows (fun ad => ?_)
  refine Follows.bind (Follows.if rfl rfl (fun _ => implements_bool.follows)) (fun gab => ?_)
  refine Follows.bind (Follows.if rfl rfl (fun _ => implements_bool.follows)) (fun cg => ?_)
  refine Follows.bind (Follows.if rfl rfl (fun _ => Follows.list follows_gabPair 3)) (fun gabs => ?_)
  have hit : Follows (readIf (!ad) (readBits 2) 2) (decIf (!ad) (do let v ← decBits 2; decCheck (decide (v ≤ 3)) v) 2) := by
    refine Follows.if rfl rfl (fun _ s p hs a r h => ?_)
    obtain ⟨v, r1, h1, h2⟩ := Dec.of_bind h
    obtain ⟨_, rfl, rfl⟩ := Dec.of_check h2
    exact follows_bits 2 (by decide) s p hs _ _ h1
  refine Follows.bind' (fun it => ad = false → it ≤ 3) hit ?_ (fun it hi => ?_)
  · intro l a r h had
    subst had
    obtain ⟨v, r1, h1, h2⟩ := Dec.of_bind (show ((decBits 2 >>= fun v => decCheck (decide (v ≤ 3)) v) l = some (a, r)) from h)
    obtain ⟨h3, rfl, rfl⟩ := Dec.of_check h2
    simpa using h3
  · have e9 : (!ad && decide (it > 9)) = false := by
      cases ad
      · have := hi rfl
        simp only [Bool.not_false, Bool.true_and, decide_eq_false_iff_not]
        omega
      · rfl
    simp only [e9, Bool.false_and]
    have hdi : ∀ {γ δ : Type} (A : Dec γ) (x : γ) (e : γ → Dec δ), (decIf false A x >>= e) = e x := fun _ _ _ => rfl
    have hri : ∀ {γ δ : Type} (A : Rd γ) (x : γ) (e : γ → Rd δ), (readIf false A x >>= e) = e x := fun _ _ _ => rfl
    simp only [hdi, hri, gt_iff_lt]
    refine Follows.bind (Follows.if (by cases ad <;> rfl) rfl (fun _ => implements_bool.follows)) (fun sc => ?_)
    refine Follows.bind (Follows.if rfl rfl (fun _ => Follows.list C08_readF16.follows 8)) (fun sharp => ?_)
    refine Follows.bind (Follows.if rfl rfl (fun _ => implements_bool.follows)) (fun sg => ?_)
    refine Follows.bind (Follows.if rfl rfl (fun _ => C08_readF16.follows)) (fun qm => ?_)
    cases sg
    · simp only [hdi, hri]
      refine Follows.bind (Follows.if (by cases ad <;> rfl) rfl (fun _ => C08_readF16.follows)) (fun sm => ?_)
      exact Follows.bind (Follows.if rfl rfl (fun _ => follows_noPayload)) (fun ext => Follows.pure _)
    · have h3 : ∀ {δ : Type} (e : List ℚ → Rd δ), (readIf true (readList readF16 3) [9 / 10, 65 / 10, 2 / 3] >>= e) =
          (readF16 >>= fun a => readF16 >>= fun b => readF16 >>= fun c => e [a, b, c]) := by
        intro δ e
        have hp : ∀ {γ δ : Type} (x : γ) (f : γ → Rd δ), ((Pure.pure x : Rd γ) >>= f) = f x := fun _ _ => rfl
        show (readList readF16 3 >>= e) = _
        simp only [readList, bind_assoc3, hp]
      have d3 : ∀ {δ : Type} (x : ℚ) (e : ℚ → Dec δ), (decIf true decF16 x >>= e) = (decF16 >>= e) := fun _ _ => rfl
      rw [h3]
      simp only [d3]
      refine Follows.bind C08_readF16.follows (fun a => ?_)
      refine Follows.bind C08_readF16.follows (fun b => ?_)
      refine Follows.bind C08_readF16.follows (fun c => ?_)
      refine Follows.bind (Follows.if (by cases ad <;> rfl) rfl (fun _ => C08_readF16.follows)) (fun sm => ?_)
      exact Follows.bind (Follows.if rfl rfl (fun _ => follows_noPayload)) (fun ext => Follows.pure _)

/-! ## Geometry -/

theorem roundUpDiv_eq (d n : Nat) (hd : 0 < d) (hn : 0 < n) : roundUpDiv d n = (d - 1) / n + 1 := by
  unfold roundUpDiv
  rw [show d + (n - 1) = d - 1 + n by omega, Nat.add_div_right _ hn]

theorem ceilDiv_eq (d n : Nat) (hd : 0 < d) (hd2 : d < 2 ^ 32) (hn : 0 < n) : ceilDiv d n = .ok (roundUpDiv d n) := by
  unfold ceilDiv
  rw [if_neg (by omega), roundUpDiv_eq d n hd hn]
  have h1 : u32 (d + 4294967295) = d - 1 := by unfold u32; omega
  have h2 : (d - 1) / n ≤ d - 1 := Nat.div_le_self _ _
  rw [h1]
  generalize (d - 1) / n = q at h2 ⊢
  have h3 : u32 (q + 1) = q + 1 := by unfold u32; omega
  rw [h3]

theorem roundUpDiv_pos (d n : Nat) (hd : 0 < d) (hn : 0 < n) : 0 < roundUpDiv d n := by
  rw [roundUpDiv_eq d n hd hn]; exact Nat.succ_pos _

theorem roundUpDiv_le (d n : Nat) (hd : 0 < d) (hn : 0 < n) : roundUpDiv d n ≤ d := by
  rw [roundUpDiv_eq d n hd hn]
  have : (d - 1) / n ≤ d - 1 := Nat.div_le_self _ _
  omega

theorem scaledSide_eq (d up lvl : Nat) (hd : 0 < d) (hd2 : d < 2 ^ 32) (hu : 0 < up) (hl : lvl ≤ 4) :
    scaledSide d up lvl = .ok (roundUpDiv (roundUpDiv d up) (8 ^ lvl)) := by
  unfold scaledSide
  rw [ceilDiv_eq d up hd hd2 hu]
  have h1 := roundUpDiv_le d up hd hu
  have h2 : u32 (1 <<< (3 * lvl)) = 8 ^ lvl := by
    have : lvl = 0 ∨ lvl = 1 ∨ lvl = 2 ∨ lvl = 3 ∨ lvl = 4 := by omega
    rcases this with rfl | rfl | rfl | rfl | rfl <;> decide
  rw [h2]
  show ceilDiv (roundUpDiv d up) (8 ^ lvl) = _
  rw [ceilDiv_eq _ _ (roundUpDiv_pos d up hd hu) (by omega) (Nat.pos_of_ne_zero (by positivity))]

theorem paddedSide_eq (d sh : Nat) (hd : 0 < d) (hd2 : d < 2 ^ 32 - 2 ^ sh) : paddedSide d sh = .ok (roundUpDiv d (2 ^ sh) * 2 ^ sh) := by
  have hp : 0 < 2 ^ sh := Nat.pos_of_ne_zero (by positivity)
  unfold paddedSide
  rw [Nat.one_shiftLeft, ceilDiv_eq d _ hd (by omega) hp]
  show Res.ok (u32 (roundUpDiv d (2 ^ sh) <<< sh)) = _
  rw [Nat.shiftLeft_eq]
  have : roundUpDiv d (2 ^ sh) * 2 ^ sh ≤ d + (2 ^ sh - 1) := Nat.div_mul_le_self _ _
  have h3 : u32 (roundUpDiv d (2 ^ sh) * 2 ^ sh) = roundUpDiv d (2 ^ sh) * 2 ^ sh := by
    unfold u32
    exact Nat.mod_eq_of_lt (by omega)
  rw [h3]

theorem i32_small (z : Int) (h1 : -2147483648 ≤ z) (h2 : z < 2147483648) : i32 z = z := by
  unfold i32; omega

theorem fullFrame_eq (x0 y0 : Int) (size image : Dim) (hx1 : -1073741824 ≤ x0) (hx2 : x0 < 1073741824 / 2 + 9345) (hy1 : -1073741824 ≤ y0) (hy2 : y0 < 1073741824 / 2 + 9345)
    (hw : size.width < 1073741824 + 18688) (hh : size.height < 1073741824 + 18688) (hW : image.width < 2147483648) (hH : image.height < 2147483648) :
    isFullFrame x0 y0 size image = covers x0 y0 size image := by
  unfold isFullFrame covers
  rw [i32_small size.height (by omega) (by omega), i32_small size.width (by omega) (by omega), i32_small image.height (by omega) (by omega),
    i32_small image.width (by omega) (by omega), i32_small _ (by omega) (by omega), i32_small _ (by omega) (by omega), Bool.eq_iff_iff]
  simp only [Bool.and_eq_true, decide_eq_true_eq]
  constructor
  · rintro ⟨⟨⟨a, b⟩, c⟩, d⟩; exact ⟨b, a, d, c⟩
  · rintro ⟨a, b, c, d⟩; exact ⟨⟨⟨b, a⟩, d⟩, c⟩

/-! ## The whole header -/

theorem Follows.bind_map {α β γ : Type} {m : Rd β} {d : Dec α} {g : α → β} {f : β → Rd γ} {e : α → Dec γ} (P : α → Prop)
    (h1 : Follows m (d >>= fun x => Pure.pure (g x))) (hP : ∀ l a r, d l = some (a, r) → P a) (h2 : ∀ x, P x → Follows (f (g x)) (e x)) : Follows (m >>= f) (d >>= e) := by
  intro s p h b r hb
  obtain ⟨x, r1, h3, h4⟩ := Dec.of_bind hb
  obtain ⟨s', p', e1, e2, e3, e4, e5⟩ := h1 s p h (g x) r1 (by rw [Dec.bind_eq, h3]; rfl)
  subst e4
  rw [← e3] at h4
  obtain ⟨s2, p2, f1, f2, f3, f4, f5⟩ := h2 x (hP _ _ _ h3) s' p' e2 b r h4
  exact ⟨s2, p2, by rw [Rd.bind_ok e1]; exact f1, f2, by rw [f3, e3], by rw [f4, e3], by omega⟩

theorem follows_jpegMode : Follows readJpegMode (decBits 2 >>= fun v => Pure.pure (chromaShift v)) := by
  refine Follows.bind (follows_bits 2 (by decide)) (fun v => ?_)
  have : (if v = 1 then (1, 1) else if v = 2 then (1, 0) else if v = 3 then (0, 1) else (0, 0)) = chromaShift v := by
    by_cases h1 : v = 1
    · subst h1; rfl
    · by_cases h2 : v = 2
      · subst h2; rfl
      · by_cases h3 : v = 3
        · subst h3; rfl
        · rw [if_neg h1, if_neg h2, if_neg h3]
          unfold chromaShift
          split <;> first | rfl | contradiction
  rw [this]
  exact Follows.pure _

theorem decList_map {α β : Type} (d : Dec α) (g : α → β) : ∀ n, decList (d >>= fun x => Pure.pure (g x)) n = (decList d n >>= fun l => Pure.pure (l.map g))
  | 0 => rfl
  | n + 1 => by
    simp only [decList, decList_map d g n, dec_bind_assoc, dec_pure_bind, List.map_cons]

theorem follows_modes (c : Bool) : Follows (readIf c (readList readJpegMode 3) [(0, 0), (0, 0), (0, 0)])
    (decIf c (decList (decBits 2) 3) [0, 0, 0] >>= fun l => Pure.pure (l.map chromaShift)) := by
  cases c
  · exact Follows.pure _
  · exact (Follows.list follows_jpegMode 3).congr (decList_map _ _ 3)

theorem follows_coord : Follows readCoord decCoord :=
  (implements_u32 (fun k => match k with | 0 => (0, 8) | 1 => (256, 11) | 2 => (2304, 14) | 3 => (18688, 30)) (by decide)).follows

theorem decCoord_lt {l r : List Bool} {v : Nat} (h : decCoord l = some (v, r)) : v < 1073741824 + 18688 := decU32_lt h (by decide)

theorem unpack_coord (u : Nat) (hu : u < 1073741824 + 18688) : unpackSigned u = if u % 2 = 0 then ((u / 2 : Nat) : Int) else -(((u + 1) / 2 : Nat) : Int) := by
  unfold unpackSigned
  split
  · simp only [i32]; omega
  · simp only [i32]; omega

theorem follows_origin : Follows readOrigin (decOriginCoord >>= fun x => decOriginCoord >>= fun y => Pure.pure (x, y)) := by
  unfold readOrigin decOriginCoord
  simp only [dec_bind_assoc, dec_pure_bind]
  refine Follows.bind' (fun u => u < 1073741824 + 18688) follows_coord (fun _ _ _ h => decCoord_lt h) (fun x hx => ?_)
  refine Follows.bind' (fun u => u < 1073741824 + 18688) follows_coord (fun _ _ _ h => decCoord_lt h) (fun y hy => ?_)
  rw [unpack_coord x hx, unpack_coord y hy]
  exact Follows.pure _

theorem decOriginCoord_range {l r : List Bool} {v : Int} (h : decOriginCoord l = some (v, r)) : -1073741824 ≤ v ∧ v < 1073741824 / 2 + 9345 := by
  obtain ⟨u, r1, h1, h2⟩ := Dec.of_bind h
  have := decCoord_lt h1
  cases h2
  split <;> omega

theorem follows_cropSize : Follows readCropSize decCropSize :=
  Follows.bind follows_coord (fun _ => Follows.bind follows_coord (fun _ => Follows.check_pure (fun _ => Follows.pure _)))

theorem decCropSize_range {l r : List Bool} {d : Dim} (h : decCropSize l = some (d, r)) :
    0 < d.width ∧ 0 < d.height ∧ d.width < 1073741824 + 18688 ∧ d.height < 1073741824 + 18688 := by
  obtain ⟨w, r1, h1, h2⟩ := Dec.of_bind h
  obtain ⟨hh, r2, h3, h4⟩ := Dec.of_bind h2
  obtain ⟨h5, rfl, _⟩ := Dec.of_check h4
  have h5 : 0 < w ∧ 0 < hh := by simpa using h5
  exact ⟨h5.1, h5.2, decCoord_lt h1, decCoord_lt h3⟩

theorem foldl_max (l : List Nat) : ∀ a, l.foldl max a = max a (largest l) := by
  induction l with
  | nil => intro a; exact (Nat.max_zero a).symm
  | cons x l ih =>
    intro a
    show l.foldl max (max a x) = max a (max x (largest l))
    rw [ih, Nat.max_assoc]

theorem maxList_eq (l : List Nat) : maxList l = largest l := by
  unfold maxList
  rw [foldl_max, Nat.zero_max]

theorem largest_le (l : List Nat) (h : ∀ x ∈ l, x ≤ 1) : largest l ≤ 1 := by
  induction l with
  | nil => exact Nat.zero_le 1
  | cons a l ih =>
    exact Nat.max_le.mpr ⟨h a (by simp), ih (fun x hx => h x (by simp [hx]))⟩

theorem chromaShift_le (m : Nat) : (chromaShift m).1 ≤ 1 ∧ (chromaShift m).2 ≤ 1 := by
  unfold chromaShift
  split <;> decide

theorem lift_bind_ok {α β : Type} {r : Res α} {a : α} (h : r = .ok a) (f : α → Rd β) : (Rd.lift r >>= f) = f a := by
  subst h; rfl

theorem decIf_prop {α : Type} {c : Bool} {d : Dec α} {a : α} {P : α → Prop} (ha : c = false → P a) (h : ∀ l x r, d l = some (x, r) → P x) :
    ∀ l x r, decIf c d a l = some (x, r) → P x := by
  intro l x r hx
  cases c
  · cases hx
    exact ha rfl
  · exact h l x r hx

theorem decPasses_shift {l r : List Bool} {p : Passes} (h : decPasses l = some (p, r)) : p.shift ≠ [] := by
  obtain ⟨np, r1, _, h⟩ := Dec.of_bind h
  obtain ⟨nds, r2, _, h⟩ := Dec.of_bind h
  obtain ⟨sh, r3, _, h⟩ := Dec.of_bind h
  obtain ⟨ds, r4, _, h⟩ := Dec.of_bind h
  obtain ⟨lp, r5, _, h⟩ := Dec.of_bind h
  cases h
  simp

theorem groupDim_log (g : Nat) (h : g < 4) : ceilLog2 64 (128 <<< g) = 7 + g ∧ ceilLog2 64 ((128 <<< g) <<< 3) = 10 + g ∧ 128 <<< g = 128 * 2 ^ g ∧
    (128 <<< g) <<< 3 = 8 * (128 * 2 ^ g) := by
  have : g = 0 ∨ g = 1 ∨ g = 2 ∨ g = 3 := by omega
  rcases this with rfl | rfl | rfl | rfl <;> decide

theorem pow2_prop {l r : List Bool} {x : Nat} (h : (decBits 2 >>= fun v => (Pure.pure (2 ^ v) : Dec Nat)) l = some (x, r)) : 0 < x := by
  obtain ⟨v, r1, _, h2⟩ := Dec.of_bind h
  cases h2
  exact Nat.pos_of_ne_zero (by positivity)

theorem and32 (fl : Nat) : ((fl &&& 32) == 0) = !fl.testBit 5 := by
  have h32 : ∀ i, Nat.testBit 32 i = decide (5 = i) := fun i => by
    rw [show (32 : Nat) = 2 ^ 5 by decide]; exact Nat.testBit_two_pow
  have h : fl &&& 32 = if fl.testBit 5 then 32 else 0 := by
    refine Nat.eq_of_testBit_eq (fun i => ?_)
    rw [Nat.testBit_and, h32]
    by_cases hi : 5 = i
    · subst hi
      cases fl.testBit 5
      · simp
      · simp [h32]
    · split
      · rw [h32]; simp [hi]
      · simp [hi]
  rw [h]
  cases fl.testBit 5 <;> rfl

theorem follows_frameHeader (xyb : Bool) (nec : Nat) (image : Dim) (hw : 0 < image.width) (hh : 0 < image.height) (hw2 : image.width ≤ 2 ^ 30) (hh2 : image.height ≤ 2 ^ 30) :
    Follows (do let h ← readFrameHeader xyb nec image; Pure.pure h.completed) (decFrameHeader 0 false xyb nec image) := by
  unfold readFrameHeader decFrameHeader
  rw [bind_assoc3]
  refine Follows.bind implements_bool.follows (fun ad => ?_)
  dsimp only
  rw [bind_assoc3]
  refine Follows.if3 (fun t => ad = true → t = 0) (fun _ _ => rfl) (fun h _ _ _ _ h' => by rw [h'] at h; cases h) (fun _ => ?_) (fun t en fl hadt => ?_)
  · exact Follows.bind (follows_bits 2 (by decide)) (fun _ => Follows.bind (follows_bits 1 (by decide)) (fun _ => Follows.bind implements_u64.follows (fun _ => Follows.pure _)))
  dsimp only
  rw [bind_assoc3]
  refine Follows.bind (Follows.if rfl rfl (fun _ => implements_bool.follows)) (fun ycc => ?_)
  rw [and32, bind_assoc3]
  refine Follows.bind_map (fun _ => True) (follows_modes _) (fun _ _ _ _ => trivial) (fun ms _ => ?_)
  rw [bind_assoc3]
  refine Follows.if2 rfl rfl rfl (fun u _ => 0 < u) (fun _ => by decide) (fun l x r h _ _ _ _ => pow2_prop h) (fun _ => ?_) (fun up ecs hup => ?_)
  · exact Follows.bind follows_pow2 (fun _ => Follows.bind (Follows.list follows_pow2 nec) (fun _ => Follows.pure _))
  dsimp only
  rw [bind_assoc3]
  refine Follows.bind' (fun g => g < 4) (Follows.if (beq_decide en 1) rfl (fun _ => follows_bits 2 (by decide))) (decIf_prop (fun _ => by decide) (fun _ _ _ h => decBits_lt h)) (fun gss hg => ?_)
  rw [bind_assoc3]
  refine Follows.if2 ?_ rfl ?_ (fun _ _ => True) (fun _ => trivial) (fun _ _ _ _ _ _ _ _ => trivial) (fun _ => ?_) (fun xq bq _ => ?_)
  · rw [beq_decide, Bool.and_comm]
  · rw [beq_decide]
    split <;> rfl
  · exact Follows.bind (follows_bits 3 (by decide)) (fun _ => Follows.bind (follows_bits 3 (by decide)) (fun _ => Follows.pure _))
  dsimp only
  rw [bind_assoc3, bne_decide]
  refine Follows.bind_map (g := fun p => if (!ad && decide (t ≠ 2)) = true then p else Passes.dflt)
    (fun p => if (!ad && decide (t ≠ 2)) = true then p.shift ≠ [] else p = onePass) ?_ ?_ (fun ps hps => ?_)
  · cases !ad && decide (t ≠ 2)
    · exact Follows.pure _
    · refine follows_passes.congr ?_
      show decPasses = (decPasses >>= fun p => Pure.pure p)
      funext l
      rw [Dec.bind_eq]
      cases decPasses l <;> rfl
  · cases !ad && decide (t ≠ 2)
    · intro l a r h
      cases h
      rfl
    · exact fun l a r h => decPasses_shift h
  rw [bind_assoc3, beq_decide]
  refine Follows.bind' (fun v => v ≤ 4) (Follows.if rfl rfl (fun _ => ?_)) (decIf_prop (fun _ => by decide) ?_) (fun lvl hlvl => ?_)
  · refine Follows.bind' (fun v => v < 4) (follows_bits 2 (by decide)) (fun _ _ _ h => decBits_lt h) (fun v hv => ?_)
    rw [show u32 (v + 1) = v + 1 by unfold u32; omega]
    exact Follows.pure _
  · intro l x r h
    obtain ⟨v, r1, h1, h2⟩ := Dec.of_bind h
    have := decBits_lt h1
    cases h2
    omega
  rw [bind_assoc3, bne_decide]
  refine Follows.bind (Follows.if rfl rfl (fun _ => implements_bool.follows)) (fun crop => ?_)
  rw [bind_assoc3]
  refine Follows.if2 rfl rfl rfl (fun x y => (-1073741824 ≤ x ∧ x < 1073741824 / 2 + 9345) ∧ (-1073741824 ≤ y ∧ y < 1073741824 / 2 + 9345)) (fun _ => by decide)
    (fun l x r h l' y r' h' => ⟨decOriginCoord_range h, decOriginCoord_range h'⟩) (fun _ => follows_origin) (fun x0 y0 hxy => ?_)
  rw [bind_assoc3]
  refine Follows.bind' (fun d => 0 < d.width ∧ 0 < d.height ∧ d.width < 1073741824 + 18688 ∧ d.height < 1073741824 + 18688) (Follows.if rfl rfl (fun _ => follows_cropSize))
    (decIf_prop (fun _ => ⟨hw, hh, by omega, by omega⟩) (fun _ _ _ h => decCropSize_range h)) (fun d hd => ?_)
  obtain ⟨hd1, hd2, hd3, hd4⟩ := hd
  dsimp only
  rw [fullFrame_eq x0 y0 d image hxy.1.1 hxy.1.2 hxy.2.1 hxy.2.2 hd3 hd4 (by omega) (by omega)]
  rw [lift_bind_ok (scaledSide_eq d.height up lvl hd2 (by omega) hup hlvl), lift_bind_ok (scaledSide_eq d.width up lvl hd1 (by omega) hup hlvl)]
  generalize covers x0 y0 d image = full
  rw [bind_assoc3]
  have hnorm : (!ad && (t == 0 || t == 3)) = (!ad && decide (t = 0 ∨ t = 3)) := by
    rw [Bool.eq_iff_iff]; simp
  rw [hnorm]
  refine Follows.if2 rfl rfl rfl (fun _ _ => True) (fun _ => trivial) (fun _ _ _ _ _ _ _ _ => trivial) (fun _ => ?_) (fun bl ebl _ => ?_)
  · refine Follows.bind ?_ (fun b => Follows.bind ?_ (fun l => Follows.pure _))
    · refine (follows_blending (decide (nec > 0)) full).congr ?_
      congr 1
      funext b
      congr 1
      rw [Bool.eq_iff_iff]
      simp
    · cases nec with
      | zero => exact Follows.pure _
      | succ n =>
        rw [show decide (0 < n + 1) = true from decide_eq_true (Nat.succ_pos n)]
        exact Follows.list (follows_blending_extra full) (n + 1)
  dsimp only
  rw [bind_assoc3]
  have hlast : Follows (readIf (!ad && decide (t = 0 ∨ t = 3)) readBool (t == 0)) (decIf (!ad && decide (t = 0 ∨ t = 3)) decBool ad) := by
    cases hn : (!ad && decide (t = 0 ∨ t = 3))
    · have : (t == 0) = ad := by
        cases ad
        · have : ¬ (t = 0 ∨ t = 3) := by simpa using hn
          simp only [beq_eq_false_iff_ne, ne_eq]
          exact fun h => this (Or.inl h)
        · rw [hadt rfl]; rfl
      rw [this]
      exact Follows.pure _
    · exact implements_bool.follows
  refine Follows.bind hlast (fun il => ?_)
  rw [bind_assoc3]
  refine Follows.bind (Follows.if rfl rfl (fun _ => follows_bits 2 (by decide))) (fun save => ?_)
  rw [bind_assoc3]
  refine Follows.bind (Follows.if ?_ rfl (fun _ => implements_bool.follows)) (fun before => ?_)
  · rw [Bool.eq_iff_iff]
    simp only [Bool.and_eq_true, Bool.or_eq_true, beq_iff_eq, decide_eq_true_eq, Bool.not_eq_true']
    tauto
  rw [bind_assoc3]
  refine Follows.bind (Follows.if rfl rfl (fun _ => Follows.bind implements_name.follows (fun n => Follows.list implements_byte8.follows n))) (fun name => ?_)
  rw [bind_assoc3]
  refine Follows.bind (Follows.if rfl rfl (fun _ => follows_restoration en)) (fun rf => ?_)
  rw [bind_assoc3]
  refine Follows.bind (Follows.if rfl rfl (fun _ => follows_noPayload)) (fun ext => ?_)
  have e1 : (ms.map chromaShift).map (·.1) = ms.map (fun m => (chromaShift m).1) := by rw [List.map_map]; rfl
  have e2 : (ms.map chromaShift).map (·.2) = ms.map (fun m => (chromaShift m).2) := by rw [List.map_map]; rfl
  have hX : largest (ms.map (fun m => (chromaShift m).1)) ≤ 1 := largest_le _ (by
    intro x hx
    obtain ⟨m, _, rfl⟩ := List.mem_map.mp hx
    exact (chromaShift_le m).1)
  have hY : largest (ms.map (fun m => (chromaShift m).2)) ≤ 1 := largest_le _ (by
    intro x hx
    obtain ⟨m, _, rfl⟩ := List.mem_map.mp hx
    exact (chromaShift_le m).2)
  have hpad : ∀ x sh, 0 < x → x < 1073741824 + 18688 → sh ≤ 1 →
      paddedSide (roundUpDiv (roundUpDiv x up) (8 ^ lvl)) sh = .ok (codedSide x up lvl sh) := by
    intro x sh h1 h2 h3
    have a1 := roundUpDiv_pos x up h1 hup
    have a2 := roundUpDiv_le x up h1 hup
    have h8 : 0 < 8 ^ lvl := Nat.pos_of_ne_zero (by positivity)
    have a3 := roundUpDiv_pos _ _ a1 h8
    have a4 := roundUpDiv_le _ _ a1 h8
    have a5 : 2 ^ sh ≤ 2 := by
      calc 2 ^ sh ≤ 2 ^ 1 := Nat.pow_le_pow_right (by decide) h3
        _ = 2 := rfl
    rw [paddedSide_eq _ sh a3 (by omega)]
    rfl
  rw [e1, e2, maxList_eq, maxList_eq, bind_assoc3, lift_bind_ok (hpad d.height _ hd2 hd4 hY), bind_assoc3, lift_bind_ok (hpad d.width _ hd1 hd3 hX)]
  obtain ⟨g1, g2, g3, g4⟩ := groupDim_log gss hg
  rw [rd_pure_bind, g1, g2, g4, g3]
  have hfin : ∀ (A B : FrameHeader), A.completed = B → Follows (Pure.pure A.completed : Rd FrameHeader) (Pure.pure B) := by
    rintro A _ rfl
    exact Follows.pure _
  apply hfin
  unfold FrameHeader.completed
  by_cases hc : (!ad && decide (t ≠ 2)) = true
  · rw [if_pos hc] at hps
    simp only [if_pos hc]
    rw [if_neg (by intro h; exact hps (congrArg Passes.shift h))]
    simp only [List.map_map]
    rfl
  · rw [if_neg hc] at hps
    simp only [if_neg hc]
    rw [if_pos (show Passes.dflt = ⟨1, 0, [], [], []⟩ from rfl)]
    simp only [List.map_map, hps]
    rfl

end Jxl
