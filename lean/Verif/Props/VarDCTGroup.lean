import Verif.Props.VarDCT

/-!
# C68: the blocks of a group

For every arithmetic, float32 included.
-/
namespace Jxl

section
variable {α : Type} [Arith α]

/-- The rectangle of a block in a plane: (row, column, height, width). -/
def VBlock.rect (b : VBlock) (up loc : Nat × Nat) : (Nat × Nat) × (Nat × Nat) := (b.ppf up loc, (b.tt.tt.pixelHeight.toNat, b.tt.tt.pixelWidth.toNat))

/-- A sample lies in a rectangle. -/
def InRect (r : (Nat × Nat) × (Nat × Nat)) (j k : Nat) : Prop := (r.1.1 ≤ j ∧ j < r.1.1 + r.2.1) ∧ (r.1.2 ≤ k ∧ k < r.1.2 + r.2.2)

/-- What a group needs: three channels with sizes, subsamplings and coefficient planes; blocks of known types whose coefficients and samples lie inside of the planes and
that do not overlap. -/
structure GroupFits (H W h w : Nat → Nat) (up : Nat → Nat × Nat) (loc : Nat × Nat) (blocks : List VBlock) : Prop where
  known : ∀ b ∈ blocks, b.tt.tt ∈ allDCT ∧ b.tt.tt.method ≠ 2
  coeffsInside : ∀ b ∈ blocks, ∀ c, c < 3 → b.takesPart (up c) = true → (b.ppg (up c)).1 + b.tt.tt.pixelHeight.toNat ≤ h c ∧ (b.ppg (up c)).2 + b.tt.tt.pixelWidth.toNat ≤ w c
  samplesInside : ∀ b ∈ blocks, ∀ c, c < 3 → b.takesPart (up c) = true → (b.ppf (up c) loc).1 + b.tt.tt.pixelHeight.toNat ≤ H c ∧ (b.ppf (up c) loc).2 + b.tt.tt.pixelWidth.toNat ≤ W c
  apart : blocks.Pairwise fun b b' => ∀ c, c < 3 → b.takesPart (up c) = true → b'.takesPart (up c) = true → ∀ j k, InRect (b.rect (up c) loc) j k → ¬ InRect (b'.rect (up c) loc) j k

/-- The samples of a block of a group, from the plane of coefficients. -/
def VBlock.samples (cos : Nat → Nat → Nat → α) (B : Nat → Nat → α) (b : VBlock) (up : Nat × Nat) (cf : Nat → Nat → α) : Nat → Nat → α :=
  blockSamples cos B b.tt.tt b.tt.flips.1 b.tt.flips.2 fun y x => cf ((b.ppg up).1 + y) ((b.ppg up).2 + x)

/-- What a block does to one plane. -/
def AfterBlock (cos : Nat → Nat → Nat → α) (B : Nat → Nat → α) (H W : Nat) (up loc : Nat × Nat) (cf : Nat → Nat → α) (b : VBlock) (m m' : List (List α)) : Prop :=
  Table H W m' ∧ (b.takesPart up = true → Laid H W (b.ppf up loc).1 (b.ppf up loc).2 b.tt.tt.pixelHeight.toNat b.tt.tt.pixelWidth.toNat (b.samples cos B up cf) m m') ∧
    (b.takesPart up = false → m' = m)

variable {lut : List (List (List α))} {cos : Nat → Nat → Nat → α} {basis : List (List α)} {B : Nat → Nat → α} (hl : HasTables lut cos) (hB : HasBlock 0 0 16 16 B basis)
  {H W h w : Nat → Nat} {up : Nat → Nat × Nat} {loc : Nat × Nat} {ups : List (Nat × Nat)} {coeffs : List (List (List α))} {cf : Nat → Nat → Nat → α}
  (hup : ∀ c, c < 3 → ups[c]? = some (up c)) (hco : ∀ c, c < 3 → ∃ m, coeffs[c]? = some m ∧ HasBlock 0 0 (h c) (w c) (cf c) m)
include hl hB hup hco

theorem blockStep {b : VBlock} (hg : GroupFits H W h w up loc [b]) {fb : List (List (List α))} {t : Scratch α} (ht : t.Ok) (h3 : fb.length = 3)
    (hT : ∀ c m, fb[c]? = some m → Table (H c) (W c) m) :
    ∃ fb' t', forFrom (fun c st => do
      let u ← idx ups (c : Int)
      if !b.takesPart u then .ok st else do
      let co ← idx coeffs (c : Int)
      let buffer ← idx st.1 (c : Int)
      let r ← invertBlock lut basis co buffer b.tt (b.ppg u) (b.ppf u loc) st.2
      let frameBuffer ← setAt st.1 (c : Int) r.1
      .ok (frameBuffer, r.2)) 3 0 (fb, t) = .ok (fb', t') ∧ t'.Ok ∧ fb'.length = 3 ∧
      ∀ c m', c < 3 → fb'[c]? = some m' → ∃ m, fb[c]? = some m ∧ AfterBlock cos B (H c) (W c) (up c) loc (cf c) b m m' := by
  obtain ⟨⟨fb', t'⟩, e, k1, k2, k3⟩ := forFrom_inv (f := fun c st => do
      let u ← idx ups (c : Int)
      if !b.takesPart u then .ok st else do
      let co ← idx coeffs (c : Int)
      let buffer ← idx st.1 (c : Int)
      let r ← invertBlock lut basis co buffer b.tt (b.ppg u) (b.ppf u loc) st.2
      let frameBuffer ← setAt st.1 (c : Int) r.1
      .ok (frameBuffer, r.2))
    (fun i (st : List (List (List α)) × Scratch α) => st.2.Ok ∧ st.1.length = 3 ∧
      ∀ c m', c < 3 → st.1[c]? = some m' → ∃ m, fb[c]? = some m ∧ (c < i → AfterBlock cos B (H c) (W c) (up c) loc (cf c) b m m') ∧ (i ≤ c → m' = m)) 3 0 (fb, t)
    ⟨ht, h3, fun c m' _ hm => ⟨m', hm, fun h => by omega, fun _ => rfl⟩⟩
    (by
      rintro c ⟨fb1, t1⟩ _ hc ⟨k1, k2, k3⟩
      have hc3 : c < 3 := by omega
      rw [idx_nat (hup c hc3), Res.bind_ok]
      obtain ⟨m, hm⟩ : ∃ m, fb1[c]? = some m := ⟨_, List.getElem?_eq_getElem (show c < fb1.length by simp only at k2; omega)⟩
      obtain ⟨m0, hm0, _, hsame⟩ := k3 c m hc3 hm
      obtain rfl := hsame (Nat.le_refl _)
      have hTm := hT c m hm0
      cases hp : b.takesPart (up c) with
      | false =>
        refine ⟨(fb1, t1), by rw [if_pos (by rfl)], k1, k2, fun d m' hd hm' => ?_⟩
        obtain ⟨m1, hm1, a1, a2⟩ := k3 d m' hd hm'
        refine ⟨m1, hm1, fun h => ?_, fun h => a2 (by omega)⟩
        by_cases hdc : d = c
        · subst hdc
          obtain rfl := a2 (Nat.le_refl _)
          exact ⟨hT d m' hm1, fun h => absurd (hp.symm.trans h) (by decide), fun _ => rfl⟩
        · exact a1 (by omega)
      | true =>
        rw [if_neg (by decide)]
        obtain ⟨co, hco1, hco2⟩ := hco c hc3
        rw [idx_nat hco1, Res.bind_ok, idx_nat hm, Res.bind_ok]
        obtain ⟨i1, i2⟩ := hg.coeffsInside b List.mem_cons_self c hc3 hp
        obtain ⟨o1, o2⟩ := hg.samplesInside b List.mem_cons_self c hc3 hp
        obtain ⟨n1, n2⟩ := hg.known b List.mem_cons_self
        have hblk : HasBlock (b.ppg (up c)).1 (b.ppg (up c)).2 b.tt.tt.pixelHeight.toNat b.tt.tt.pixelWidth.toNat
            (fun y x => cf c ((b.ppg (up c)).1 + y) ((b.ppg (up c)).2 + x)) co := by
          intro y x hy hx
          have := hco2 ((b.ppg (up c)).1 + y) ((b.ppg (up c)).2 + x) (by omega) (by omega)
          rw [Nat.zero_add, Nat.zero_add] at this
          exact this
        obtain ⟨m', t', e, q1, L⟩ := C68_block hl hB n1 n2 hblk k1 hTm o1 o2
        have e' : invertBlock lut basis co m b.tt (b.ppg (up c)) (b.ppf (up c) loc) t1 = .ok (m', t') := e
        have hlen : c < fb1.length := by simp only at k2; omega
        refine ⟨(fb1.set c m', t'), by rw [e', Res.bind_ok, setAt_natCast hlen, Res.bind_ok], q1, by rw [List.length_set]; exact k2, fun d m2 hd hm2 => ?_⟩
        by_cases hdc : d = c
        · subst hdc
          have hm2' : (fb1.set d m')[d]? = some m2 := hm2
          rw [List.getElem?_set_self hlen] at hm2'
          obtain rfl := Option.some.inj hm2'
          exact ⟨m, hm0, fun _ => ⟨L.1, fun _ => L, fun h => absurd (hp.symm.trans h) (by decide)⟩, fun h => by omega⟩
        · have hm2' : (fb1.set c m')[d]? = some m2 := hm2
          rw [List.getElem?_set_ne (Ne.symm hdc)] at hm2'
          obtain ⟨m1, hm1, a1, a2⟩ := k3 d m2 hd hm2'
          exact ⟨m1, hm1, fun h => a1 (by omega), fun h => a2 (by omega)⟩)
  refine ⟨fb', t', e, k1, k2, fun c m' hc hm' => ?_⟩
  obtain ⟨m, hm, a1, _⟩ := k3 c m' hc hm'
  exact ⟨m, hm, a1 (by omega)⟩

theorem invertBlocks_ok : ∀ (blocks : List VBlock), GroupFits H W h w up loc blocks → ∀ (fb : List (List (List α))) (t : Scratch α), t.Ok → fb.length = 3 →
    (∀ c m, fb[c]? = some m → Table (H c) (W c) m) →
    ∃ fb' t', invertBlocks lut basis coeffs ups loc blocks fb t = .ok (fb', t') ∧ t'.Ok ∧ fb'.length = 3 ∧ ∀ c m', c < 3 → fb'[c]? = some m' → ∃ m, fb[c]? = some m ∧
      Table (H c) (W c) m' ∧
      (∀ b ∈ blocks, b.takesPart (up c) = true →
        HasBlock (b.ppf (up c) loc).1 (b.ppf (up c) loc).2 b.tt.tt.pixelHeight.toNat b.tt.tt.pixelWidth.toNat (b.samples cos B (up c) (cf c)) m') ∧
      (∀ j k, (∀ b ∈ blocks, b.takesPart (up c) = true → ¬ InRect (b.rect (up c) loc) j k) → sample m' j k = sample m j k)
  | [], _, fb, t, ht, h3, hT => ⟨fb, t, rfl, ht, h3, fun c m' hc hm => ⟨m', hm, hT c m' hm, fun b hb => absurd hb List.not_mem_nil, fun _ _ _ => rfl⟩⟩
  | b :: bs, hg, fb, t, ht, h3, hT => by
    obtain ⟨fb1, t1, e1, q1, q2, q3⟩ := blockStep hl hB hup hco (b := b) (loc := loc) (H := H) (W := W)
      ⟨fun x hx => hg.known x (by rw [List.mem_singleton] at hx; rw [hx]; exact List.mem_cons_self),
        fun x hx => hg.coeffsInside x (by rw [List.mem_singleton] at hx; rw [hx]; exact List.mem_cons_self),
        fun x hx => hg.samplesInside x (by rw [List.mem_singleton] at hx; rw [hx]; exact List.mem_cons_self), List.pairwise_singleton _ _⟩ ht h3 hT
    rw [invertBlocks, e1, Res.bind_ok]
    have hT1 : ∀ c m, fb1[c]? = some m → Table (H c) (W c) m := by
      intro c m hm
      have hc : c < 3 := by
        obtain ⟨hlt, _⟩ := List.getElem?_eq_some_iff.1 hm
        omega
      obtain ⟨_, _, a, _⟩ := q3 c m hc hm
      exact a
    have hap := List.pairwise_cons.1 hg.apart
    obtain ⟨fb2, t2, e2, r1, r2, r3⟩ := invertBlocks_ok bs ⟨fun x hx => hg.known x (List.mem_cons_of_mem _ hx), fun x hx => hg.coeffsInside x (List.mem_cons_of_mem _ hx),
      fun x hx => hg.samplesInside x (List.mem_cons_of_mem _ hx), hap.2⟩ fb1 t1 q1 q2 hT1
    refine ⟨fb2, t2, e2, r1, r2, fun c m' hc hm' => ?_⟩
    obtain ⟨m1, hm1, a1, a2, a3⟩ := r3 c m' hc hm'
    obtain ⟨m, hm, b1, b2, b3⟩ := q3 c m1 hc hm1
    refine ⟨m, hm, a1, fun x hx hp => ?_, fun j k hjk => ?_⟩
    · rcases List.mem_cons.1 hx with rfl | hx
      · intro y z hy hz
        have hin : InRect (x.rect (up c) loc) ((x.ppf (up c) loc).1 + y) ((x.ppf (up c) loc).2 + z) :=
          ⟨⟨Nat.le_add_right _ _, Nat.add_lt_add_left hy _⟩, ⟨Nat.le_add_right _ _, Nat.add_lt_add_left hz _⟩⟩
        rw [a3 _ _ (fun b' hb' hp' => hap.1 b' hb' c hc hp hp' _ _ hin)]
        exact (b2 hp).block y z hy hz
      · exact a2 x hx hp
    · rw [a3 j k (fun b' hb' => hjk b' (List.mem_cons_of_mem _ hb'))]
      cases hp : b.takesPart (up c) with
      | false => rw [b3 hp]
      | true =>
        rw [(b2 hp).2 j k]
        exact if_neg (hjk b List.mem_cons_self hp)

/-- C68: after a group of blocks that do not overlap every sample of a block is the one that its own coefficients give, and every sample outside of the blocks is what it was. The
order of the blocks, what the scratch spaces hold and what the buffer held do not matter. -/
theorem C68_group {gl : Nat × Nat} {blocks : List VBlock} (hg : GroupFits H W h w up (gl.1 <<< 8, gl.2 <<< 8) blocks) {fb : List (List (List α))} {t : Scratch α} (ht : t.Ok) (h3 : fb.length = 3)
    (hT : ∀ c m, fb[c]? = some m → Table (H c) (W c) m) :
    ∃ fb' t', invertVarDCT lut basis false coeffs ups gl blocks fb t = .ok (fb', t') ∧ fb'.length = 3 ∧ ∀ c m', c < 3 → fb'[c]? = some m' → ∃ m, fb[c]? = some m ∧
      Table (H c) (W c) m' ∧
      (∀ b ∈ blocks, b.takesPart (up c) = true → HasBlock (b.ppf (up c) (gl.1 <<< 8, gl.2 <<< 8)).1 (b.ppf (up c) (gl.1 <<< 8, gl.2 <<< 8)).2 b.tt.tt.pixelHeight.toNat b.tt.tt.pixelWidth.toNat
        (b.samples cos B (up c) (cf c)) m') ∧
      (∀ j k, (∀ b ∈ blocks, b.takesPart (up c) = true → ¬ InRect (b.rect (up c) (gl.1 <<< 8, gl.2 <<< 8)) j k) → sample m' j k = sample m j k) := by
  unfold invertVarDCT
  rw [if_neg (by decide)]
  obtain ⟨fb', t', e, _, h2, h4⟩ := invertBlocks_ok hl hB hup hco blocks hg fb t ht h3 hT
  exact ⟨fb', t', e, h2, h4⟩

end

/-- C68, negation: a frame with more than one pass is not decoded: the second pass of a group panics. -/
theorem C68_second_pass_panics {α : Type} [Arith α] (lut : List (List (List α))) (basis : List (List α)) (coeffs : List (List (List α))) (ups : List (Nat × Nat)) (gl : Nat × Nat)
    (blocks : List VBlock) (fb : List (List (List α))) (t : Scratch α) : invertVarDCT lut basis true coeffs ups gl blocks fb t = .panic := rfl

/-- C68: which blocks have samples in a subsampled channel, and where: the ones whose place is a multiple of the subsampling, at that place divided by it. `loc` is the place
of the group in the frame in pixels. -/
theorem C68_places (b : VBlock) (up loc : Nat × Nat) : (b.takesPart up = true ↔ 2 ^ up.1 ∣ b.groupY ∧ 2 ^ up.2 ∣ b.groupX) ∧
    b.ppg up = (8 * (b.groupY / 2 ^ up.1), 8 * (b.groupX / 2 ^ up.2)) ∧
    b.ppf up loc = (8 * (b.groupY / 2 ^ up.1) + loc.1 / 2 ^ up.1, 8 * (b.groupX / 2 ^ up.2) + loc.2 / 2 ^ up.2) := by
  have h : ∀ g u : Nat, (g >>> u) <<< u == g ↔ 2 ^ u ∣ g := by
    intro g u
    rw [beq_iff_eq, Nat.shiftRight_eq_div_pow, Nat.shiftLeft_eq]
    exact ⟨fun h => ⟨g / 2 ^ u, by rw [Nat.mul_comm]; exact h.symm⟩, fun h => Nat.div_mul_cancel h⟩
  have p : b.ppg up = (8 * (b.groupY / 2 ^ up.1), 8 * (b.groupX / 2 ^ up.2)) := by
    unfold VBlock.ppg
    rw [Nat.shiftRight_eq_div_pow, Nat.shiftRight_eq_div_pow, Nat.shiftLeft_eq, Nat.shiftLeft_eq, Nat.mul_comm, Nat.mul_comm (b.groupX / 2 ^ up.2)]
  refine ⟨?_, p, ?_⟩
  · unfold VBlock.takesPart
    rw [Bool.and_eq_true, h, h]
  · unfold VBlock.ppf
    rw [p, Nat.shiftRight_eq_div_pow, Nat.shiftRight_eq_div_pow]

/-- A 16×8 block, an AFV2 block and a Hornuss block in the second group of a frame, with the second channel at full size and the others halved. -/
example : GroupFits (fun c => if c = 1 then 16 else 8) (fun c => if c = 1 then 272 else 136) (fun _ => 256) (fun _ => 256) (fun c => if c = 1 then (0, 0) else (1, 1)) (0, 256)
    [⟨0, 1, placedRef ⟨6, 6, 4, 0, 16, 8⟩⟩, ⟨0, 0, placedRef ⟨16, 10, 1, 6, 8, 8⟩⟩, ⟨1, 0, placedRef ⟨1, 1, 1, 3, 8, 8⟩⟩] := by
  refine ⟨?_, ?_, ?_, ?_⟩
  · decide
  · decide
  · decide
  · rw [List.pairwise_cons, List.pairwise_cons]
    refine ⟨?_, ?_, List.pairwise_singleton _ _⟩
    · intro b hb c hc hp hp' j k h1 h2
      have hc1 : c = 1 := by
        rcases (show c = 0 ∨ c = 1 ∨ c = 2 by omega) with rfl | rfl | rfl
        · exact absurd hp (by decide)
        · rfl
        · exact absurd hp (by decide)
      subst hc1
      rw [List.mem_cons, List.mem_singleton] at hb
      rcases hb with rfl | rfl <;> simp [InRect, VBlock.rect, VBlock.ppf, VBlock.ppg, placedRef] at h1 h2 <;> omega
    · intro b hb c hc hp hp' j k h1 h2
      rw [List.mem_singleton] at hb
      subst hb
      have hc1 : c = 1 := by
        rcases (show c = 0 ∨ c = 1 ∨ c = 2 by omega) with rfl | rfl | rfl
        · exact absurd hp' (by decide)
        · rfl
        · exact absurd hp' (by decide)
      subst hc1
      simp [InRect, VBlock.rect, VBlock.ppf, VBlock.ppg, placedRef] at h1 h2
      omega

end Jxl
