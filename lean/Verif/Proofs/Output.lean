import Verif.Spec.PNG
import Verif.Proofs.JXLImage
import Verif.Props.Samples

/-! # The samples of the output -/
namespace Jxl

/-- A picture of integers or floats. -/
def ImageBuffer.Picture (b : ImageBuffer) (h w : Nat) : Prop := b.IntPicture h w ∨ b.FloatPicture h w

/-- A settled channel: integers in range. -/
def Settled (B h w : Nat) (b : ImageBuffer) : Prop := b.IntPicture h w ∧ ∀ y x v, sample b.ints y x = some v → 0 ≤ v ∧ v ≤ 2 ^ B - 1

theorem mask32_eq {n : Nat} (h : n < 32) : mask32 n = 2 ^ n - 1 := by
  unfold mask32
  rw [if_neg (by omega)]

theorem two_pow_ge_one (n : Nat) : (1 : Int) ≤ 2 ^ n := by
  have : 0 < 2 ^ n := Nat.two_pow_pos n
  have h2 : ((2 ^ n : Nat) : Int) = 2 ^ n := by push_cast; rfl
  omega

theorem two_pow_ge_two {n : Nat} (h : 1 ≤ n) : (2 : Int) ≤ 2 ^ n := by
  obtain ⟨k, rfl⟩ : ∃ k, n = k + 1 := ⟨n - 1, by omega⟩
  have := two_pow_ge_one k
  rw [Int.pow_succ]
  omega

theorem two_pow_lt20 {n : Nat} (h : n < 20) : (2 : Int) ^ n - 1 < 2 ^ 20 := by
  have h1 : (2 : Nat) ^ n ≤ 2 ^ 19 := Nat.pow_le_pow_right (by decide) (by omega)
  have h2 : ((2 ^ n : Nat) : Int) = 2 ^ n := by push_cast; rfl
  have h3 : (2 : Nat) ^ 19 = 524288 := by decide
  omega

/-- `ImageBuffer.floats` after the first cast of a coerced image. -/
def asFloat (d : Nat) (v : Int) : F32 := F32.mul (F32.ofInt v) (F32.div (.fin 1) (F32.ofInt (2 ^ d - 1)))

/-- What a settled channel shows of a channel. -/
def Renders (I : FloatImpl) (B d : Nat) (b b' : ImageBuffer) : Prop :=
  ∀ y x o, sample b'.ints y x = some o →
    (b.bufferType = 0 → ∀ v, sample b.ints y x = some v → (d = B ∧ o = nearest (2 ^ B - 1) v) ∨ o = sampleToInt I (2 ^ B - 1) (asFloat d v)) ∧
    (b.bufferType = 1 → ∀ v, sample b.floats y x = some v → o = sampleToInt I (2 ^ B - 1) v)

theorem Table.sample_lt {α : Type} {h w : Nat} {m : List (List α)} (hT : Table h w m) {y x : Nat} {v : α} (hs : Jxl.sample m y x = some v) :
    y < h ∧ x < w := by
  by_contra hc
  rw [hT.sample_none (by omega)] at hs
  cases hs

/-- Settling a channel that is a float picture, or an integer picture of the depth of the output. -/
theorem settle_channel (I : FloatImpl) {B h w d : Nat} (hB : 1 ≤ B) (hB' : B < 32) {b : ImageBuffer} {ds : Res Nat} (hd : ds = .ok d)
    (hp : b.FloatPicture h w ∨ (b.IntPicture h w ∧ d = B)) :
    ∃ b', settleChannel I B ds b = .ok b' ∧ Settled B h w b' ∧ Renders I B d b b' := by
  subst hd
  have hm1 : (1 : Int) ≤ 2 ^ B - 1 := by have := two_pow_ge_two hB; omega
  rcases hp with hp | ⟨hp, hd⟩
  · obtain ⟨b', e, p, s, r⟩ := C36_to_int I b h w (2 ^ B - 1) hp hm1
    refine ⟨b', ?_, ⟨p, r⟩, ?_⟩
    · unfold settleChannel ImageBuffer.isInt
      rw [hp.1]
      simp only [mask32_eq hB']
      exact e
    · intro y x o ho
      refine ⟨fun ht => ?_, fun _ v hv => ?_⟩
      · rw [hp.1] at ht; cases ht
      · obtain ⟨hy, hx⟩ := p.2.2.2.sample_lt ho
        have := s y x hy hx
        rw [ho, hv] at this
        simpa using this
  · subst hd
    obtain ⟨b', e, p, s⟩ := C36_clamp b h w (2 ^ d - 1) (by omega) hp
    refine ⟨b', ?_, ⟨p, ?_⟩, ?_⟩
    · unfold settleChannel ImageBuffer.isInt
      rw [hp.1]
      simp only [mask32_eq hB']
      simpa using e
    · intro y x v hv
      obtain ⟨hy, hx⟩ := p.2.2.2.sample_lt hv
      have := s y x hy hx
      rw [hv] at this
      obtain ⟨u, _, hu⟩ := Option.map_eq_some_iff.mp this.symm
      have := C36_nearest (2 ^ d - 1) u (by omega)
      omega
    · intro y x o ho
      refine ⟨fun _ v hv => ?_, fun ht => ?_⟩
      · obtain ⟨hy, hx⟩ := p.2.2.2.sample_lt ho
        have := s y x hy hx
        rw [ho, hv] at this
        left
        exact ⟨rfl, by simpa using this⟩
      · rw [hp.1] at ht; cases ht

/-- Casting a channel to floats first. -/
theorem cast_channel {h w d : Nat} {b : ImageBuffer} (hp : b.Picture h w) (hd : b.bufferType = 0 → 1 ≤ d ∧ d ≤ 31) :
    ∃ b', castToFloatIfMax b (mask32 d) = .ok b' ∧ b'.FloatPicture h w ∧
      (b.bufferType = 1 → b' = b) ∧ (b.bufferType = 0 → ∀ y x, y < h → x < w → sample b'.floats y x = (sample b.ints y x).map (asFloat d)) := by
  rcases hp with hp | hp
  · have hd := hd hp.1
    obtain ⟨b', e, p, s⟩ := (C36_to_float b h w (2 ^ d - 1) hp).1 (by have := two_pow_ge_two hd.1; omega)
    refine ⟨b', ?_, p, fun ht => ?_, fun _ => s⟩
    · rw [mask32_eq (by omega), e]
    · rw [hp.1] at ht; cases ht
  · refine ⟨b, ?_, hp, fun _ => rfl, fun ht => ?_⟩
    · unfold castToFloatIfMax
      rw [if_pos hp.1]
    · rw [hp.1] at ht; cases ht

theorem needsCoerce_ok (B : Nat) : ∀ (bs : List ImageBuffer) (ds : List Nat), bs.length ≤ ds.length →
    (needsCoerce B bs ds = .ok true) ∨
    (needsCoerce B bs ds = .ok false ∧ ∀ (c : Nat) (b : ImageBuffer) (d : Nat), bs[c]? = some b → ds[c]? = some d → b.isInt = true → d = B) := by
  intro bs
  induction bs with
  | nil => intro ds _; right; exact ⟨rfl, fun c b d h => by simp at h⟩
  | cons b bs ih =>
    intro ds hl
    cases ds with
    | nil => simp at hl
    | cons d ds =>
      have hl' : bs.length ≤ ds.length := by simpa using hl
      unfold needsCoerce
      by_cases hi : b.isInt = true
      · rw [if_pos hi]
        dsimp only
        by_cases hd : d = B
        · rw [if_neg (by simpa using hd)]
          rcases ih ds hl' with h | ⟨h, hh⟩
          · left; exact h
          · right
            refine ⟨h, fun c b' d' h1 h2 h3 => ?_⟩
            cases c with
            | zero => simp at h1 h2; omega
            | succ c => exact hh c b' d' (by simpa using h1) (by simpa using h2) h3
        · rw [if_pos hd]; left; rfl
      · rw [if_neg hi]
        simp only [List.tail_cons]
        rcases ih ds hl' with h | ⟨h, hh⟩
        · left; exact h
        · right
          refine ⟨h, fun c b' d' h1 h2 h3 => ?_⟩
          cases c with
          | zero => simp at h1; subst h1; exact absurd h3 hi
          | succ c => exact hh c b' d' (by simpa using h1) (by simpa using h2) h3

/-- The samples of the output: every channel is settled and shows the channel it comes from. -/
theorem outputSamples_ok (I : FloatImpl) (img : JXLImage) {B h w : Nat} (hB : 1 ≤ B) (hB' : B < 32) (hpre : img.premultiplied = false)
    (hlen : img.bitDepths.length = img.buffers.length) (hp : ∀ b ∈ img.buffers, b.Picture h w)
    (hd : ∀ (c : Nat) (b : ImageBuffer) (d : Nat), img.buffers[c]? = some b → img.bitDepths[c]? = some d → b.bufferType = 0 → 1 ≤ d ∧ d ≤ 31) :
    ∃ bs, toOutputSamples I img B = .ok { img with buffers := bs } ∧ bs.length = img.buffers.length ∧
      ∀ (c : Nat) (b : ImageBuffer), img.buffers[c]? = some b → ∃ b' d, bs[c]? = some b' ∧ img.bitDepths[c]? = some d ∧ Settled B h w b' ∧ Renders I B d b b' := by
  have hdep : ∀ (c : Nat) (b : ImageBuffer), img.buffers[c]? = some b → ∃ d, img.bitDepths[c]? = some d := by
    intro c b hb
    have hc : c < img.buffers.length := by
      rcases Nat.lt_or_ge c img.buffers.length with h | h
      · exact h
      · rw [List.getElem?_eq_none h] at hb; cases hb
    exact ⟨img.bitDepths[c]'(by omega), List.getElem?_eq_getElem (by omega)⟩
  have hat : ∀ k : Nat, k < img.buffers.length → ∃ b, img.buffers[k]? = some b := fun k hk => ⟨_, List.getElem?_eq_getElem hk⟩
  unfold toOutputSamples
  rcases needsCoerce_ok B img.buffers img.bitDepths (by omega) with hn | ⟨hn, hall⟩
  · -- through floats
    have hco : coerceSamples img B = castChannels mask32 img.buffers.length img := by
      unfold coerceSamples
      rw [hpre, if_neg (by decide), hn]
      rfl
    rw [hco]
    have h1 : ∀ k : Nat, ∃ b' : ImageBuffer, ∀ (b : ImageBuffer) (d : Nat), img.buffers[k]? = some b → img.bitDepths[k]? = some d →
        castToFloatIfMax b (mask32 d) = .ok b' ∧ b'.FloatPicture h w ∧
      (b.bufferType = 1 → b' = b) ∧ (b.bufferType = 0 → ∀ y x, y < h → x < w → sample b'.floats y x = (sample b.ints y x).map (asFloat d)) := by
      intro k
      by_cases hk : k < img.buffers.length
      · obtain ⟨b, hb⟩ := hat k hk
        obtain ⟨d, hd'⟩ := hdep k b hb
        obtain ⟨b', hb'⟩ := cast_channel (hp b (List.mem_of_getElem? hb)) (hd k b d hb hd')
        refine ⟨b', fun b1 d1 h1 h2 => ?_⟩
        rw [hb] at h1; rw [hd'] at h2
        injection h1 with h1; injection h2 with h2
        subst h1; subst h2
        exact hb'
      · exact ⟨⟨0, 0, 0, [], []⟩, fun b d hb => by rw [List.getElem?_eq_none (by omega)] at hb; cases hb⟩
    choose g1 hg1 using h1
    obtain ⟨bs1, e1, l1, s1⟩ := eachChannel_ok (fun d b => do
        let d ← d
        castToFloatIfMax b (mask32 d)) img.buffers.length 0 img g1 (fun k _ hk => by
      obtain ⟨b, hb⟩ := hat k (by omega)
      obtain ⟨d, hd'⟩ := hdep k b hb
      refine ⟨b, hb, ?_⟩
      rw [idx_some hd', Res.bind_ok]
      exact (hg1 k b d hb hd').1)
    have h2 : ∀ k : Nat, ∃ b' : ImageBuffer, ∀ d : Nat, k < img.buffers.length → img.bitDepths[k]? = some d →
        settleChannel I B (.ok d) (g1 k) = .ok b' ∧ Settled B h w b' ∧ Renders I B d (g1 k) b' := by
      intro k
      by_cases hk : k < img.buffers.length
      · obtain ⟨b, hb⟩ := hat k hk
        obtain ⟨d, hd'⟩ := hdep k b hb
        obtain ⟨b', hb'⟩ := settle_channel I (h := h) (w := w) (b := g1 k) hB hB' (ds := .ok d) rfl (Or.inl (hg1 k b d hb hd').2.1)
        refine ⟨b', fun d1 _ h2 => ?_⟩
        rw [hd'] at h2
        injection h2 with h2
        subst h2
        exact hb'
      · exact ⟨⟨0, 0, 0, [], []⟩, fun d hb => absurd hb hk⟩
    choose g2 hg2 using h2
    obtain ⟨bs2, e2, l2, s2⟩ := eachChannel_ok (settleChannel I B) bs1.length 0 { img with buffers := bs1 } g2 (fun k _ hk => by
      obtain ⟨b, hb⟩ := hat k (by omega)
      obtain ⟨d, hd'⟩ := hdep k b hb
      refine ⟨g1 k, ?_, ?_⟩
      · simp only
        rw [s1, if_pos (by omega)]
      · simp only
        rw [idx_some hd']
        exact (hg2 k d (by omega) hd').1)
    refine ⟨bs2, ?_, by rw [l2]; exact l1, fun c b hb => ?_⟩
    · unfold castChannels
      rw [e1, Res.bind_ok]
      rw [if_neg (by simp [hpre])]
      unfold settleChannels
      exact e2
    · obtain ⟨d, hd'⟩ := hdep c b hb
      have hc : c < img.buffers.length := by
        rcases Nat.lt_or_ge c img.buffers.length with h | h
        · exact h
        · rw [List.getElem?_eq_none h] at hb; cases hb
      refine ⟨g2 c, d, ?_, hd', (hg2 c d hc hd').2.1, ?_⟩
      · rw [s2, if_pos (by omega)]
      · obtain ⟨_, hfp, hid, hfl⟩ := hg1 c b d hb hd'
        intro y x o ho
        have hr := (hg2 c d hc hd').2.2 y x o ho
        obtain ⟨hy, hx⟩ := (hg2 c d hc hd').2.1.1.2.2.2.sample_lt ho
        refine ⟨fun ht v hv => ?_, fun ht v hv => ?_⟩
        · right
          have := hfl ht y x hy hx
          rw [hv] at this
          exact hr.2 hfp.1 _ this
        · have := hid ht
          exact hr.2 hfp.1 v (by rw [this]; exact hv)
  · -- directly
    have hco : coerceSamples img B = .ok img := by
      unfold coerceSamples
      rw [hpre, if_neg (by decide), hn]
      rfl
    rw [hco, Res.bind_ok, if_neg (by simp [hpre])]
    have h2 : ∀ k : Nat, ∃ b' : ImageBuffer, ∀ (b : ImageBuffer) (d : Nat), img.buffers[k]? = some b → img.bitDepths[k]? = some d →
        settleChannel I B (.ok d) b = .ok b' ∧ Settled B h w b' ∧ Renders I B d b b' := by
      intro k
      by_cases hk : k < img.buffers.length
      · obtain ⟨b, hb⟩ := hat k hk
        obtain ⟨d, hd'⟩ := hdep k b hb
        have hpb : b.FloatPicture h w ∨ (b.IntPicture h w ∧ d = B) := by
          rcases hp b (List.mem_of_getElem? hb) with hp | hp
          · right
            exact ⟨hp, hall k b d hb hd' (by simp [ImageBuffer.isInt, hp.1])⟩
          · left; exact hp
        obtain ⟨b', hb'⟩ := settle_channel I (h := h) (w := w) (b := b) hB hB' (ds := .ok d) rfl hpb
        refine ⟨b', fun b1 d1 h1 h2 => ?_⟩
        rw [hb] at h1; rw [hd'] at h2
        injection h1 with h1; injection h2 with h2
        subst h1; subst h2
        exact hb'
      · exact ⟨⟨0, 0, 0, [], []⟩, fun b d hb => by rw [List.getElem?_eq_none (by omega)] at hb; cases hb⟩
    choose g2 hg2 using h2
    obtain ⟨bs2, e2, l2, s2⟩ := eachChannel_ok (settleChannel I B) img.buffers.length 0 img g2 (fun k _ hk => by
      obtain ⟨b, hb⟩ := hat k (by omega)
      obtain ⟨d, hd'⟩ := hdep k b hb
      refine ⟨b, hb, ?_⟩
      rw [idx_some hd']
      exact (hg2 k b d hb hd').1)
    refine ⟨bs2, ?_, l2, fun c b hb => ?_⟩
    · unfold settleChannels
      exact e2
    · obtain ⟨d, hd'⟩ := hdep c b hb
      have hc : c < img.buffers.length := by
        rcases Nat.lt_or_ge c img.buffers.length with h | h
        · exact h
        · rw [List.getElem?_eq_none h] at hb; cases hb
      exact ⟨g2 c, d, by rw [s2, if_pos (by omega)], hd', (hg2 c b d hb hd').2⟩

/-! ## Colours -/

theorem getElem?_lt {α : Type} {l : List α} {k : Nat} {a : α} (h : l[k]? = some a) : k < l.length := by
  rcases Nat.lt_or_ge k l.length with h' | h'
  · exact h'
  · rw [List.getElem?_eq_none h'] at h; cases h

/-- The channel `b'` is `b` with its float samples sent through `f`. -/
def Recoloured (f : F32 → F32) (b b' : ImageBuffer) : Prop :=
  b'.bufferType = b.bufferType ∧ b'.width = b.width ∧ b'.height = b.height ∧ b'.ints = b.ints ∧
    ∀ y x, sample b'.floats y x = (sample b.floats y x).map f

theorem Recoloured.refl (b : ImageBuffer) : Recoloured id b b := ⟨rfl, rfl, rfl, rfl, fun y x => by simp⟩

theorem castChannels_floats (mx : Nat → Int) (n : Nat) (img : JXLImage) (hn : n ≤ img.buffers.length) (hl : img.bitDepths.length = img.buffers.length)
    (hf : ∀ (c : Nat) (b : ImageBuffer), c < n → img.buffers[c]? = some b → b.bufferType = 1) : castChannels mx n img = .ok img := by
  unfold castChannels
  have hx : ∀ k : Nat, ∃ b : ImageBuffer, k < n → img.buffers[k]? = some b := by
    intro k
    by_cases hk : k < n
    · exact ⟨img.buffers[k]'(by omega), fun _ => List.getElem?_eq_getElem _⟩
    · exact ⟨⟨0, 0, 0, [], []⟩, fun h => absurd h hk⟩
  choose g hg using hx
  obtain ⟨bs, e, l, s⟩ := eachChannel_ok (fun d b => do
      let d ← d
      castToFloatIfMax b (mx d)) n 0 img g (fun k _ hk => by
    have hk : k < n := by omega
    refine ⟨g k, hg k hk, ?_⟩
    rw [idx_some (List.getElem?_eq_getElem (show k < img.bitDepths.length by omega)), Res.bind_ok]
    unfold castToFloatIfMax
    rw [if_pos (hf k _ hk (hg k hk))])
  rw [e]
  have : bs = img.buffers := by
    apply List.ext_getElem?
    intro k
    rw [s]
    by_cases hk : k < n
    · rw [if_pos (by omega), hg k hk]
    · rw [if_neg (by omega)]
  rw [this]

theorem transferInPlace_ok (f : F32 → F32) (img : JXLImage) (n : Nat) (hn : n = if img.colourEncoding = 1 then 1 else 3) (hnb : n ≤ img.buffers.length)
    (hl : img.bitDepths.length = img.buffers.length)
    (hf : ∀ (c : Nat) (b : ImageBuffer), c < n → img.buffers[c]? = some b → b.FloatPicture img.height img.width) :
    ∃ bs, transferInPlace f img = .ok { img with buffers := bs } ∧ bs.length = img.buffers.length ∧
      ∀ (c : Nat) (b : ImageBuffer), img.buffers[c]? = some b → ∃ b', bs[c]? = some b' ∧
        (c < n → b'.FloatPicture img.height img.width ∧ Recoloured f b b') ∧ (n ≤ c → b' = b) := by
  unfold transferInPlace
  dsimp only
  rw [← hn, castChannels_floats _ n img hnb hl (fun c b hc hb => (hf c b hc hb).1), Res.bind_ok]
  have hx : ∀ k : Nat, ∃ b' : ImageBuffer, ∀ b : ImageBuffer, k < n → img.buffers[k]? = some b →
      (do
        let m ← fillLoop img.height img.width (fun y x => do
          let v ← at2 b.floats y x
          .ok (f v)) b.floats
        Res.ok { b with floats := m }) = .ok b' ∧ b'.FloatPicture img.height img.width ∧ Recoloured f b b' := by
    intro k
    by_cases hk : k < n
    · have hb := List.getElem?_eq_getElem (show k < img.buffers.length by omega)
      generalize img.buffers[k] = b at hb
      have hp := hf k b hk hb
      have hg : ∀ y x, ∃ v, y < img.height → x < img.width → sample b.floats y x = some v := by
        intro y x
        by_cases hyx : y < img.height ∧ x < img.width
        · obtain ⟨v, hv⟩ := hp.2.2.2.sample hyx.1 hyx.2
          exact ⟨v, fun _ _ => hv⟩
        · exact ⟨.nan, fun a b => absurd ⟨a, b⟩ hyx⟩
      choose g hg' using hg
      obtain ⟨d, e, t, s⟩ := fillLoop_ok (h := img.height) (w := img.width) (fun y x => do
          let v ← at2 b.floats y x
          .ok (f v)) (fun y x => f (g y x)) b.floats hp.2.2.2
        (fun y x hy hx => by rw [at2_sample (hg' y x hy hx), Res.bind_ok])
      refine ⟨{ b with floats := d }, fun b1 _ h1 => ?_⟩
      rw [hb] at h1
      injection h1 with h1
      subst h1
      refine ⟨by rw [e]; rfl, ⟨hp.1, hp.2.1, hp.2.2.1, t⟩, rfl, rfl, rfl, rfl, fun y x => ?_⟩
      by_cases hyx : y < img.height ∧ x < img.width
      · rw [hg' y x hyx.1 hyx.2]
        exact s y x hyx.1 hyx.2
      · rw [hp.2.2.2.sample_none (by omega)]
        exact t.sample_none (by omega)
    · exact ⟨⟨0, 0, 0, [], []⟩, fun b hk' => absurd hk' hk⟩
  choose g hg using hx
  obtain ⟨bs, e, l, s⟩ := eachChannel_ok (fun _ b => do
      let m ← fillLoop img.height img.width (fun y x => do
        let v ← at2 b.floats y x
        .ok (f v)) b.floats
      Res.ok { b with floats := m }) n 0 img g (fun k _ hk => by
    have hb := List.getElem?_eq_getElem (show k < img.buffers.length by omega)
    exact ⟨_, hb, (hg k _ (by omega) hb).1⟩)
  refine ⟨bs, e, l, fun c b hb => ?_⟩
  by_cases hc : c < n
  · refine ⟨g c, ?_, fun _ => (hg c b hc hb).2, fun h => by omega⟩
    rw [s, if_pos (by omega)]
  · refine ⟨b, ?_, fun h => by omega, fun _ => rfl⟩
    rw [s, if_neg (by omega), hb]

/-! ## Rows -/

/-- A plane of integers that are not negative. -/
def natPlane (m : List (List Int)) : List (List Nat) := m.map (fun r => r.map Int.toNat)

theorem sample_natPlane (m : List (List Int)) (y x : Nat) : sample (natPlane m) y x = (sample m y x).map Int.toNat := by
  unfold sample natPlane
  simp only [List.getElem?_map]
  cases m[y]? <;> simp

theorem table_natPlane {h w : Nat} {m : List (List Int)} (hT : Table h w m) : Table h w (natPlane m) := by
  refine ⟨by simp [natPlane, hT.1], ?_⟩
  intro r hr
  simp only [natPlane, List.mem_map] at hr
  obtain ⟨s, hs, rfl⟩ := hr
  simp [hT.2 s hs]

theorem idatCast_id (I : FloatImpl) (mx : Int) (c : Nat) (img : JXLImage) {b : ImageBuffer} (hb : img.buffers[c]? = some b) (ht : b.bufferType = 0) :
    idatCast I mx c img = .ok img := by
  unfold idatCast
  rw [idx_some hb, Res.bind_ok]
  unfold castToIntIfMax
  rw [if_pos ht, Res.bind_ok]
  unfold setAt
  have hl := getElem?_lt hb
  rw [if_neg (by omega), Int.toNat_natCast, if_pos hl, Res.bind_ok]
  have : img.buffers.set c b = img.buffers := by
    apply List.ext_getElem?
    intro k
    by_cases hk : k = c
    · subst hk; rw [hb]; simp [hl]
    · rw [List.getElem?_set_ne (by omega)]
  rw [this]

theorem settleChannels_id (I : FloatImpl) {B h w : Nat} (hB : 1 ≤ B) (hB' : B < 32) (img : JXLImage) (hl : img.bitDepths.length = img.buffers.length)
    (hs : ∀ b ∈ img.buffers, Settled B h w b) : settleChannels I B img = .ok img := by
  unfold settleChannels
  have hm : (0 : Int) ≤ 2 ^ B - 1 := by have := two_pow_ge_one B; omega
  have hx : ∀ k : Nat, ∃ b : ImageBuffer, k < img.buffers.length → img.buffers[k]? = some b := by
    intro k
    by_cases hk : k < img.buffers.length
    · exact ⟨img.buffers[k]'(by omega), fun _ => List.getElem?_eq_getElem _⟩
    · exact ⟨⟨0, 0, 0, [], []⟩, fun h => absurd h hk⟩
  choose g hg using hx
  obtain ⟨bs, e, l, s⟩ := eachChannel_ok (settleChannel I B) img.buffers.length 0 img g (fun k _ hk => by
    have hk : k < img.buffers.length := by omega
    refine ⟨g k, hg k hk, ?_⟩
    have hsk := hs (g k) (List.mem_of_getElem? (hg k hk))
    have hd := List.getElem?_eq_getElem (show k < img.bitDepths.length by omega)
    rw [idx_some hd]
    unfold settleChannel ImageBuffer.isInt
    rw [hsk.1.1, if_pos (by decide), mask32_eq hB']
    by_cases hdd : img.bitDepths[k] = B
    · simp only [hdd]
      have := C36_clamp_id (g k) h w (2 ^ B - 1) hm hsk.1 hsk.2
      simpa using this
    · have : castToIntIfMax I (g k) (2 ^ B - 1) = .ok (g k) := by
        unfold castToIntIfMax
        rw [if_pos hsk.1.1]
      simpa [hdd] using this)
  rw [e]
  have : bs = img.buffers := by
    apply List.ext_getElem?
    intro k
    rw [s]
    by_cases hk : k < img.buffers.length
    · rw [if_pos (by omega), hg k hk]
    · rw [if_neg (by omega)]
  rw [this]

theorem byteOf_nat {v : Int} (h0 : 0 ≤ v) : byteOf v = UInt8.ofNat v.toNat := by
  unfold byteOf
  obtain ⟨n, rfl⟩ := Int.eq_ofNat_of_zero_le h0
  apply UInt8.toNat_inj.mp
  simp
  omega

theorem sampleBytes_ok {B d : Nat} {v : Int} (hd : d = 8 ↔ B = 8) (h0 : 0 ≤ v) : sampleBytes d v = PNG.bytes B v.toNat := by
  unfold sampleBytes PNG.bytes
  by_cases h8 : B = 8
  · rw [if_pos (hd.mpr h8), if_pos h8, byteOf_nat h0]
  · rw [if_neg (fun h => h8 (hd.mp h)), if_neg h8, byteOf_nat h0, byteOf_nat (by omega)]
    obtain ⟨n, rfl⟩ := Int.eq_ofNat_of_zero_le h0
    congr 1
    · congr 1
      apply UInt8.toNat_inj.mp
      simp

theorem idatRows_ok (img : JXLImage) {B h w : Nat} (n : Nat) (hh : img.height = h) (hw : img.width = w)
    (hn : n = img.header.colourCount + (if img.header.hasAlpha then 1 else 0)) (ha : img.header.hasAlpha = true → img.header.colourCount = 3)
    (hnb : n ≤ img.buffers.length) (hs : ∀ b ∈ img.buffers, Settled B h w b)
    (hd : ∀ c, c < n → ∃ d, img.bitDepths[c]? = some d ∧ (d = 8 ↔ B = 8)) (md : Nat) :
    idatRows img = .ok (PNG.scanlines ⟨w, h, B, md, (img.buffers.take n).map (fun b => natPlane b.ints)⟩) := by
  unfold idatRows PNG.scanlines
  have hsamp : ∀ (c y x : Nat) (b : ImageBuffer), c < n → y < h → x < w → img.buffers[c]? = some b →
      ∃ v d, at2 b.ints y x = .ok v ∧ img.bitDepths[c]? = some d ∧
        sampleBytes d v = PNG.bytes B ((sample (natPlane b.ints) y x).getD 0) := by
    intro c y x b hc hy hx hb
    have hsb := hs b (List.mem_of_getElem? hb)
    obtain ⟨v, hv⟩ := hsb.1.2.2.2.sample hy hx
    obtain ⟨d, hd1, hd2⟩ := hd c hc
    refine ⟨v, d, at2_sample hv, hd1, ?_⟩
    rw [sample_natPlane, hv, sampleBytes_ok hd2 (hsb.2 y x v hv).1]
    rfl
  have hlenc : (img.buffers.take img.header.colourCount).length = img.header.colourCount := by
    rw [List.length_take]; omega
  have hplanes : (img.buffers.take n).map (fun b => natPlane b.ints) = (img.buffers.take img.header.colourCount).map (fun b => natPlane b.ints) ++
      (if img.header.hasAlpha then ((img.buffers[3]?).toList.map (fun b => natPlane b.ints)) else []) := by
    rw [hn]
    by_cases hal : img.header.hasAlpha = true
    · rw [if_pos hal, if_pos hal, ha hal]
      rw [← List.map_append]
      congr 1
      rw [List.take_add_one]
    · rw [if_neg hal, if_neg hal]; simp
  have := forFrom_append0 (fun y acc => idatRow img y (acc ++ [0]))
    (fun y => 0 :: (List.range w).flatMap (fun x => ((img.buffers.take n).map (fun b => natPlane b.ints)).flatMap
      (fun m => PNG.bytes B ((sample m y x).getD 0)))) img.height [] (fun y acc hy => by
    have hy : y < h := by omega
    unfold idatRow
    have hrow := forFrom_append0 (fun x acc => do
        let acc ← forFrom (fun c acc => do
          let b ← idx img.buffers c
          let v ← at2 b.ints y x
          let d ← idx img.bitDepths c
          .ok (acc ++ sampleBytes d v)) img.header.colourCount 0 acc
        if img.header.hasAlpha then do
          let b ← idx img.buffers 3
          let v ← at2 b.ints y x
          let d ← idx img.bitDepths 3
          .ok (acc ++ sampleBytes d v)
        else .ok acc) (fun x => ((img.buffers.take n).map (fun b => natPlane b.ints)).flatMap
      (fun m => PNG.bytes B ((sample m y x).getD 0))) img.width (acc ++ [0]) (fun x acc hx => by
      have hx : x < w := by omega
      have hcol := forFrom_append_map (img.buffers.take img.header.colourCount) (fun c acc => do
          let b ← idx img.buffers c
          let v ← at2 b.ints y x
          let d ← idx img.bitDepths c
          .ok (acc ++ sampleBytes d v)) (fun b => PNG.bytes B ((sample (natPlane b.ints) y x).getD 0)) acc (fun c b acc hc => by
        rw [List.getElem?_take] at hc
        split at hc
        · rename_i hlt
          obtain ⟨v, d, h1, h2, h3⟩ := hsamp c y x b (by omega) hy hx hc
          rw [idx_some hc, Res.bind_ok, h1, Res.bind_ok, idx_some h2, Res.bind_ok, h3]
        · cases hc)
      rw [hlenc] at hcol
      rw [hcol, Res.bind_ok, hplanes]
      by_cases hal : img.header.hasAlpha = true
      · rw [if_pos hal, if_pos hal]
        have hn4 : n = 4 := by rw [hn, if_pos hal, ha hal]
        have hb3 := List.getElem?_eq_getElem (show 3 < img.buffers.length by omega)
        generalize img.buffers[3] = b3 at hb3
        obtain ⟨v, d, h1, h2, h3⟩ := hsamp 3 y x b3 (by omega) hy hx hb3
        rw [show idx img.buffers 3 = .ok b3 from idx_some (k := 3) hb3, Res.bind_ok, h1, Res.bind_ok, show idx img.bitDepths 3 = .ok d from idx_some (k := 3) h2,
          Res.bind_ok, h3, hb3]
        simp only [List.flatMap_append, List.flatMap_map, Option.toList_some, List.map_cons, List.map_nil, List.flatMap_cons, List.flatMap_nil,
          List.append_nil, List.append_assoc]
      · rw [if_neg hal, if_neg hal, List.append_nil, List.flatMap_map])
    rw [hrow, hw]
    simp)
  rw [this, hh]
  rfl

/-- Writing the picture data of an image whose channels are settled. -/
theorem writeIDAT_ok (I : FloatImpl) (Z : Zlib) (img : JXLImage) {B h w : Nat} (n : Nat) (hB : B = if 8 < img.header.bitDepth.bits then 16 else 8)
    (hh : img.height = h) (hw : img.width = w)
    (hn : n = img.header.colourCount + (if img.header.hasAlpha then 1 else 0)) (ha : img.header.hasAlpha = true → img.header.colourCount = 3)
    (hnb : n ≤ img.buffers.length) (hl : img.bitDepths.length = img.buffers.length) (hs : ∀ b ∈ img.buffers, Settled B h w b)
    (hd : ∀ c, c < n → ∃ d, img.bitDepths[c]? = some d ∧ (d = 8 ↔ B = 8)) (md : Nat) :
    writeIDAT I Z img = .ok (emitChunk (bytesOf ['I', 'D', 'A', 'T'] ++
      Z.deflate 0 (PNG.scanlines ⟨w, h, B, md, (img.buffers.take n).map (fun b => natPlane b.ints)⟩)), img) := by
  have hcast : ∀ c, c < img.buffers.length → idatCast I (mask32 B) c img = .ok img := by
    intro c hc
    exact idatCast_id I _ c img (List.getElem?_eq_getElem hc) (hs _ (List.getElem_mem hc)).1.1
  have hcc : 1 ≤ img.header.colourCount := by unfold ImageHeader.colourCount; split <;> omega
  unfold writeIDAT
  dsimp only
  rw [← hB, hcast 0 (by omega), Res.bind_ok]
  have h1 : ∀ (p : Bool) c, (p = true → c < img.buffers.length) → idatCastIf p I (mask32 B) c img = .ok img := by
    intro p c hp
    unfold idatCastIf
    cases p with
    | true => rw [if_pos rfl]; exact hcast c (hp rfl)
    | false => rfl
  rw [h1 _ 1 (by simp), Res.bind_ok, h1 _ 2 (by simp), Res.bind_ok, h1 _ 3 (fun hal => by
    have := ha hal
    rw [if_pos hal] at hn
    omega), Res.bind_ok]
  rw [settleChannels_id I (h := h) (w := w) (by subst hB; split <;> omega) (by subst hB; split <;> omega) img hl hs, Res.bind_ok,
    idatRows_ok img n hh hw hn ha hnb hs hd md, Res.bind_ok]

end Jxl
