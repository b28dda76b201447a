import Verif.Spec.Copy
import Verif.Model.JXLImage
import Verif.Proofs.Image

/-! # Copies and equality of images (C45) -/
namespace Jxl

theorem copy_idx_getD {α : Type} {l : List α} {a : Nat} (d : α) (h : a < l.length) : idx l (a : Int) = .ok (l.getD a d) := by
  unfold idx
  rw [if_neg (by omega), Int.toNat_natCast, List.getElem?_eq_getElem h]
  simp [List.getD, List.getElem?_eq_getElem h]

/-- Copying rows: new addresses, each used once, with the same contents; the old rows are as before. -/
theorem copyRows_ok {α : Type} (as : List Nat) : ∀ (mem : List (List α)), (∀ a ∈ as, a < mem.length) →
    ∃ news, copyRows mem as = .ok (mem ++ news, (List.range as.length).map (mem.length + ·)) ∧ news = contents mem as := by
  induction as with
  | nil => intro mem _; exact ⟨[], by simp [copyRows], rfl⟩
  | cons a as ih =>
    intro mem h
    have ha : a < mem.length := h a (by simp)
    obtain ⟨news, e, en⟩ := ih (mem ++ [mem.getD a []]) (fun b hb => by
      have := h b (by simp [hb])
      simp; omega)
    refine ⟨mem.getD a [] :: news, ?_, ?_⟩
    · unfold copyRows
      rw [copy_idx_getD [] ha, Res.bind_ok, e, Res.bind_ok]
      simp only [List.append_assoc, List.singleton_append, List.length_append, List.length_cons, List.length_nil]
      congr 2
      rw [List.range_succ_eq_map]
      simp only [List.map_cons, List.map_map, Nat.add_zero]
      congr 1
      apply List.map_congr_left
      intro i _
      simp only [Function.comp]
      omega
    · rw [en]
      unfold contents
      simp only [List.map_cons, List.cons.injEq, true_and]
      apply List.map_congr_left
      intro b hb
      have := h b (by simp [hb])
      simp [List.getD, List.getElem?_append_left this]

theorem contents_append {α : Type} {mem news : List (List α)} {m : List Nat} (h : ∀ a ∈ m, a < mem.length) :
    contents (mem ++ news) m = contents mem m := by
  unfold contents
  apply List.map_congr_left
  intro b hb
  simp [List.getD, List.getElem?_append_left (h b hb)]

theorem contents_new {α : Type} {mem : List (List α)} (news : List (List α)) :
    contents (mem ++ news) ((List.range news.length).map (mem.length + ·)) = news := by
  unfold contents
  apply List.ext_getElem?
  intro i
  by_cases hi : i < news.length
  · simp [hi, List.getD]
  · simp [hi]

theorem idx_ok_lt {α : Type} {l : List α} {i : Int} {a : α} (h : idx l i = .ok a) : l[i.toNat]? = some a := by
  unfold idx at h
  split at h
  · cases h
  · split at h <;> rename_i e
    · injection h with h; rw [e, h]
    · cases h

theorem pokeRow_keeps {α : Type} {mem mem' : List (List α)} {m k : List Nat} {y x : Int} {v : α}
    (h : pokeRow mem m y x v = .ok mem') (hd : ∀ a ∈ m, a ∉ k) : contents mem' k = contents mem k ∧ mem'.length = mem.length := by
  unfold pokeRow at h
  cases h1 : idx m y with
  | err => simp [h1] at h
  | panic => simp [h1] at h
  | ok a =>
    have ha : a ∈ m := List.mem_of_getElem? (idx_ok_lt h1)
    rw [h1, Res.bind_ok] at h
    cases h2 : idx mem (a : Int) with
    | err => simp [h2] at h
    | panic => simp [h2] at h
    | ok row =>
      rw [h2, Res.bind_ok] at h
      cases h3 : setAt row x v with
      | err => simp [h3] at h
      | panic => simp [h3] at h
      | ok row' =>
        rw [h3, Res.bind_ok] at h
        unfold setAt at h
        rw [if_neg (by omega)] at h
        split at h
        · injection h with h
          subst h
          refine ⟨?_, by simp⟩
          unfold contents
          apply List.map_congr_left
          intro b hb
          have : a ≠ b := fun e => hd a ha (e ▸ hb)
          simp only [Int.toNat_natCast, List.getD]
          rw [List.getElem?_set_ne this]
        · cases h

theorem pokes_keep {b k : SharedBuffer} (hi : ∀ a ∈ b.ints, a ∉ k.ints) (hf : ∀ a ∈ b.floats, a ∉ k.floats) (ps : List Poke) :
    ∀ R R', pokes R b ps = .ok R' → k.value R' = k.value R := by
  induction ps with
  | nil => intro R R' h; unfold pokes at h; injection h with h; rw [h]
  | cons p ps ih =>
    intro R R' h
    unfold pokes at h
    cases hp : poke R b p with
    | err => simp [hp] at h
    | panic => simp [hp] at h
    | ok R1 =>
      rw [hp, Res.bind_ok] at h
      rw [ih R1 R' h]
      unfold SharedBuffer.value
      cases p with
      | int y x v =>
        simp only [poke] at hp
        cases hm : pokeRow R.ints b.ints y x v with
        | err => simp [hm] at hp
        | panic => simp [hm] at hp
        | ok m =>
          rw [hm, Res.bind_ok] at hp
          injection hp with hp
          subst hp
          simp only [(pokeRow_keeps hm hi).1]
      | float y x v =>
        simp only [poke] at hp
        cases hm : pokeRow R.floats b.floats y x v with
        | err => simp [hm] at hp
        | panic => simp [hm] at hp
        | ok m =>
          rw [hm, Res.bind_ok] at hp
          injection hp with hp
          subst hp
          simp only [(pokeRow_keeps hm hf).1]

/-- A copy of a sample buffer contains the same samples; making it does not change the original or any other buffer; afterwards no
sequence of assignments to the samples of the copy changes the original or any other older buffer, and no sequence of
assignments to an older buffer changes the copy. -/
theorem C45_buffer_partial (R : Rows) (b : SharedBuffer) (hb : b.Valid R) :
    ∃ R' c, sharedCopy R b true = .ok (R', c) ∧ c.Valid R' ∧ c.value R' = b.value R ∧
      ∀ k : SharedBuffer, k.Valid R → k.Valid R' ∧ k.value R' = k.value R ∧
        (∀ ps S, pokes R' c ps = .ok S → k.value S = k.value R') ∧ ∀ ps S, pokes R' k ps = .ok S → c.value S = c.value R' := by
  obtain ⟨ni, ei, hi⟩ := copyRows_ok b.ints R.ints hb.1
  obtain ⟨nf, ef, hf⟩ := copyRows_ok b.floats R.floats hb.2
  have li : ni.length = b.ints.length := by rw [hi]; simp [contents]
  have lf : nf.length = b.floats.length := by rw [hf]; simp [contents]
  refine ⟨⟨R.ints ++ ni, R.floats ++ nf⟩, ⟨b.width, b.height, b.bufferType, (List.range b.floats.length).map (R.floats.length + ·),
    (List.range b.ints.length).map (R.ints.length + ·)⟩, ?_, ⟨?_, ?_⟩, ?_, ?_⟩
  · unfold sharedCopy
    rw [if_pos rfl, ei, Res.bind_ok, ef, Res.bind_ok]
  · intro a ha; simp at ha ⊢; omega
  · intro a ha; simp at ha ⊢; omega
  · unfold SharedBuffer.value
    simp only
    rw [← li, ← lf, contents_new, contents_new, hi, hf]
  · intro k hk
    refine ⟨⟨fun a ha => ?_, fun a ha => ?_⟩, ?_, ?_, ?_⟩
    · have := hk.1 a ha; simp; omega
    · have := hk.2 a ha; simp; omega
    · unfold SharedBuffer.value
      simp only
      rw [contents_append hk.1, contents_append hk.2]
    · intro ps S h
      refine pokes_keep ?_ ?_ ps _ _ h
      · intro a ha hk'; have := hk.1 a hk'; simp at ha; omega
      · intro a ha hk'; have := hk.2 a hk'; simp at ha; omega
    · intro ps S h
      refine pokes_keep ?_ ?_ ps _ _ h
      · intro a ha hk'; have := hk.1 a ha; simp at hk'; omega
      · intro a ha hk'; have := hk.2 a ha; simp at hk'; omega

/-- The hypotheses are met by a buffer that shares a row with another one, and the assignments exist. -/
example : (⟨2, 2, 0, [], [0, 1]⟩ : SharedBuffer).Valid ⟨[[1, 2], [3, 4]], []⟩ ∧ (⟨2, 1, 0, [], [1]⟩ : SharedBuffer).Valid ⟨[[1, 2], [3, 4]], []⟩ := by
  constructor <;> constructor <;> intro a ha <;> simp at ha ⊢ <;> omega
example : ∃ R c S, sharedCopy ⟨[[1, 2], [3, 4]], []⟩ ⟨2, 2, 0, [], [0, 1]⟩ true = .ok (R, c) ∧ pokes R c [.int 0 1 7] = .ok S ∧
    c.value S = ⟨2, 2, 0, [], [[1, 7], [3, 4]]⟩ := ⟨_, _, _, rfl, rfl, rfl⟩

/-- The code does not have the property for images: the copy of an image has none of its channels, whatever the image. -/
theorem C45_image_copy_is_empty (img : JXLImage) (copyIt : Bool) : (newFromImage img copyIt).buffers = [] := rfl

/-- So the copy of an image that has a channel is another image. -/
theorem C45_image_copy_differs (img : JXLImage) (copyIt : Bool) (h : img.buffers ≠ []) : newFromImage img copyIt ≠ img := by
  intro e
  apply h
  rw [← e]
  rfl

/-- And the only function that uses the copy crashes on every image it gets that far with. -/
theorem C45_transfer_crashes (f : F32 → F32) (img img' : JXLImage)
    (h : castChannels mask32 (if img.colourEncoding = 1 then 1 else 3) img = .ok img') : transferWithOp f img = .panic := by
  unfold transferWithOp
  dsimp only
  rw [h, Res.bind_ok]
  have : ∀ n (g : Nat → List ImageBuffer → Res (List ImageBuffer)), (∀ bs, bs = [] → g 0 bs = .panic) → forFrom g (n + 1) 0 [] = .panic := by
    intro n g hg
    unfold forFrom
    rw [hg [] rfl]
    rfl
  have e : ∀ c : Nat, (if c = 1 then 1 else 3) = (if c = 1 then 0 else 2) + 1 := by intro c; split <;> rfl
  rw [e, show (newFromImage img' false).buffers = [] from rfl, this]
  · rfl
  · intro bs hbs; subst hbs; rfl

/-- A header for the examples. -/
def sampleHeader : ImageHeader :=
  ⟨⟨2, 1⟩, 1, ⟨2, 1⟩, none, none, BitDepth.dflt, true, [], [], false, { ColourEncoding.dflt with space := 1 }, ToneMapping.dflt, Extensions.none, none, none, none, none⟩

/-- A gray image of two pixels is such an image. -/
example : ∃ img', castChannels mask32 1 ⟨[⟨2, 1, 1, [[.fin 0, .fin 1]], []⟩], none, [8], priSRGB, wpD65, sampleHeader, 2, 1, 1, -1, 1, 1,
    tfLinear, tfPQ, false⟩ = .ok img' := ⟨_, rfl⟩

/-- Comparison of integer buffers: equal exactly if type, size and samples are equal. -/
theorem C45_equal_ints (a b : ImageBuffer) (ha : a.bufferType = 0) :
    a.equals b = true ↔ b.bufferType = 0 ∧ a.width = b.width ∧ a.height = b.height ∧ a.ints = b.ints := by
  have hrow : ∀ r s : List Int, r.length = s.length → (compareRow (fun x y => decide (x = y)) r s = true ↔ r = s) := by
    intro r
    induction r with
    | nil => intro s h; cases s <;> simp_all [compareRow]
    | cons x xs ih =>
      intro s h
      cases s with
      | nil => simp at h
      | cons y ys =>
        have := ih ys (by simpa using h)
        simp only [compareRow, List.cons.injEq]
        by_cases hxy : x = y
        · simp [hxy, this]
        · simp [hxy]
  have hrows : ∀ m n : List (List Int), m.length = n.length → (compareRows (fun x y => decide (x = y)) m n = true ↔ m = n) := by
    intro m
    induction m with
    | nil => intro n h; cases n <;> simp_all [compareRows]
    | cons x xs ih =>
      intro n h
      cases n with
      | nil => simp at h
      | cons y ys =>
        have := ih ys (by simpa using h)
        simp only [compareRows, List.cons.injEq]
        by_cases hl : x.length = y.length
        · have := hrow x y hl
          by_cases hxy : x = y <;> simp_all
        · rw [if_pos hl]
          constructor
          · intro h; cases h
          · intro h; exact absurd (congrArg List.length h.1) hl
  unfold ImageBuffer.equals compareMatrix2D
  rw [ha]
  by_cases hw : a.width = b.width ∧ a.height = b.height
  · rw [if_neg (by omega)]
    by_cases hb : b.bufferType = 0
    · rw [hb, if_neg (by decide), if_pos rfl]
      by_cases hl : a.ints.length = b.ints.length
      · rw [if_neg (by simpa using hl), hrows _ _ hl]
        simp [hw]
      · rw [if_pos hl]
        constructor
        · intro h; cases h
        · intro h; exact absurd (congrArg List.length h.2.2.2) hl
    · rw [if_pos (by omega)]
      constructor
      · intro h; cases h
      · intro h; exact absurd h.1 hb
  · rw [if_pos (by omega)]
    constructor
    · intro h; cases h
    · intro h; exact absurd ⟨h.2.1, h.2.2.1⟩ hw

/-- A float buffer that contains a NaN is not equal to itself. -/
theorem C45_nan_differs_from_itself (b : ImageBuffer) (ht : b.bufferType = 1) (r : List F32) (hr : r ∈ b.floats) (hn : F32.nan ∈ r) :
    b.equals b = false := by
  have hrow : ∀ r : List F32, F32.nan ∈ r → compareRow F32.eq r r = false := by
    intro r
    induction r with
    | nil => intro h; simp at h
    | cons x xs ih =>
      intro h
      unfold compareRow
      rcases List.mem_cons.mp h with h | h
      · subst h; rfl
      · rw [ih h]; simp
  have hrows : ∀ m : List (List F32), r ∈ m → compareRows F32.eq m m = false := by
    intro m
    induction m with
    | nil => intro h; simp at h
    | cons x xs ih =>
      intro h
      unfold compareRows
      rcases List.mem_cons.mp h with h | h
      · subst h; rw [hrow _ hn]; simp
      · rw [ih h]; simp
  unfold ImageBuffer.equals compareMatrix2D
  simp [ht, hrows _ hr]

example : (⟨1, 1, 1, [[F32.nan]], []⟩ : ImageBuffer).bufferType = 1 ∧ [F32.nan] ∈ (⟨1, 1, 1, [[F32.nan]], []⟩ : ImageBuffer).floats := by
  simp

end Jxl
