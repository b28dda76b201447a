import Verif.Proofs.ICCCmds
import Verif.Proofs.Safe
/-!
# C40, C57: colour profiles
-/
namespace Jxl
open Spec

/-! ## C40: contexts, interleaving, predictions -/

theorem getD_byte {l : List Nat} (h : ∀ v ∈ l, v < 256) (i : Nat) : l.getD i 0 < 256 := by
  rw [List.getD_eq_getElem?_getD]
  cases e : l[i]? with
  | none => decide
  | some v => exact h v (List.mem_of_getElem? e)

/-- C40: the context used for the next byte of an encoded profile is the format's, for every history. -/
theorem C40_context (done : List Nat) (hb : ∀ v ∈ done, v < 256) (n : Nat) (h : done.length ≤ n) : iccContext (done ++ List.replicate (n - done.length) 0) done.length = .ok (contextOfNext done) := by
  unfold iccContext contextOfNext
  by_cases h1 : done.length ≤ 128
  · rw [if_pos h1, if_pos h1]
  · rw [if_neg h1, if_neg h1]
    have e1 := out_idx (out := done) (size := n) (k := done.length - 1) (by omega) h
    have e2 := out_idx (out := done) (size := n) (k := done.length - 2) (by omega) h
    rw [show ((done.length : Int) - 1) = ((done.length - 1 : Nat) : Int) by omega, show ((done.length : Int) - 2) = ((done.length - 2 : Nat) : Int) by omega, e1, Res.bind_ok, e2, Res.bind_ok]
    have k1 : ∀ b, b < 256 → iccKind1 b = classOfLast b := by
      intro b _
      unfold iccKind1 classOfLast isLetter isNumeric
      have a1 : 'a'.toNat = 97 := rfl
      have a2 : 'z'.toNat = 122 := rfl
      have a3 : 'A'.toNat = 65 := rfl
      have a4 : 'Z'.toNat = 90 := rfl
      have a5 : '0'.toNat = 48 := rfl
      have a6 : '9'.toNat = 57 := rfl
      have a7 : '.'.toNat = 46 := rfl
      have a8 : ','.toNat = 44 := rfl
      simp only [a1, a2, a3, a4, a5, a6, a7, a8, Bool.or_eq_true, Bool.and_eq_true, decide_eq_true_eq]
      repeat' split
      all_goals omega
    have k2 : ∀ b, iccKind2 b = classOfSecondLast b := by
      intro b
      unfold iccKind2 classOfSecondLast isLetter isNumeric
      have a1 : 'a'.toNat = 97 := rfl
      have a2 : 'z'.toNat = 122 := rfl
      have a3 : 'A'.toNat = 65 := rfl
      have a4 : 'Z'.toNat = 90 := rfl
      have a5 : '0'.toNat = 48 := rfl
      have a6 : '9'.toNat = 57 := rfl
      have a7 : '.'.toNat = 46 := rfl
      have a8 : ','.toNat = 44 := rfl
      simp only [a1, a2, a3, a4, a5, a6, a7, a8, Bool.or_eq_true, Bool.and_eq_true, decide_eq_true_eq]
      repeat' split
      all_goals omega
    rw [k1 _ (getD_byte hb _), k2]

/-- C40: contexts lie in 0..40, so the 41 distributions of the profile's entropy stream suffice. -/
theorem C40_context_range (done : List Nat) : contextOfNext done ≤ 40 := by
  unfold contextOfNext classOfLast classOfSecondLast
  repeat' split
  all_goals omega

example : contextOfNext (List.replicate 129 200 ++ [250, 7]) = 1 + 4 + 8 * 3 ∧ contextOfNext (List.replicate 128 65) = 0 := by decide +kernel

theorem getD_map (b : List Nat) : (List.range b.length).map (fun j => b.getD j 0) = b := by
  apply List.ext_getElem
  · simp
  · intro i h1 h2
    simp [List.getD_eq_getElem?_getD, List.getElem?_eq_getElem h2]

/-- C40 (partial: lengths): interleaving returns the format's order of the bytes, which is a permutation of them. -/
theorem C40_shuffle_partial (b : List Nat) (w : Nat) (hL : b.length < 2 ^ 31) (hok : w = 2 ∨ (w = 4 ∧ (b.length ≤ 2 ∨ b.length % 4 = 0 ∨ b.length % 4 = 3))) :
    iccShuffle b w = .ok (interleave w b) ∧ (interleave w b).Perm b := by
  have hok : ShuffleOK w b.length := hok
  refine ⟨shuffle_ok hok hL, ?_⟩
  rw [interleave_eq hok]
  obtain ⟨h, hh⟩ : ∃ h, h = (b.length + w - 1) / w := ⟨_, rfl⟩
  rw [← hh]
  have e : shuffled b w h b.length = ((List.range b.length).map (fun j => j / w + j % w * h)).map (fun j => b.getD j 0) := by
    rw [List.map_map]
    unfold shuffled
    refine List.map_congr_left (fun j hj => ?_)
    rw [if_pos (shuffle_src h hok hh (List.mem_range.mp hj)).1]
    rfl
  rw [e]
  conv_rhs => rw [← getD_map b]
  refine List.Perm.map _ ?_
  refine (List.perm_ext_iff_of_nodup ?_ List.nodup_range).mpr (fun i => ?_)
  · refine List.Nodup.map_on ?_ List.nodup_range
    intro x hx y hy hxy
    have hx := (shuffle_src h hok hh (List.mem_range.mp hx)).2
    have hy := (shuffle_src h hok hh (List.mem_range.mp hy)).2
    rw [← hx, ← hy, hxy]
  · rw [List.mem_map, List.mem_range]
    constructor
    · rintro ⟨j, hj, rfl⟩
      exact (shuffle_src h hok hh (List.mem_range.mp hj)).1
    · intro hi
      obtain ⟨d1, d2⟩ := shuffle_dest h hok hh hi
      exact ⟨_, List.mem_range.mpr d1, d2⟩

example : interleave 4 [1, 2, 3, 4, 5, 6, 7] = [1, 3, 5, 7, 2, 4, 6] ∧ interleave 2 [1, 2, 3, 4, 5] = [1, 4, 2, 5, 3] := by decide

theorem shuffleLoop_bad (b : List Nat) (w h : Int) (j : Nat) (hj : j < b.length) (hbad : i32 (i32 ((j : Int) % h * w) + (j : Int) / h) ≥ b.length) :
    ∀ (n i : Nat) (r : List Nat), r.length = b.length → i ≤ j → j < i + n → i + n = b.length → shuffleLoop b w h n i r = .panic
  | 0, i, r, _, h1, h2, _ => by omega
  | n + 1, i, r, hr, h1, h2, h3 => by
    have e1 : idx b (i : Int) = .ok (b.getD i 0) := by
      apply idx_of_getElem?
      rw [List.getD_eq_getElem?_getD, List.getElem?_eq_getElem (by omega)]; rfl
    unfold shuffleLoop
    rw [e1, Res.bind_ok]
    by_cases hij : i = j
    · subst hij
      unfold setAt
      rw [if_neg (by omega), if_neg (by rw [hr]; omega)]
      rfl
    · unfold setAt
      split
      · rfl
      split
      · rw [Res.bind_ok]
        exact shuffleLoop_bad b w h j hj hbad n (i + 1) _ (by rw [List.length_set]; exact hr) (by omega) (by omega) (by omega)
      · rfl

/-- C40 is false of the code: interleaving four columns crashes for every other length. -/
theorem C40_shuffle_crashes (b : List Nat) (h5 : 5 ≤ b.length) (hL : b.length < 2 ^ 31) (hm : b.length % 4 = 1 ∨ b.length % 4 = 2) : iccShuffle b 4 = .panic := by
  unfold iccShuffle
  simp only
  rw [shuffle_height (Or.inr rfl) (by omega) hL]
  obtain ⟨h, hh⟩ : ∃ h, h = (b.length + 4 - 1) / 4 := ⟨_, rfl⟩
  rw [← hh]
  have h2 : 2 ≤ h := by omega
  have key : ∃ j, j < b.length ∧ j % h * 4 + j / h = b.length := by
    rcases hm with hm | hm
    · refine ⟨2 * h - 1, by omega, ?_⟩
      have e1 : (2 * h - 1) % h = h - 1 := by
        rw [show 2 * h - 1 = h - 1 + h by omega, Nat.add_mod_right, Nat.mod_eq_of_lt (by omega)]
      have e2 : (2 * h - 1) / h = 1 := by
        rw [show 2 * h - 1 = h - 1 + h by omega, Nat.add_div_right _ (by omega), Nat.div_eq_of_lt (by omega)]
      rw [e1, e2]; omega
    · refine ⟨3 * h - 1, by omega, ?_⟩
      have e1 : (3 * h - 1) % h = h - 1 := by
        rw [show 3 * h - 1 = h - 1 + h + h by omega, Nat.add_mod_right, Nat.add_mod_right, Nat.mod_eq_of_lt (by omega)]
      have e2 : (3 * h - 1) / h = 2 := by
        rw [show 3 * h - 1 = h - 1 + h + h by omega, Nat.add_div_right _ (by omega), Nat.add_div_right _ (by omega), Nat.div_eq_of_lt (by omega)]
      rw [e1, e2]; omega
  obtain ⟨j, hj, he⟩ := key
  refine shuffleLoop_bad b 4 h j hj ?_ b.length 0 _ (by simp) (by omega) (by omega) (by omega)
  have e2 : i32 (i32 ((j : Int) % (h : Int) * 4) + (j : Int) / (h : Int)) = ((j % h * 4 + j / h : Nat) : Int) := by
    rw [← Int.natCast_mod, ← Int.natCast_ediv, show ((j % h : Nat) : Int) * 4 = ((j % h * 4 : Nat) : Int) by omega]
    exact shuffle_pos (by omega)
  rw [e2, he]

example : (List.replicate 6 0).length % 4 = 2 := by decide

/-- C40: predictions of header bytes never fault when the profile has at least 42 bytes, whatever the buffer holds. -/
theorem C40_prediction_partial (buffer : List Nat) (i : Nat) (hi : i < 128) (hb : 42 ≤ buffer.length) : ∃ p, iccPrediction buffer i = .ok p := by
  have hx : ∀ k : Nat, k < buffer.length → ∃ v, idx buffer (k : Int) = .ok v := by
    intro k hk
    exact ⟨_, idx_of_getElem? _ _ _ (List.getElem?_eq_getElem hk)⟩
  obtain ⟨b40, e40⟩ := hx 40 (by omega)
  obtain ⟨b41, e41⟩ := hx 41 (by omega)
  have e41' : ∃ v, iccB41 buffer b40 = .ok v := by
    unfold iccB41
    split
    · exact ⟨b41, e41⟩
    · exact ⟨0, rfl⟩
  obtain ⟨v41, e41'⟩ := e41'
  have hlit : ∀ (l : List Nat) (k : Nat), k < l.length → ∃ v, idx l (k : Int) = .ok v := fun l k hk => ⟨_, idx_of_getElem? _ _ _ (List.getElem?_eq_getElem hk)⟩
  unfold iccPrediction
  by_cases c1 : i ≤ 3
  · rw [if_pos c1]; exact ⟨_, rfl⟩
  rw [if_neg c1]
  by_cases c2 : i = 8
  · rw [if_pos c2]; exact ⟨_, rfl⟩
  rw [if_neg c2]
  by_cases c3 : 12 ≤ i ∧ i ≤ 23
  · rw [if_pos c3]
    obtain ⟨v, e⟩ := hlit (ascii ['m', 'n', 't', 'r', 'R', 'G', 'B', ' ', 'X', 'Y', 'Z', ' ']) (i - 12) (show i - 12 < 12 by omega)
    rw [show ((i : Int) - 12) = ((i - 12 : Nat) : Int) by omega, e]
    exact ⟨_, rfl⟩
  rw [if_neg c3]
  by_cases c4 : 36 ≤ i ∧ i ≤ 39
  · rw [if_pos c4]
    obtain ⟨v, e⟩ := hlit (ascii ['a', 'c', 's', 'p']) (i - 36) (show i - 36 < 4 by omega)
    rw [show ((i : Int) - 36) = ((i - 36 : Nat) : Int) by omega, e]
    exact ⟨_, rfl⟩
  rw [if_neg c4]
  have e40 : idx buffer 40 = .ok b40 := e40
  rw [e40, Res.bind_ok, e41', Res.bind_ok]
  have hite : ∀ (q : Prop) [Decidable q] (x : Int) (r : Res Int), (∃ p, r = .ok p) → ∃ p, (if q then Res.ok x else r) = .ok p := by
    intro q _ x r hr
    by_cases hq : q
    · rw [if_pos hq]; exact ⟨x, rfl⟩
    · rw [if_neg hq]; exact hr
  repeat' refine hite _ _ _ ?_
  by_cases h80 : 80 ≤ i ∧ i < 84
  · obtain ⟨v, e⟩ := hx (i - 76) (by omega)
    rw [if_pos h80, show ((i : Int) - 76) = ((i - 76 : Nat) : Int) by omega, e, Res.bind_ok]
    exact ⟨_, rfl⟩
  · rw [if_neg h80]
    exact ⟨_, rfl⟩

example : (iccPrediction (List.replicate 42 0) 70) = .ok 246 := by decide

/-- The action crashes. -/
def Panics (E : IEnv) {α : Type} (m : IM α) (c d out : List Nat) : Prop := ∀ s, IccAt E c d out s → m s = .panic

theorem Panics.bind {E : IEnv} {α β : Type} {m : IM α} {f : α → IM β} {c d out : List Nat} (h : Panics E m c d out) : Panics E (m >>= f) c d out := by
  intro s hs
  show (match m s with | .ok (a, s') => f a s' | .err => .err | .panic => .panic) = _
  rw [h s hs]

theorem Panics.after {E : IEnv} {α β : Type} {m : IM α} {f : α → IM β} {a : α} {c d out c1 d1 out1 : List Nat} (h1 : Does E m a c d out c1 d1 out1) (h2 : Panics E (f a) c1 d1 out1) :
    Panics E (m >>= f) c d out := by
  intro s hs
  obtain ⟨s1, e1, i1⟩ := h1 s hs
  rw [IM.bind_ok e1]
  exact h2 s1 i1

theorem Panics.get {E : IEnv} {β : Type} {f : Icc → IM β} {c d out : List Nat} (h : ∀ s, IccAt E c d out s → Panics E (f s) c d out) :
    Panics E ((fun s => .ok (s, s) : IM Icc) >>= f) c d out := by
  intro s hs
  rw [IM.bind_ok (a := s) (s' := s) rfl]
  exact h s hs s hs

theorem Panics.lift {E : IEnv} {α : Type} {r : Res α} (h : r = .panic) (c d out : List Nat) : Panics E (IM.lift r) c d out := by
  intro s _
  rw [h]; rfl

theorem panics_header (E : IEnv) (h5 : 5 ≤ E.size) (h40 : E.size ≤ 40) : ∀ (es c d done : List Nat), done.length ≤ 4 → 5 ≤ done.length + es.length → Panics E (iccHeader es.length done.length) c (es ++ d) done
  | [], c, d, done, h1, h2 => by simp at h2; omega
  | e :: es, c, d, done, h1, h2 => by
    refine Panics.after (does_dataByte E e c (es ++ d) done) (Panics.get fun s hs => ?_)
    by_cases h4 : done.length = 4
    · have hout : s.out.length = E.size := by rw [hs.2.2.1]; simp; omega
      have hp : iccPrediction s.out 4 = .panic := by
        unfold iccPrediction
        rw [if_neg (by decide), if_neg (by decide), if_neg (by decide), if_neg (by decide)]
        have : idx s.out 40 = .panic := by
          unfold idx
          rw [if_neg (by decide), List.getElem?_eq_none (by rw [hout]; exact h40)]
        rw [this]; rfl
      rw [h4]
      exact Panics.bind (Panics.lift hp _ _ _)
    · obtain ⟨p, hp, _⟩ := prediction_ok (size := E.size) (done := done) (by omega) (by omega) (by omega) (by omega)
      have hp : iccPrediction s.out done.length = .ok p := by rw [hs.2.2.1]; exact hp
      have k := Panics.after (f := fun _ => iccHeader es.length (done.length + 1)) (does_put E (i32 ((e : Int) + p)) c (es ++ d) done (by omega)) (by
        have := panics_header E h5 h40 es c d (done ++ [(i32 ((e : Int) + p) % 256).toNat]) (by simp; omega) (by simp at h2 ⊢; omega)
        rw [show (done ++ [(i32 ((e : Int) + p) % 256).toNat]).length = done.length + 1 by simp] at this
        exact this)
      exact Panics.after (Does.lift hp _ _ _) k

/-- C40 is false of the code: every profile of 5 to 40 bytes crashes the decoder, whatever its bytes. -/
theorem C40_short_crashes (es : List Nat) (hb : ∀ v ∈ es, v < 256) (h5 : 5 ≤ es.length) (h40 : es.length ≤ 40) : getDecodedICC ((encodeShort es).map UInt8.ofNat) = .panic := by
  have hvl : ∀ n, n < 128 → (encVarint n).length = 1 := by
    intro n hn
    unfold encVarint
    rw [if_pos hn]; rfl
  obtain ⟨E, s, h1, h2, h3, h4, h5', h6⟩ := decode_start es.length [] es (by omega) (by simpa using hb) (by
    simp only [List.length_append, List.length_nil, hvl es.length (by omega), hvl 0 (by omega)]; omega)
  have henc : (encodeShort es).map UInt8.ofNat = E.enc := by rw [h3]; simp [encodeShort]
  rw [henc, h6]
  have k := panics_header E (by omega) (by omega) es [] [] [] (by simp) (by simpa using h5)
  rw [List.append_nil] at k
  have := k s h4
  rw [show min 128 es.length = es.length by omega]
  rw [List.length_nil] at this
  rw [this]

example : getDecodedICC ((encodeShort [0, 0, 0, 0, 0]).map UInt8.ofNat) = .panic := C40_short_crashes _ (by decide) (by decide) (by decide)

theorem safe_varint : Safe readICCVarint (fun v => -2147483648 ≤ v ∧ v < 2147483648) := by
  have h : ∀ (k i value : Nat) (s : BR), 9 - i ≤ k → SafeRes (readICCVarintLoop i value s).1 (fun _ => True) := by
    intro k
    induction k with
    | zero =>
      intro i value s hk
      unfold readICCVarintLoop
      rw [if_pos (by omega)]
      trivial
    | succ k ih =>
      intro i value s hk
      unfold readICCVarintLoop
      split
      · trivial
      · have hb := safe_bits 8 s
        rcases hr : readBits 8 s with ⟨_ | _ | _, s'⟩
        · simp only
          split
          · trivial
          · exact ih _ _ _ (by omega)
        · trivial
        · rw [hr] at hb; exact hb
  unfold readICCVarint
  refine Safe.bind (show Safe (readICCVarintLoop 0 0) (fun _ => True) from fun s => h 9 0 0 s (by omega)) (fun a _ => Safe.pure ?_)
  simp only [i32]; omega

/-- C40: varints never fault, on any stream. -/
theorem C40_varint (s : BR) : (readICCVarint s).1 ≠ .panic := safe_varint.noPanic s

/-! ## C57: a profile is decoded to what its stream describes -/

/-- C57 (partial: lengths of four-column interleaving, sizes below 2^31): the decoder returns the profile described by the stream. -/
theorem C57_profile_partial (p : Profile) (size : Nat) (hv : p.Valid size) (hs : size < 2 ^ 31) (hl : (p.encode size).length < 2 ^ 31) (ht : p.tagCount < 2 ^ 31)
    (hh : ∀ c ∈ p.cmds, Handles c) : getDecodedICC ((p.encode size).map UInt8.ofNat) = .ok (p.meaning size) :=
  icc_decodes p size hv hs hl ht hh

/-- C57: profiles that consist of (part of) a header only. -/
theorem C57_short_partial (es : List Nat) (hb : ∀ v ∈ es, v < 256) (h128 : es.length ≤ 128) (h : es.length ≤ 4 ∨ 41 ≤ es.length) :
    getDecodedICC ((encodeShort es).map UInt8.ofNat) = .ok (headerBytes es.length [] es) :=
  icc_short es hb h128 h

theorem header_onto (size : Nat) : ∀ (t done : List Nat), (∀ v ∈ t, v < 256) → ∃ es, es.length = t.length ∧ (∀ v ∈ es, v < 256) ∧ headerBytes size done es = done ++ t
  | [], done, _ => ⟨[], rfl, fun v hv => (by cases hv), by simp [headerBytes]⟩
  | x :: t, done, hb => by
    have hx := hb x (by simp)
    obtain ⟨es, h1, h2, h3⟩ := header_onto size t (done ++ [x]) (fun v hv => hb v (by simp [hv]))
    refine ⟨(x + 256 - headerGuess size done done.length % 256) % 256 :: es, by simp [h1], ?_, ?_⟩
    · intro v hv
      rcases List.mem_cons.mp hv with rfl | hv
      · omega
      · exact h2 v hv
    · unfold headerBytes
      rw [show ((x + 256 - headerGuess size done done.length % 256) % 256 + headerGuess size done done.length) % 256 = x by omega, h3]
      simp

theorem encVarint_short (v : Nat) (h : v < 2 ^ 31) : (encVarint v).length ≤ 5 := by
  unfold encVarint; split; simp
  unfold encVarint; split; simp
  unfold encVarint; split; simp
  unfold encVarint; split; simp
  unfold encVarint; split; simp
  omega

/-- C57: every profile with a header and a tag table (of fewer than 2^31 tags) can be stored: some valid stream decodes to exactly its bytes. -/
theorem C57_every_profile (hdr rest : List Nat) (tagCount : Nat) (hh : hdr.length = 128) (hb : ∀ v ∈ hdr, v < 256) (hr : ∀ v ∈ rest, v < 256) (ht : tagCount < 2 ^ 31)
    (hs : rest.length + 200 < 2 ^ 31) :
    ∃ p : Profile, p.Valid (132 + rest.length) ∧
      getDecodedICC ((p.encode (132 + rest.length)).map UInt8.ofNat) = .ok (hdr ++ be32 tagCount ++ rest) := by
  obtain ⟨es, e1, e2, e3⟩ := header_onto (132 + rest.length) hdr [] hb
  rw [List.nil_append] at e3
  have hm : Profile.meaning ⟨es, tagCount, [], true, [.insert rest]⟩ (132 + rest.length) = hdr ++ be32 tagCount ++ rest := by
    unfold Profile.meaning
    simp only
    rw [e3]
    simp [tagTable, IccCmd.run]
  have hv : Profile.Valid ⟨es, tagCount, [], true, [.insert rest]⟩ (132 + rest.length) := by
    refine ⟨by simp [e1, hh], e2, by simp; omega, by simp, Or.inr rfl, ⟨hr, trivial⟩, ?_⟩
    rw [hm]
    simp [be32, hh]; omega
  refine ⟨_, hv, ?_⟩
  rw [C57_profile_partial _ _ hv (by omega) ?_ ht (by simp [Handles]), hm]
  have k1 := encVarint_short (132 + rest.length) (by omega)
  have k2 := encVarint_short (tagCount + 1)
  have k3 := encVarint_short rest.length (by omega)
  have k2 : (encVarint (tagCount + 1)).length ≤ 6 := by
    rcases Nat.lt_or_ge (tagCount + 1) (2 ^ 31) with h | h
    · have := k2 h
      omega
    · rw [show tagCount + 1 = 2147483648 by omega]
      simp [encVarint]
  have k4 := encVarint_short (Profile.cmdBytes ⟨es, tagCount, [], true, [.insert rest]⟩).length (by simp [Profile.cmdBytes, IccCmd.cmdBytes]; omega)
  unfold Profile.encode
  rw [List.length_append, List.length_append, List.length_append]
  simp [Profile.cmdBytes, Profile.dataBytes, IccCmd.cmdBytes, IccCmd.dataBytes] at k4 ⊢
  omega

/-- A profile with three kinds of tags and six kinds of commands. -/
def sampleProfile : Profile :=
  ⟨List.replicate 128 7, 7, [⟨.trc, some 216, some 32⟩, ⟨.xyz, none, none⟩, ⟨.named [97, 98, 99, 100], none, some 8⟩], true,
    [.type 5, .insert [1, 2, 3, 4], .predict 2 1 (some 4) [1, 2, 3, 4], .shuffle4 [1, 2, 3, 4, 5, 6, 7], .xyz (List.replicate 12 9), .predict 4 2 none [1, 1, 1, 1, 0, 0, 0, 255]]⟩

example : sampleProfile.Valid 267 := by
  refine ⟨by decide +kernel, by decide +kernel, by decide, ?_, Or.inr rfl, ?_, by decide +kernel⟩
  · intro t ht
    have : t = ⟨.trc, some 216, some 32⟩ ∨ t = ⟨.xyz, none, none⟩ ∨ t = ⟨.named [97, 98, 99, 100], none, some 8⟩ := by simpa [sampleProfile] using ht
    rcases this with rfl | rfl | rfl <;> refine ⟨?_, ?_, ?_⟩ <;> simp
  · refine ⟨trivial, show ∀ v ∈ [1, 2, 3, 4], v < 256 by decide, ⟨by decide, by decide, by decide, by decide, by decide +kernel⟩, show ∀ v ∈ [1, 2, 3, 4, 5, 6, 7], v < 256 by decide, ⟨by decide, by decide⟩, ⟨by decide, by decide, by decide, by decide, by decide +kernel⟩, trivial⟩

example : ∀ c ∈ sampleProfile.cmds, Handles c := by
  intro c hc
  simp only [sampleProfile, List.mem_cons, List.not_mem_nil, or_false] at hc
  rcases hc with rfl | rfl | rfl | rfl | rfl | rfl <;> simp [Handles]

/-- C57 is false of the code: when the number of tags is written as 0, the commands are ignored and the profile is filled up with zeros. -/
theorem C57_bare_ignored (es : List Nat) (cmds : List IccCmd) (size : Nat) (hes : es.length = 128) (hb : ∀ v ∈ es, v < 256) (hv : CmdsValid (headerBytes size [] es) cmds)
    (h128 : 128 < size) (hs : size < 2 ^ 31) (hl : (encodeBare size es cmds).length < 2 ^ 31) :
    getDecodedICC ((encodeBare size es cmds).map UInt8.ofNat) = .ok (headerBytes size [] es ++ List.replicate (size - 128) 0) := by
  obtain ⟨b1, b2⟩ := cmds_byte cmds _ hv
  obtain ⟨E, s, h1, h2, h3, h4, h5, h6⟩ := decode_start size (encVarint 0 ++ cmds.flatMap IccCmd.cmdBytes) (es ++ cmds.flatMap IccCmd.dataBytes) hs (fun x hx => by
    rw [List.mem_append, List.mem_append, List.mem_append] at hx
    rcases hx with (hx | hx) | (hx | hx)
    · exact encVarint_byte _ x hx
    · exact b1 x hx
    · exact hb x hx
    · exact b2 x hx) hl
  have henc : (encodeBare size es cmds).map UInt8.ofNat = E.enc := h3.symm
  rw [henc, h6]
  subst h1
  have k := does_header E (by omega) es (encVarint 0 ++ cmds.flatMap IccCmd.cmdBytes) (cmds.flatMap IccCmd.dataBytes) [] (by simp [hes]) (by simp [hes]; omega) (by omega)
  rw [hes] at k
  have k2 : Does E (iccBody E.ds (E.enc.length + 1)) () (encVarint 0 ++ cmds.flatMap IccCmd.cmdBytes) (cmds.flatMap IccCmd.dataBytes) (headerBytes E.size [] es)
      (cmds.flatMap IccCmd.cmdBytes) (cmds.flatMap IccCmd.dataBytes) (headerBytes E.size [] es) :=
    Does.bind (does_cmdVarint E 0 (by decide) _ _ _) (Does.pure _ _ _ _)
  obtain ⟨s1, g1, i1⟩ := k s h4
  obtain ⟨s2, g2, i2⟩ := k2 s1 i1
  rw [show min 128 E.size = 128 by omega]
  rw [List.length_nil] at g1
  rw [g1]
  simp only
  rw [if_neg, g2]
  · simp only
    rw [i2.2.2.1, headerBytes_length, hes]
    simp
  · rw [i1.2.2.2.1, headerBytes_length, hes]
    simp; omega

example : CmdsValid (headerBytes 129 [] (List.replicate 128 0)) [.insert [5]] ∧ [IccCmd.insert [5]].foldl IccCmd.run (headerBytes 129 [] (List.replicate 128 0)) ≠ headerBytes 129 [] (List.replicate 128 0) ++ List.replicate 1 0 :=
  ⟨⟨show ∀ v ∈ [5], v < 256 by decide, trivial⟩, by decide +kernel⟩

/-- C57 is false of the code: a tag command with the unused code 21 crashes the decoder (the format calls the stream invalid). -/
theorem C57_tag21_crashes : getDecodedICC ([132, 1, 2, 1, 21] ++ List.replicate 128 0) = .panic := by decide +kernel

/-- C57 is false of the code: a stride of 2^30 passes the check (four times it wraps to 0) and crashes the decoder. -/
theorem C57_stride_crashes : getDecodedICC ([133, 1, 10, 1, 0, 4, 16, 128, 128, 128, 128, 4, 1] ++ List.replicate 129 0) = .panic := by decide +kernel

/-- C57 is false of the code: a size of 2^31 or more crashes the decoder. -/
theorem C57_size_crashes : getDecodedICC ([128, 128, 128, 128, 8, 0] ++ List.replicate 128 0) = .panic := by decide +kernel

/-- C57 is false of the code: command bytes that reach beyond the stream crash the decoder. -/
theorem C57_commands_crash : getDecodedICC ([132, 1, 127, 1] ++ List.replicate 64 0) = .panic := by decide +kernel

/-- The action does not change the length of the profile. -/
def Keeps {α : Type} (m : IM α) : Prop := ∀ s a s', m s = .ok (a, s') → s'.out.length = s.out.length

theorem Keeps.pure {α : Type} (a : α) : Keeps (Pure.pure a : IM α) := by
  intro s b s' h
  injection h with h
  rw [← (Prod.mk.inj h).2]

theorem Keeps.bind {α β : Type} {m : IM α} {f : α → IM β} (h1 : Keeps m) (h2 : ∀ a, Keeps (f a)) : Keeps (m >>= f) := by
  intro s b s' h
  have h : (match m s with | .ok (a, s') => f a s' | .err => .err | .panic => .panic) = .ok (b, s') := h
  cases e : m s with
  | ok p =>
    obtain ⟨a, s1⟩ := p
    rw [e] at h
    rw [h2 a s1 b s' h, h1 s a s1 e]
  | err => rw [e] at h; cases h
  | panic => rw [e] at h; cases h

theorem Keeps.fail {α : Type} : Keeps (IM.fail : IM α) := fun s a s' h => by cases h

theorem Keeps.lift {α : Type} (r : Res α) : Keeps (IM.lift r) := by
  intro s a s' h
  cases r with
  | ok b => injection h with h; rw [← (Prod.mk.inj h).2]
  | err => cases h
  | panic => cases h

theorem Keeps.get : Keeps (fun s => .ok (s, s) : IM Icc) := by
  intro s a s' h
  injection h with h
  rw [← (Prod.mk.inj h).2]

theorem Keeps.ite {α : Type} {c : Prop} [Decidable c] {m n : IM α} (h1 : Keeps m) (h2 : Keeps n) : Keeps (if c then m else n) := by
  split
  · exact h1
  · exact h2

theorem keeps_onCmd {α : Type} (m : Rd α) : Keeps (onCmd m) := by
  intro s a s' h
  unfold onCmd at h
  split at h
  · injection h with h; rw [← (Prod.mk.inj h).2]
  · cases h
  · cases h

theorem keeps_onData {α : Type} (m : Rd α) : Keeps (onData m) := by
  intro s a s' h
  unfold onData at h
  split at h
  · injection h with h; rw [← (Prod.mk.inj h).2]
  · cases h
  · cases h

theorem keeps_put (v : Int) : Keeps (put v) := by
  intro s a s' h
  unfold put at h
  split at h
  · rename_i out e
    injection h with h
    rw [← (Prod.mk.inj h).2]
    unfold setAt at e
    split at e
    · cases e
    split at e
    · injection e with e
      rw [← e, List.length_set]
    · cases e
  · cases h
  · cases h

theorem keeps_advance (n : Int) : Keeps (advance n) := by
  intro s a s' h
  injection h with h
  rw [← (Prod.mk.inj h).2]

theorem keeps_more (n : Nat) : Keeps (more n) := by
  intro s a s' h
  unfold more at h
  split at h
  · injection h with h; rw [← (Prod.mk.inj h).2]
  · injection h with h; rw [← (Prod.mk.inj h).2]

theorem keeps_putAll : ∀ l, Keeps (putAll l)
  | [] => Keeps.pure _
  | v :: l => Keeps.bind (keeps_put v) (fun _ => keeps_putAll l)

theorem keeps_putBE (v : Int) : Keeps (putBE v) :=
  Keeps.bind (keeps_put _) (fun _ => Keeps.bind (keeps_put _) (fun _ => Keeps.bind (keeps_put _) (fun _ => keeps_put _)))

theorem keeps_header : ∀ n i, Keeps (iccHeader n i)
  | 0, _ => Keeps.pure _
  | n + 1, i => Keeps.bind (keeps_onData _) (fun _ => Keeps.bind Keeps.get (fun _ => Keeps.bind (Keeps.lift _) (fun _ => Keeps.bind (keeps_put _) (fun _ => keeps_header n (i + 1)))))

theorem keeps_dataBytes : ∀ n, Keeps (dataBytes n)
  | 0 => Keeps.pure _
  | n + 1 => Keeps.bind (keeps_onData _) (fun _ => Keeps.bind (keeps_dataBytes n) (fun _ => Keeps.pure _))

theorem keeps_tagName (c : Nat) : Keeps (iccTagName c) :=
  Keeps.ite (keeps_dataBytes 4) (Keeps.ite (Keeps.pure _) (Keeps.ite (Keeps.pure _) (Keeps.ite (Keeps.lift _) Keeps.fail)))

theorem keeps_flagged (c : Bool) (d : Int) : Keeps (flagged c d) := Keeps.ite (keeps_onCmd _) (Keeps.pure _)

theorem keeps_putTag (n : List Nat) (v z : Int) : Keeps (putTag n v z) := Keeps.bind (keeps_putAll n) (fun _ => Keeps.bind (keeps_putBE v) (fun _ => keeps_putBE z))

theorem keeps_putTags (c : Nat) (n : List Nat) (v z : Int) : Keeps (putTags c n v z) :=
  Keeps.ite (Keeps.bind (keeps_putTag _ _ _) (fun _ => Keeps.bind (keeps_putTag _ _ _) (fun _ => keeps_putTag _ _ _)))
    (Keeps.ite (Keeps.bind (keeps_putTag _ _ _) (fun _ => Keeps.bind (keeps_putTag _ _ _) (fun _ => keeps_putTag _ _ _))) (keeps_putTag _ _ _))

theorem keeps_tagLoop (ds : Nat) : ∀ fuel v z, Keeps (iccTagLoop ds fuel v z)
  | 0, _, _ => fun s a s' h => by cases h
  | fuel + 1, v, z => by
    unfold iccTagLoop
    refine Keeps.bind (keeps_more ds) (fun _ => Keeps.ite (Keeps.pure _) ?_)
    refine Keeps.bind (keeps_onCmd _) (fun _ => Keeps.ite (Keeps.pure _) ?_)
    exact Keeps.bind (keeps_tagName _) (fun _ => Keeps.bind (keeps_flagged _ _) (fun _ => Keeps.bind (keeps_flagged _ _) (fun _ =>
      Keeps.bind (keeps_putTags _ _ _ _) (fun _ => keeps_tagLoop ds fuel _ _))))

theorem keeps_readBuf (n : Int) : Keeps (readBuf n) := Keeps.ite (fun s a s' h => by cases h) (keeps_dataBytes _)

theorem keeps_copyIn (b : List Nat) : Keeps (copyIn b) := by
  intro s a s' h
  unfold copyIn at h
  split at h
  · cases h
  · rename_i hp
    injection h with h
    rw [← (Prod.mk.inj h).2]
    simp
    omega

theorem keeps_putPred (b : List Nat) (p : Int) (width i num : Nat) : ∀ n j, Keeps (iccPutPred b p width i num n j)
  | 0, _ => Keeps.pure _
  | n + 1, j => by
    unfold iccPutPred
    exact Keeps.ite (Keeps.bind (Keeps.lift _) (fun _ => Keeps.bind (keeps_put _) (fun _ => keeps_putPred b p width i num n (j + 1)))) (Keeps.pure _)

theorem keeps_predLoop (b : List Nat) (stride : Int) (width order num : Nat) : ∀ fuel i, Keeps (iccPredLoop b stride width order num fuel i)
  | 0, _ => Keeps.pure _
  | fuel + 1, i => by
    unfold iccPredLoop
    exact Keeps.ite (Keeps.bind Keeps.get (fun _ => Keeps.bind (Keeps.lift _) (fun _ => Keeps.bind (keeps_putPred _ _ _ _ _ _ _) (fun _ =>
      keeps_predLoop b stride width order num fuel (i + width))))) (Keeps.pure _)

theorem keeps_predict : Keeps iccPredict := by
  unfold iccPredict
  refine Keeps.bind (keeps_onCmd _) (fun _ => Keeps.ite Keeps.fail (Keeps.ite Keeps.fail ?_))
  refine Keeps.bind (keeps_flagged _ _) (fun _ => Keeps.bind Keeps.get (fun _ => Keeps.ite Keeps.fail (Keeps.ite Keeps.fail ?_)))
  refine Keeps.bind (keeps_onCmd _) (fun _ => Keeps.bind (keeps_readBuf _) (fun _ => Keeps.bind (Keeps.ite (Keeps.lift _) (Keeps.pure _)) (fun _ => keeps_predLoop _ _ _ _ _ _ _)))

theorem keeps_copyData : ∀ n, Keeps (copyData n)
  | 0 => Keeps.pure _
  | n + 1 => Keeps.bind (keeps_onData _) (fun _ => Keeps.bind (keeps_put _) (fun _ => keeps_copyData n))

theorem keeps_command (c : Nat) : Keeps (iccCommand c) := by
  unfold iccCommand
  refine Keeps.ite (Keeps.bind (keeps_onCmd _) (fun _ => keeps_copyData _)) (Keeps.ite ?_ (Keeps.ite keeps_predict (Keeps.ite ?_ (Keeps.ite ?_ Keeps.fail))))
  · exact Keeps.bind (keeps_onCmd _) (fun _ => Keeps.bind (keeps_readBuf _) (fun _ => Keeps.bind (Keeps.lift _) (fun _ => keeps_copyIn _)))
  · exact Keeps.bind (keeps_putAll _) (fun _ => Keeps.bind (keeps_advance _) (fun _ => keeps_copyData _))
  · exact Keeps.bind (Keeps.lift _) (fun _ => Keeps.bind (keeps_putAll _) (fun _ => keeps_advance _))

theorem keeps_cmdLoop (ds : Nat) : ∀ fuel, Keeps (iccCmdLoop ds fuel)
  | 0 => fun s a s' h => by cases h
  | fuel + 1 => by
    unfold iccCmdLoop
    exact Keeps.bind (keeps_more ds) (fun _ => Keeps.ite (Keeps.pure _) (Keeps.bind (keeps_onCmd _) (fun _ => Keeps.bind (keeps_command _) (fun _ => keeps_cmdLoop ds fuel))))

theorem keeps_body (ds fuel : Nat) : Keeps (iccBody ds fuel) :=
  Keeps.bind (keeps_onCmd _) (fun _ => Keeps.ite (Keeps.bind (keeps_putBE _) (fun _ => Keeps.bind (keeps_tagLoop ds fuel _ _) (fun _ => keeps_cmdLoop ds fuel))) (Keeps.pure _))

/-- C57: whatever the stream, a profile that is returned has exactly the size that the stream announces. -/
theorem C57_size (enc : List UInt8) (out : List Nat) (h : getDecodedICC enc = .ok out) : (readICCVarint (BR.new enc)).1 = .ok (out.length : Int) := by
  unfold getDecodedICC at h
  simp only at h
  rcases e1 : readICCVarint (BR.new enc) with ⟨n | _ | _, r⟩
  · rw [e1] at h
    simp only at h
    rcases e2 : readICCVarint r with ⟨k | _ | _, r2⟩
    · rw [e2] at h
      simp only at h
      split at h
      · cases h
      split at h
      · cases h
      · rename_i hn
        show Res.ok n = Res.ok (out.length : Int)
        split at h
        · cases h
        · cases h
        · rename_i _ s he
          have k1 := keeps_header _ _ _ _ _ he
          rw [List.length_replicate] at k1
          split at h
          · injection h with h
            rw [← h, k1]; congr 1; omega
          · split at h
            · cases h
            · cases h
            · rename_i _ s2 he2
              have k2 := keeps_body _ _ _ _ _ he2
              injection h with h
              rw [← h, k2, k1]; congr 1; omega
    · rw [e2] at h; cases h
    · rw [e2] at h; cases h
  · rw [e1] at h; cases h
  · rw [e1] at h; cases h

example : getDecodedICC [0, 0] = .ok [] := by decide +kernel

end Jxl
