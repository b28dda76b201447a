import Verif.Proofs.ICCShuffle
import Verif.Proofs.ICCHeader
/-! The commands of a colour profile: the code does what the format says. -/
namespace Jxl
open Spec

theorem Does.get {E : IEnv} {β : Type} {f : Icc → IM β} {b : β} {c d out c2 d2 out2 : List Nat}
    (h : ∀ s, IccAt E c d out s → Does E (f s) b c d out c2 d2 out2) : Does E ((fun s => .ok (s, s) : IM Icc) >>= f) b c d out c2 d2 out2 := by
  intro s hs
  obtain ⟨s', e, i⟩ := h s hs s hs
  exact ⟨s', by rw [IM.bind_ok (a := s) (s' := s) rfl, e], i⟩

theorem i32_mod256 (x : Int) : i32 x % 256 = x % 256 := by simp only [i32]; omega

theorem i32_modeq (x : Int) : i32 x % 4294967296 = x % 4294967296 := by simp only [i32]; omega

/-! ## The header -/

theorem headerBytes_length (size : Nat) : ∀ (es done : List Nat), (headerBytes size done es).length = done.length + es.length
  | [], done => by simp [headerBytes]
  | e :: es, done => by
    unfold headerBytes
    rw [headerBytes_length size es]
    simp; omega

theorem does_header (E : IEnv) (hE : E.size < 2 ^ 31) : ∀ (es : List Nat) (c d done : List Nat), done.length + es.length ≤ 128 → done.length + es.length ≤ E.size →
    (done.length + es.length ≤ 4 ∨ 41 ≤ E.size) → Does E (iccHeader es.length done.length) () c (es ++ d) done c d (headerBytes E.size done es)
  | [], c, d, done, _, _, _ => Does.pure _ _ _ _
  | e :: es, c, d, done, h1, h2, h3 => by
    rw [List.length_cons] at h1 h2 h3
    obtain ⟨p, hp, hg⟩ := prediction_ok (size := E.size) (done := done) hE (by omega) (by omega) (by omega)
    have k1 := does_dataByte E e c (es ++ d) done
    have k2 := does_put E (i32 ((e : Int) + p)) c (es ++ d) done (by omega)
    have eb : (i32 ((e : Int) + p) % 256).toNat = (e + headerGuess E.size done done.length) % 256 := by
      rw [i32_mod256]; omega
    rw [eb] at k2
    have k3 := does_header E hE es c d (done ++ [(e + headerGuess E.size done done.length) % 256]) (by simp; omega) (by simp; omega) (by simp; omega)
    rw [show (done ++ [(e + headerGuess E.size done done.length) % 256]).length = done.length + 1 by simp] at k3
    refine Does.bind k1 (Does.get fun s hs => ?_)
    have hl : iccPrediction s.out done.length = .ok p := by rw [hs.2.2.1]; exact hp
    exact Does.bind (Does.lift hl _ _ _) (Does.bind k2 k3)

/-! ## The tag table -/

theorem tag_command (code : Nat) (a b : Bool) (h : code < 64) :
    (code + (if a then 64 else 0) + (if b then 128 else 0)) % 64 = code ∧ (code + (if a then 64 else 0) + (if b then 128 else 0)).testBit 6 = a ∧
      (code + (if a then 64 else 0) + (if b then 128 else 0)).testBit 7 = b := by
  rw [Nat.testBit_eq_decide_div_mod_eq, Nat.testBit_eq_decide_div_mod_eq]
  cases a <;> cases b <;> simp <;> omega

theorem knownTag_idx (k : Fin 17) : idx iccTags (((4 + k.val : Nat) : Int) - 4) = .ok (knownTag k) := by revert k; decide

theorem does_tagName (E : IEnv) (t : TagCmd) (ht : t.Valid) (c d out : List Nat) : Does E (iccTagName t.kind.code) t.kind.name c (t.dataBytes ++ d) out c d out := by
  obtain ⟨kind, off, sz⟩ := t
  unfold TagCmd.dataBytes
  cases kind with
  | named n =>
    obtain ⟨hn, _⟩ := ht.1 n rfl
    have := does_dataBytes E n c d out
    rw [hn] at this
    exact this
  | trc => exact Does.pure _ _ _ _
  | xyz => exact Does.pure _ _ _ _
  | known k =>
    have hk : idx iccTags (((4 + k.val : Nat) : Int) - 4) = .ok (knownTag k) := knownTag_idx k
    show Does E (iccTagName (4 + k.val)) (knownTag k) c d out c d out
    have hlt := k.isLt
    unfold iccTagName
    rw [if_neg (by omega), if_neg (by omega), if_neg (by omega), if_pos (by omega)]
    exact Does.lift hk _ _ _

theorem does_flagged (E : IEnv) (o : Option Nat) (dflt : Int) (w : Nat) (hw : dflt % 4294967296 = (w : Int) % 4294967296) (ho : ∀ v, o = some v → v < 2 ^ 32) (c d out : List Nat) :
    ∃ v : Int, Does E (flagged o.isSome dflt) v (optVarint o ++ c) d out c d out ∧ v % 4294967296 = ((o.getD w : Nat) : Int) % 4294967296 := by
  cases o with
  | none => exact ⟨dflt, Does.pure _ _ _ _, hw⟩
  | some x => exact ⟨i32 x, does_cmdVarint E x (ho x rfl) c d out, i32_modeq _⟩

theorem does_putTag (E : IEnv) (name : List Nat) (hn : name.length = 4) (hb : ∀ v ∈ name, v < 256) (v z : Int) (w y : Nat) (hv : v % 4294967296 = (w : Int) % 4294967296)
    (hz : z % 4294967296 = (y : Int) % 4294967296) (c d out : List Nat) (h : out.length + 12 ≤ E.size) :
    Does E (putTag name v z) () c d out c d (out ++ entry name w y) := by
  have k1 := does_putAll E name hb c d out (by omega)
  have k2 := does_putBE E v w hv c d (out ++ name) (by simp; omega)
  have k3 := does_putBE E z y hz c d (out ++ name ++ be32 w) (by simp [be32]; omega)
  have : out ++ entry name w y = out ++ name ++ be32 w ++ be32 y := by simp [entry]
  rw [this]
  exact Does.bind k1 (Does.bind k2 k3)

theorem entry_length {name : List Nat} (h : name.length = 4) (w y : Nat) : (entry name w y).length = 12 := by simp [entry, be32, h]

theorem knownTag_ok (k : Fin 17) : (knownTag k).length = 4 ∧ ∀ v ∈ knownTag k, v < 256 := by revert k; decide

theorem does_putTags (E : IEnv) (t : TagCmd) (ht : t.Valid) (v z : Int) (w y : Nat) (hv : v % 4294967296 = (w : Int) % 4294967296)
    (hz : z % 4294967296 = (y : Int) % 4294967296) (c d out : List Nat) (h : out.length + (t.kind.entries w y).length ≤ E.size) :
    Does E (putTags t.kind.code t.kind.name v z) () c d out c d (out ++ t.kind.entries w y) := by
  obtain ⟨kind, off, sz⟩ := t
  cases kind with
  | named n =>
    obtain ⟨hn, hb⟩ := ht.1 n rfl
    have h : out.length + (entry n w y).length ≤ E.size := h
    rw [entry_length hn] at h
    exact does_putTag E n hn hb v z w y hv hz c d out h
  | known k =>
    obtain ⟨hn, hb⟩ := knownTag_ok k
    have h : out.length + (entry (knownTag k) w y).length ≤ E.size := h
    rw [entry_length hn] at h
    show Does E (putTags (4 + k.val) (knownTag k) v z) () c d out c d (out ++ entry (knownTag k) w y)
    unfold putTags
    rw [if_neg (by omega), if_neg (by omega)]
    exact does_putTag E _ hn hb v z w y hv hz c d out h
  | trc =>
    have h : out.length + (entry (name4 'r' 'T' 'R' 'C') w y ++ entry (name4 'g' 'T' 'R' 'C') w y ++ entry (name4 'b' 'T' 'R' 'C') w y).length ≤ E.size := h
    rw [List.length_append, List.length_append, entry_length rfl, entry_length rfl, entry_length rfl] at h
    have k1 := does_putTag E (name4 'r' 'T' 'R' 'C') rfl (by decide) v z w y hv hz c d out (by omega)
    have k2 := does_putTag E (name4 'g' 'T' 'R' 'C') rfl (by decide) v z w y hv hz c d (out ++ entry (name4 'r' 'T' 'R' 'C') w y) (by rw [List.length_append, entry_length rfl]; omega)
    have k3 := does_putTag E (name4 'b' 'T' 'R' 'C') rfl (by decide) v z w y hv hz c d (out ++ entry (name4 'r' 'T' 'R' 'C') w y ++ entry (name4 'g' 'T' 'R' 'C') w y)
      (by rw [List.length_append, List.length_append, entry_length rfl, entry_length rfl]; omega)
    rw [show out ++ TagKind.entries .trc w y = out ++ entry (name4 'r' 'T' 'R' 'C') w y ++ entry (name4 'g' 'T' 'R' 'C') w y ++ entry (name4 'b' 'T' 'R' 'C') w y by simp [TagKind.entries]]
    exact Does.bind k1 (Does.bind k2 k3)
  | xyz =>
    have h : out.length + (entry (name4 'r' 'X' 'Y' 'Z') w y ++ entry (name4 'g' 'X' 'Y' 'Z') (w + y) y ++ entry (name4 'b' 'X' 'Y' 'Z') (w + 2 * y) y).length ≤ E.size := h
    rw [List.length_append, List.length_append, entry_length rfl, entry_length rfl, entry_length rfl] at h
    have h1 : i32 (v + z) % 4294967296 = ((w + y : Nat) : Int) % 4294967296 := by rw [i32_modeq]; omega
    have h2 : i32 (i32 (v + z) + z) % 4294967296 = ((w + 2 * y : Nat) : Int) % 4294967296 := by
      rw [i32_modeq, Int.add_emod, h1]; omega
    have k1 := does_putTag E (name4 'r' 'X' 'Y' 'Z') rfl (by decide) v z w y hv hz c d out (by omega)
    have k2 := does_putTag E (name4 'g' 'X' 'Y' 'Z') rfl (by decide) _ z _ y h1 hz c d (out ++ entry (name4 'r' 'X' 'Y' 'Z') w y) (by rw [List.length_append, entry_length rfl]; omega)
    have k3 := does_putTag E (name4 'b' 'X' 'Y' 'Z') rfl (by decide) _ z _ y h2 hz c d (out ++ entry (name4 'r' 'X' 'Y' 'Z') w y ++ entry (name4 'g' 'X' 'Y' 'Z') (w + y) y)
      (by rw [List.length_append, List.length_append, entry_length rfl, entry_length rfl]; omega)
    rw [show out ++ TagKind.entries .xyz w y = out ++ entry (name4 'r' 'X' 'Y' 'Z') w y ++ entry (name4 'g' 'X' 'Y' 'Z') (w + y) y ++ entry (name4 'b' 'X' 'Y' 'Z') (w + 2 * y) y by simp [TagKind.entries]]
    exact Does.bind k1 (Does.bind k2 k3)

theorem code_lt (k : TagKind) : k.code < 64 ∧ k.code ≠ 0 := by
  cases k with
  | known k => have := k.isLt; simp only [TagKind.code]; omega
  | _ => simp [TagKind.code]

theorem smallTags_eq (l : List Nat) : (if iccSmallTags.contains l then (20 : Int) else x) = if l ∈ size20 then 20 else x := by
  have : iccSmallTags = size20 := by decide
  rw [this]
  by_cases h : l ∈ size20
  · rw [if_pos h, if_pos (by rw [List.contains_iff_mem]; exact h)]
  · rw [if_neg h, if_neg (by rw [List.contains_iff_mem]; exact h)]

theorem does_tagLoop (E : IEnv) (term : Bool) (rest : List Nat) (hr : rest = [] ∨ term = true) : ∀ (tags : List TagCmd) (fuel : Nat) (v z : Int) (w y : Nat) (d out : List Nat),
    (∀ t ∈ tags, t.Valid) → tags.length < fuel → v % 4294967296 = (w : Int) % 4294967296 → z % 4294967296 = (y : Int) % 4294967296 →
    out.length + (tagTable w y tags).length ≤ E.size →
    Does E (iccTagLoop E.ds fuel v z) () (tags.flatMap TagCmd.cmdBytes ++ ((if term then [0] else []) ++ rest)) (tags.flatMap TagCmd.dataBytes ++ d) out rest d (out ++ tagTable w y tags)
  | [], fuel + 1, v, z, w, y, d, out, _, _, _, _, _ => by
    simp only [List.flatMap_nil, List.nil_append, tagTable, List.append_nil]
    unfold iccTagLoop
    cases term with
    | true =>
      refine Does.bind (does_more_cons E 0 rest d out) ?_
      rw [if_neg (by decide)]
      refine Does.bind (does_cmdByte E 0 rest d out) ?_
      exact Does.pure _ _ _ _
    | false =>
      have : rest = [] := by simpa using hr
      subst this
      exact Does.bind (does_more_nil E d out) (Does.pure _ _ _ _)
  | t :: tags, fuel + 1, v, z, w, y, d, out, ht, hf, hv, hz, hl => by
    obtain ⟨x, hx⟩ : ∃ x, x = t.kind.code + (if t.offset.isSome then 64 else 0) + (if t.size.isSome then 128 else 0) := ⟨_, rfl⟩
    obtain ⟨x1, x2, x3⟩ := tag_command t.kind.code t.offset.isSome t.size.isSome (code_lt _).1
    rw [← hx] at x1 x2 x3
    have hval := ht t (by simp)
    obtain ⟨more, hmore⟩ : ∃ more, more = tags.flatMap TagCmd.cmdBytes ++ ((if term then [0] else []) ++ rest) := ⟨_, rfl⟩
    have hcmd : (t :: tags).flatMap TagCmd.cmdBytes ++ ((if term then [0] else []) ++ rest) = x :: (optVarint t.offset ++ (optVarint t.size ++ more)) := by
      rw [hx, hmore]; simp [TagCmd.cmdBytes]
    have hdat : (t :: tags).flatMap TagCmd.dataBytes ++ d = t.dataBytes ++ (tags.flatMap TagCmd.dataBytes ++ d) := by simp
    rw [hcmd, hdat]
    unfold iccTagLoop
    refine Does.bind (does_more_cons E x _ _ out) ?_
    rw [if_neg (by decide)]
    refine Does.bind (does_cmdByte E x _ _ out) ?_
    rw [x1, x2, x3, if_neg (code_lt _).2]
    refine Does.bind (does_tagName E t hval _ _ out) ?_
    obtain ⟨v', kv, hv'⟩ := does_flagged E t.offset (i32 (v + z)) (w + y) (by rw [i32_modeq]; omega) hval.2.1 (optVarint t.size ++ more) (tags.flatMap TagCmd.dataBytes ++ d) out
    refine Does.bind kv ?_
    rw [smallTags_eq]
    obtain ⟨z', kz, hz'⟩ := does_flagged E t.size (if t.kind.name ∈ size20 then 20 else z) (if t.kind.name ∈ size20 then 20 else y)
      (by split; rfl; exact hz) hval.2.2 more (tags.flatMap TagCmd.dataBytes ++ d) out
    refine Does.bind kz ?_
    have hl : out.length + (t.kind.entries (t.start w y) (t.len y) ++ tagTable (t.start w y) (t.len y) tags).length ≤ E.size := hl
    rw [List.length_append] at hl
    refine Does.bind (does_putTags E t hval v' z' (t.start w y) (t.len y) hv' hz' more _ out (by omega)) ?_
    have ih := does_tagLoop E term rest hr tags fuel v' z' (t.start w y) (t.len y) d (out ++ t.kind.entries (t.start w y) (t.len y))
      (fun t' h' => ht t' (by simp [h'])) (by simp at hf; omega) hv' hz' (by rw [List.length_append]; omega)
    rw [← hmore, List.append_assoc] at ih
    exact ih

end Jxl
