import Verif.Proofs.ModularCoding
import Verif.Props.Groups
import Verif.Proofs.UpWeights

/-!
# The groups of a modular frame are read and put together
-/
namespace Jxl
open Spec

/-- The part of a channel in a group, before it is decoded, and its place. -/
def tileEntry (groupDim stride id : Nat) (c : MChan) : MChan × Origin :=
  (MChan.new (tileArea groupDim stride c id).height (tileArea groupDim stride c id).width c.vshift c.hshift c.forceWP,
    ((tileArea groupDim stride c id).y, (tileArea groupDim stride c id).x))

/-- What a group has decoded: the part of the channel, at its place. -/
def TileRead (groupDim stride id : Nat) (c : MChan) (e : MChan × Origin) : Prop :=
  CutFrom c.buffer (tileArea groupDim stride c id) e.1.buffer ∧ e.2 = ((tileArea groupDim stride c id).y, (tileArea groupDim stride c id).x)

theorem groupChannel_ok {groupDim stride rows id : Nat} {c : MChan} (hg : groupDim ≤ 1024) (hc : OnGroups groupDim stride rows c) (hn : stride * rows < 2 ^ 31)
    (hid : id < stride * rows) : groupChannel groupDim id c.blank = .ok (tileEntry groupDim stride id c) := by
  obtain ⟨-, ⟨h0, h1⟩, ⟨w0, w1⟩, -, ⟨hv, hh⟩, hcol, hrow⟩ := hc
  have key := channelTile_ok groupDim c.height c.width c.vshift.toNat c.hshift.toNat hg hv hh h0 h1 w0 w1 (by rw [hcol, hrow]; omega) id (by rw [hcol, hrow]; exact hid)
  rw [hcol] at key
  unfold groupChannel
  show (channelTile groupDim c.height c.width c.vshift.toNat c.hshift.toNat id >>= _) = _
  rw [key, Res.bind_ok]
  rfl

theorem tilesEntries {groupDim stride id : Nat} : ∀ {chs tiles : List MChan}, List.Forall₂ (IsTile groupDim stride id) chs tiles →
    (chs.map (tileEntry groupDim stride id)).map Prod.fst = tiles.map MChan.blank := by
  intro chs tiles h
  induction h with
  | nil => rfl
  | cons h1 h2 ih =>
    rw [List.map_cons, List.map_cons, List.map_cons, ih, h1.1]
    rfl

/-- The place of a channel of a group. -/
def originOf (groupDim stride id : Nat) (t : MChan) : Origin :=
  if t.vshift = -1 ∧ t.hshift = -1 then (0, 0)
  else ((id / stride * (groupDim >>> t.vshift.toNat) : Nat), (id % stride * (groupDim >>> t.hshift.toNat) : Nat))

theorem originOf_tile {groupDim stride id : Nat} {c t : MChan} (h : IsTile groupDim stride id c t) (hs : 0 ≤ c.vshift ∧ 0 ≤ c.hshift) :
    originOf groupDim stride id t = ((tileArea groupDim stride c id).y, (tileArea groupDim stride c id).x) := by
  have e := congrArg (fun c : MChan => (c.vshift, c.hshift)) h.1
  simp only [MChan.blank, MChan.new, Prod.mk.injEq] at e
  unfold originOf
  rw [e.1, e.2, if_neg (by omega)]
  rfl

theorem tilesOrigins {groupDim stride id : Nat} : ∀ {chs tiles : List MChan}, List.Forall₂ (IsTile groupDim stride id) chs tiles →
    (∀ c ∈ chs, 0 ≤ c.vshift ∧ 0 ≤ c.hshift) → (chs.map (tileEntry groupDim stride id)).map Prod.snd = tiles.map (originOf groupDim stride id) := by
  intro chs tiles h
  induction h with
  | nil => intro _; rfl
  | cons h1 h2 ih =>
    intro hs
    rw [List.map_cons, List.map_cons, List.map_cons, ih (fun c hc => hs c (List.mem_cons_of_mem _ hc)), originOf_tile h1 (hs _ List.mem_cons_self)]
    rfl

theorem tilesRead {groupDim stride id : Nat} : ∀ {chs tiles : List MChan}, List.Forall₂ (IsTile groupDim stride id) chs tiles →
    (∀ c ∈ chs, 0 ≤ c.vshift ∧ 0 ≤ c.hshift) → ∀ res : List MChan, res.map MChan.toChan = tiles.map MChan.toChan →
    List.Forall₂ (TileRead groupDim stride id) chs (res.zip (tiles.map (originOf groupDim stride id))) := by
  intro chs tiles h
  induction h with
  | nil =>
    intro _ res hr
    cases res with
    | nil => exact .nil
    | cons a l => cases hr
  | cons h1 h2 ih =>
    intro hs res hr
    cases res with
    | nil => cases hr
    | cons a l =>
      simp only [List.map_cons, List.cons.injEq] at hr
      refine .cons ⟨?_, originOf_tile h1 (hs _ List.mem_cons_self)⟩ (ih (fun c hc => hs c (List.mem_cons_of_mem _ hc)) l hr.2)
      have e := congrArg Chan.buffer hr.1
      show CutFrom _ _ a.buffer
      rw [e]
      exact h1.2

/-- The stream of a group. -/
theorem groupStream_ok {bitDepth groupDim stride id index : Nat} {tree : GlobalTree} (hg : GoodTree tree) {bytes : List UInt8} {chs : List MChan}
    (hs : ∀ c ∈ chs, 0 ≤ c.vshift ∧ 0 ≤ c.hshift) (h : GroupAt bitDepth groupDim stride tree index bytes id chs) :
    ∃ out s', readGroupStream bitDepth tree index (chs.map (tileEntry groupDim stride id)) (BR.new bytes) = (.ok out, s') ∧
      List.Forall₂ (TileRead groupDim stride id) chs out := by
  rcases h with rfl | ⟨tiles, enc, hd, m, q, ht, htr, hst⟩
  · exact ⟨[], _, rfl, .nil⟩
  cases hchs : chs with
  | nil => exact ⟨[], _, rfl, .nil⟩
  | cons c0 cs0 =>
    rw [← hchs]
    obtain ⟨s1, s2, s3, t, es, es', R, l, h1, h2, h3, h4, h5, h6, h7, h8, h9⟩ := stream_read hg hst (s := BR.new bytes) (AtBit.new bytes) rfl
    rw [List.take_of_length_le (Nat.le_refl _)] at h4 h6
    obtain ⟨res, r1, r2⟩ := h9 R h6
    have happ : AppliesAll bitDepth hd.transforms 0 tiles m enc := by
      obtain ⟨_, _, _, _, _, _, _, ha, _⟩ := hst
      exact ha
    have ho := originsAfter_ok (pl := originOf groupDim stride id)
      (fun a b e1 e2 => by unfold originOf; rw [e1, e2]) (fun c e1 e2 => by unfold originOf; rw [if_pos ⟨e1, e2⟩]) happ htr _ _ h3
    refine ⟨res.zip (tiles.map (originOf groupDim stride id)), s3, ?_, tilesRead ht hs res r2⟩
    have e1 := tilesEntries ht
    have e2 := tilesOrigins ht hs
    obtain ⟨a, as, ha⟩ : ∃ a as, chs.map (tileEntry groupDim stride id) = a :: as := by rw [hchs]; exact ⟨_, _, rfl⟩
    rw [ha] at e1 e2 ⊢
    unfold readGroupStream
    dsimp only
    rw [e1, e2]
    have key : decodeModular bitDepth hd.transforms (tiles.map MChan.blank) hd.wp t index es s2 = (.ok (res, es'), s3) := by
      unfold decodeModular
      rw [Rd.bind_ok (lift_ok h3 s2)]
      dsimp only
      rw [maxWidth_blank, Rd.bind_ok h4]
      dsimp only
      rw [if_pos h5, Rd.bind_ok (lift_ok r1 s3)]
      rfl
    rw [Rd.bind_ok h1, Rd.bind_ok (lift_ok h3 s1), Rd.bind_ok h2]
    dsimp only
    rw [Rd.bind_ok key, Rd.bind_ok (lift_ok ho s3)]
    rfl

/-! ## Reading the groups -/

theorem onSection_own {α : Type} {toc : TOC} {readers : List SectionReader} {i : Nat} {bytes : List UInt8} (h : getBitreader toc readers i = .ok (.own bytes)) {m : Rd α}
    {a : α} {s' : BR} (hm : m (BR.new bytes) = (.ok a, s')) (s : BR) : onSection toc readers i m s = (.ok a, s) := by
  unfold onSection
  rw [Rd.bind_ok (lift_ok h s)]
  dsimp only
  rw [hm]
  rfl

/-- What is known about the groups of a frame: the channels that the global stream has left, those of each pass, and the section of each group. -/
structure GroupsAt (h : ImageHeader) (f : FrameHeader) (l : Layout) (stride rows : Nat) (toc : TOC) (readers : List SectionReader) (tree : GlobalTree)
    (sec : Nat → List UInt8) (rest : List MChan) (shs : List (Nat × Nat)) : Prop where
  dim : f.groupDim ≤ 1024
  good : GoodTree tree
  count : l.numGroups = stride * rows
  few : stride * rows < 2 ^ 31
  fewStreams : 18 + 3 * l.numLFGroups + l.numGroups * shs.length < 2 ^ 32
  channels : ∀ c ∈ rest, OnGroups f.groupDim stride rows c
  sections : ∀ i, i < 2 + l.numLFGroups + shs.length * l.numGroups → getBitreader toc readers i = .ok (.own (sec i))
  lf : ∀ i, i < l.numGroups → ∃ j, lfGroupFor l i = .ok j
  coded : ∀ pass sh, shs[pass]? = some sh → ∀ i, i < l.numGroups →
    GroupAt h.bitDepth.bits f.groupDim stride tree (groupStreamIndex l.numLFGroups l.numGroups pass i) (sec (2 + l.numLFGroups + pass * l.numGroups + i)) i (rest.filter (inPass sh))

variable {h : ImageHeader} {f : FrameHeader} {l : Layout} {stride rows : Nat} {toc : TOC} {readers : List SectionReader} {g : ModGlobal}
  {sec : Nat → List UInt8} {rest : List MChan} {shs : List (Nat × Nat)}

theorem filter_blank (sh : Nat × Nat) (rest : List MChan) : (rest.map MChan.blank).filter (inPass sh) = (rest.filter (inPass sh)).map MChan.blank := by
  rw [List.filter_map]
  rfl

theorem section_lt {a n L p i : Nat} (hp : p < L) (hi : i < n) : 2 + a + p * n + i < 2 + a + L * n := by
  have := Nat.mul_le_mul_right n (Nat.succ_le_of_lt hp)
  rw [Nat.succ_mul] at this
  omega

theorem stream_lt {a n L p i : Nat} (hp : p < L) (hi : i < n) (h : 18 + 3 * a + n * L < 2 ^ 32) : 18 + 3 * a + n * p + i < 2 ^ 32 := by
  have := Nat.mul_le_mul_left n (Nat.succ_le_of_lt hp)
  rw [Nat.mul_succ] at this
  omega

theorem readPassGroup_ok (H : GroupsAt h f l stride rows toc readers g.tree sec rest shs) (hrest : g.stream.rest = rest.map MChan.blank) {pass : Nat} {sh : Nat × Nat}
    (hp : shs[pass]? = some sh) {i : Nat} (hi : i < l.numGroups) (s : BR) :
    ∃ out, readPassGroup h f l toc readers g sh pass i s = (.ok out, s) ∧ List.Forall₂ (TileRead f.groupDim stride i) (rest.filter (inPass sh)) out := by
  have hpl : pass < shs.length := (List.getElem?_eq_some_iff.mp hp).1
  have hmem : ∀ c ∈ rest.filter (inPass sh), OnGroups f.groupDim stride rows c := fun c hc => H.channels c (List.mem_of_mem_filter hc)
  have em : (g.stream.rest.filter (inPass sh)).mapM (groupChannel f.groupDim i) = .ok ((rest.filter (inPass sh)).map (tileEntry f.groupDim stride i)) := by
    rw [hrest, filter_blank, mapM_ok (g := tileEntry f.groupDim stride i), List.map_map]
    · rfl
    · intro b hb
      obtain ⟨c, hc, rfl⟩ := List.mem_map.mp hb
      exact groupChannel_ok H.dim (hmem c hc) H.few (by rw [← H.count]; exact hi)
  obtain ⟨out, s', eo, fo⟩ := groupStream_ok H.good (fun c hc => (hmem c hc).shifts) (H.coded pass sh hp i hi)
  obtain ⟨j, ej⟩ := H.lf i hi
  refine ⟨out, ?_, fo⟩
  unfold readPassGroup
  have eu : u32 (18 + 3 * l.numLFGroups + l.numGroups * pass + i) = groupStreamIndex l.numLFGroups l.numGroups pass i := Nat.mod_eq_of_lt (stream_lt hpl hi H.fewStreams)
  rw [Rd.bind_ok (lift_ok em s), eu, Rd.bind_ok (onSection_own (H.sections _ (section_lt hpl hi)) eo s), Rd.bind_ok (lift_ok ej s)]
  rfl

theorem orEmpty_ok {α : Type} {m : Rd α} {s s' : BR} {a : α} (h : m s = (.ok a, s')) : orEmpty m s = (.ok (some a), s') := by
  unfold orEmpty
  rw [h]

/-- What the groups of a pass have decoded. -/
def PassRead (groupDim stride : Nat) (chs : List MChan) (first : Nat) (groups : List (Option (List (MChan × Origin)))) : Prop :=
  ∀ i, i < groups.length → ∃ out, groups[i]? = some (some out) ∧ List.Forall₂ (TileRead groupDim stride (first + i)) chs out

theorem readPassGroups_ok (H : GroupsAt h f l stride rows toc readers g.tree sec rest shs) (hrest : g.stream.rest = rest.map MChan.blank) {pass : Nat} {sh : Nat × Nat}
    (hp : shs[pass]? = some sh) (s : BR) : ∀ (n first : Nat), first + n ≤ l.numGroups →
    ∃ groups, readPassGroups h f l toc readers g sh pass n first s = (.ok groups, s) ∧ groups.length = n ∧ PassRead f.groupDim stride (rest.filter (inPass sh)) first groups := by
  intro n
  induction n with
  | zero => intro first _; exact ⟨[], rfl, rfl, fun i hi => by simp at hi⟩
  | succ n ih =>
    intro first hn
    obtain ⟨out, e1, f1⟩ := readPassGroup_ok H hrest hp (i := first) (by omega) s
    obtain ⟨groups, e2, l2, f2⟩ := ih (first + 1) (by omega)
    refine ⟨some out :: groups, ?_, by simp [l2], ?_⟩
    · unfold readPassGroups
      rw [Rd.bind_ok (orEmpty_ok e1), Rd.bind_ok e2]
      rfl
    · intro i hi
      cases i with
      | zero => exact ⟨out, rfl, f1⟩
      | succ i =>
        obtain ⟨o, o1, o2⟩ := f2 i (by simpa using hi)
        rw [show first + 1 + i = first + (i + 1) by omega] at o2
        exact ⟨o, o1, o2⟩

theorem readPassesGroups_ok (H : GroupsAt h f l stride rows toc readers g.tree sec rest shs) (hrest : g.stream.rest = rest.map MChan.blank) (s : BR) :
    ∀ (shs' : List (Nat × Nat)) (pass : Nat), shs.drop pass = shs' →
    ∃ groups, readPassesGroups h f l toc readers g shs' pass s = (.ok groups, s) ∧
      List.Forall₂ (fun sh gs => gs.length = l.numGroups ∧ PassRead f.groupDim stride (rest.filter (inPass sh)) 0 gs) shs' groups := by
  intro shs'
  induction shs' with
  | nil => intro pass _; exact ⟨[], rfl, .nil⟩
  | cons sh shs' ih =>
    intro pass hd
    have hp : shs[pass]? = some sh := by
      have := congrArg (fun l => l[0]?) hd
      simpa [List.getElem?_drop] using this
    have hd' : shs.drop (pass + 1) = shs' := by
      rw [← List.drop_drop, hd]
      rfl
    obtain ⟨gs, e1, l1, f1⟩ := readPassGroups_ok H hrest hp s l.numGroups 0 (by omega)
    obtain ⟨groups, e2, f2⟩ := ih (pass + 1) hd'
    refine ⟨gs :: groups, ?_, .cons ⟨l1, f1⟩ f2⟩
    unfold readPassesGroups
    rw [Rd.bind_ok e1, Rd.bind_ok e2]
    rfl

/-! ## Putting the channels together -/

theorem forall₂_get {α β : Type} {R : α → β → Prop} : ∀ {l : List α} {l' : List β}, List.Forall₂ R l l' → ∀ {i : Nat} {a : α}, l[i]? = some a → ∃ b, l'[i]? = some b ∧ R a b := by
  intro l l' h
  induction h with
  | nil => intro i a ha; cases ha
  | cons h1 h2 ih =>
    intro i a ha
    cases i with
    | zero =>
      cases ha
      exact ⟨_, rfl, h1⟩
    | succ i => exact ih ha

/-- A channel while the passes are put together: complete, or as it was. -/
def pasted (done : MChan → Bool) (c : MChan) : MChan := if done c then c.erase else c.blank

theorem shaped_table {groupDim stride rows : Nat} {c : MChan} (hc : OnGroups groupDim stride rows c) : Table c.height c.width c.buffer := by
  have h := hc.shaped
  have h1 := hc.height
  have h2 := hc.width
  unfold MChan.Shaped Rect at h
  rw [if_neg (by omega)] at h
  exact h

theorem zeroPlane_table {h w : Nat} (hh : 0 < h) (hw : 0 < w) : Table h w (zeroPlane h w) := by
  unfold zeroPlane
  rw [if_neg (by omega)]
  exact table_replicate 0 h w

theorem allocated_table {groupDim stride rows : Nat} {done : MChan → Bool} {c : MChan} (hc : OnGroups groupDim stride rows c) :
    ∃ b, Table c.height c.width b ∧ (pasted done c).allocated = { c.blank with buffer := b } := by
  have hT := shaped_table hc
  unfold pasted MChan.allocated
  cases done c with
  | true =>
    rw [if_pos rfl]
    have : c.erase.buffer.length ≠ 0 := by
      show c.buffer.length ≠ 0
      rw [hT.1]
      have := hc.height
      omega
    rw [if_pos this]
    exact ⟨c.buffer, hT, rfl⟩
  | false =>
    have h1 := hc.height
    have h2 := hc.width
    refine ⟨_, zeroPlane_table h1.1 h2.1, ?_⟩
    show (if c.blank.buffer.length ≠ 0 then c.blank else if c.height = 0 ∨ c.width = 0 then { c.blank with buffer := [] } else
      { c.blank with buffer := zeroPlane c.height c.width }) = _
    rw [if_neg (fun h => h rfl), if_neg (by omega)]

theorem pasteChannel_eq {groupDim stride : Nat} {c : MChan} {j : Nat} : ∀ (gs : List (Option (List (MChan × Origin)))) (first : Nat),
    (∀ i, i < gs.length → ∃ out e, gs[i]? = some (some out) ∧ out[j]? = some e ∧ TileRead groupDim stride (first + i) c e) →
    ∃ ts : List (Area × List (List Int)), ts.length = gs.length ∧ (∀ i t, ts[i]? = some t → t.1 = tileArea groupDim stride c (first + i) ∧ CutFrom c.buffer t.1 t.2) ∧
      ∀ c' : MChan, pasteChannel j gs c' = (pasteGroups ts c'.buffer >>= fun b => .ok { c' with buffer := b }) := by
  intro gs
  induction gs with
  | nil => intro first _; exact ⟨[], rfl, (fun i t ht => absurd ht (by simp)), fun c' => rfl⟩
  | cons g gs ih =>
    intro first h
    obtain ⟨out, e, h1, h2, h3, h4⟩ := h 0 (by simp)
    cases h1
    obtain ⟨ts, k1, k2, k3⟩ := ih (first + 1) (by
      intro i hi
      obtain ⟨out', e', g1, g2, g3⟩ := h (i + 1) (by simpa using hi)
      rw [show first + (i + 1) = first + 1 + i by omega] at g3
      exact ⟨out', e', g1, g2, g3⟩)
    refine ⟨(tileArea groupDim stride c first, e.1.buffer) :: ts, by simp [k1], ?_, ?_⟩
    · intro i t ht
      cases i with
      | zero =>
        cases ht
        exact ⟨rfl, h3⟩
      | succ i =>
        have := k2 i t ht
        rw [show first + 1 + i = first + (i + 1) by omega] at this
        exact this
    · intro c'
      unfold pasteChannel pasteGroups
      rw [idx_nat h2, Res.bind_ok, h4]
      dsimp only
      cases pasteRows (tileArea groupDim stride c (first + 0)).x e.1.buffer (tileArea groupDim stride c (first + 0)).y c'.buffer with
      | err => rfl
      | panic => rfl
      | ok b => rw [Res.bind_ok, Res.bind_ok, k3]

theorem pasteChannel_ok {groupDim stride rows : Nat} {c : MChan} (hg : groupDim ≤ 1024) (hc : OnGroups groupDim stride rows c) (hn : stride * rows < 2 ^ 31) {j : Nat}
    {gs : List (Option (List (MChan × Origin)))} (hl : gs.length = stride * rows)
    (h : ∀ i, i < gs.length → ∃ out e, gs[i]? = some (some out) ∧ out[j]? = some e ∧ TileRead groupDim stride (0 + i) c e) (done : MChan → Bool) :
    pasteChannel j gs (pasted done c).allocated = .ok c.erase := by
  obtain ⟨ts, k1, k2, k3⟩ := pasteChannel_eq gs 0 h
  obtain ⟨b, hb, eb⟩ := allocated_table (done := done) hc
  have hT := shaped_table hc
  have ht := C26_channel_partial groupDim c.height c.width c.vshift.toNat c.hshift.toNat hg hc.shift.1 hc.shift.2 hc.height.1 hc.height.2 hc.width.1 hc.width.2
    (by rw [hc.columns, hc.rows]; omega)
  rw [hc.columns, hc.rows] at ht
  have key := C26_reassembled _ _ _ _ _ _ ht c.buffer b hT hb ts (by rw [k1, hl]) (by
    intro i t hi
    have hi' : i < stride * rows := by
      rw [← hl, ← k1]
      exact (List.getElem?_eq_some_iff.mp hi).1
    obtain ⟨a1, a2⟩ := k2 i t hi
    refine ⟨?_, a2⟩
    have := channelTile_ok groupDim c.height c.width c.vshift.toNat c.hshift.toNat hg hc.shift.1 hc.shift.2 hc.height.1 hc.height.2 hc.width.1 hc.width.2
      (by rw [hc.columns, hc.rows]; omega) i (by rw [hc.columns, hc.rows]; exact hi')
    rw [hc.columns] at this
    rw [this, a1, Nat.zero_add]
    rfl)
  rw [k3, eb]
  dsimp only
  rw [key]
  rfl

theorem inPass_pasted (sh : Nat × Nat) (done : MChan → Bool) (c : MChan) : inPass sh (pasted done c) = inPass sh c := by
  unfold pasted
  cases done c <;> rfl

theorem pastePass_ok {groupDim stride rows : Nat} (hg : groupDim ≤ 1024) (hn : stride * rows < 2 ^ 31) {sh : Nat × Nat} {chs : List MChan} {gs : List (Option (List (MChan × Origin)))}
    (hl : gs.length = stride * rows) (hr : PassRead groupDim stride chs 0 gs) (done : MChan → Bool) : ∀ (cs : List MChan) (j : Nat), (∀ c ∈ cs, OnGroups groupDim stride rows c) →
    cs.filter (inPass sh) = chs.drop j → pastePass sh gs (cs.map (pasted done)) j = .ok (cs.map (pasted fun c => done c || inPass sh c)) := by
  intro cs
  induction cs with
  | nil => intro j _ _; rfl
  | cons c cs ih =>
    intro j hc hd
    rw [List.map_cons, List.map_cons]
    unfold pastePass
    rw [inPass_pasted]
    cases hin : inPass sh c with
    | true =>
      rw [if_pos rfl]
      rw [List.filter_cons_of_pos hin] at hd
      have hj : chs[j]? = some c := by
        have := congrArg (fun l => l[0]?) hd
        simpa [List.getElem?_drop] using this.symm
      have hd' : cs.filter (inPass sh) = chs.drop (j + 1) := by
        rw [← List.drop_drop, ← hd]
        rfl
      rw [pasteChannel_ok hg (hc c List.mem_cons_self) hn hl (by
        intro i hi
        obtain ⟨out, o1, o2⟩ := hr i hi
        obtain ⟨e, e1, e2⟩ := forall₂_get o2 hj
        exact ⟨out, e, o1, e1, e2⟩) done, Res.bind_ok, ih (j + 1) (fun c h => hc c (List.mem_cons_of_mem _ h)) hd', Res.bind_ok]
      have : pasted (fun c => done c || inPass sh c) c = c.erase := by
        unfold pasted
        dsimp only
        rw [if_pos (by rw [hin, Bool.or_true])]
      rw [this]
    | false =>
      rw [if_neg (by decide)]
      rw [List.filter_cons_of_neg (by rw [hin]; decide)] at hd
      rw [ih j (fun c h => hc c (List.mem_cons_of_mem _ h)) hd, Res.bind_ok]
      have : pasted (fun c => done c || inPass sh c) c = pasted done c := by
        unfold pasted
        simp only [hin, Bool.or_false]
      rw [this]

theorem pastePasses_ok {groupDim stride rows : Nat} (hg : groupDim ≤ 1024) (hn : stride * rows < 2 ^ 31) {cs : List MChan} (hc : ∀ c ∈ cs, OnGroups groupDim stride rows c) :
    ∀ {shs : List (Nat × Nat)} {groups : List (List (Option (List (MChan × Origin))))},
    List.Forall₂ (fun sh gs => gs.length = stride * rows ∧ PassRead groupDim stride (cs.filter (inPass sh)) 0 gs) shs groups → ∀ (done : MChan → Bool),
    pastePasses shs groups (cs.map (pasted done)) = .ok (cs.map (pasted fun c => done c || shs.any fun sh => inPass sh c)) := by
  intro shs groups h
  induction h with
  | nil =>
    intro done
    unfold pastePasses
    simp
  | @cons sh gs shs groups h1 h2 ih =>
    intro done
    unfold pastePasses
    rw [pastePass_ok hg hn h1.1 h1.2 done cs 0 hc rfl, Res.bind_ok, ih]
    congr 2
    funext c
    simp only [List.any_cons, Bool.or_assoc]

/-- The groups of a frame. -/
theorem groups_ok (H : GroupsAt h f l stride rows toc readers g.tree sec rest shs) (hrest : g.stream.rest = rest.map MChan.blank) (hps : passShifts f.passes f.passes.numPasses 0 3 = .ok shs)
    (hall : ∀ c ∈ rest, ∃ sh ∈ shs, inPass sh c = true) (hlf : ∀ c ∈ rest, inLFGroups c = false) (padded : Dim)
    (hgrid : ∀ i, i < l.numLFGroups → ∃ p a, gridLocation l.lfGroupRowStride i = .ok p ∧ lfGroupArea f l i = .ok a) (s : BR) :
    decodeModularGroups h f l toc readers padded g s = Rd.lift (applyTransforms h.bitDepth.bits g.stream.steps (g.stream.done ++ rest.map MChan.erase)) s := by
  have hnil : g.stream.rest.filter inLFGroups = [] := by
    rw [hrest, List.filter_eq_nil_iff]
    intro b hb
    obtain ⟨c, hc, rfl⟩ := List.mem_map.mp hb
    rw [show inLFGroups c.blank = inLFGroups c from rfl, hlf c hc]
    decide
  have hone : ∀ i, i < l.numLFGroups → readLFGroup h f l toc readers padded g i s = (.ok [], s) := by
    intro i hi
    obtain ⟨p, a, e1, e2⟩ := hgrid i hi
    unfold readLFGroup
    rw [Rd.bind_ok (lift_ok e1 s), Rd.bind_ok (lift_ok e2 s), hnil]
    exact onSection_own (s' := BR.new (sec (1 + i))) (H.sections (1 + i) (by omega)) rfl s
  have hLF : ∀ n i, i + n ≤ l.numLFGroups → readLFGroups h f l toc readers padded g n i s = (.ok (List.replicate n (some [])), s) := by
    intro n
    induction n with
    | zero => intro i _; rfl
    | succ n ih =>
      intro i hi
      unfold readLFGroups
      rw [Rd.bind_ok (orEmpty_ok (hone i (by omega))), Rd.bind_ok (ih (i + 1) (by omega))]
      rfl
  have hall' : ∀ n, allRead (List.replicate n (some ([] : List (MChan × Origin)))) = .ok (List.replicate n []) := by
    intro n
    induction n with
    | zero => rfl
    | succ n ih =>
      rw [List.replicate_succ, allRead, ih]
      rfl
  have hpaste : ∀ (groups : List (List (MChan × Origin))) (cs : List MChan) (i : Nat), (∀ c ∈ cs, inLFGroups c = false) → pasteLF groups cs i = .ok cs := by
    intro groups cs
    induction cs with
    | nil => intro i _; rfl
    | cons c cs ih =>
      intro i hc
      unfold pasteLF
      rw [hc c List.mem_cons_self, ih _ (fun c h => hc c (List.mem_cons_of_mem _ h))]
      rfl
  obtain ⟨groups, eg, fg⟩ := readPassesGroups_ok H hrest s shs 0 rfl
  have hP := pastePasses_ok H.dim H.few H.channels (shs := shs) (groups := groups) (by rw [← H.count]; exact fg) (fun _ => false)
  have hb : rest.map (pasted fun _ => false) = rest.map MChan.blank := rfl
  have he : rest.map (pasted fun c => false || shs.any fun sh => inPass sh c) = rest.map MChan.erase := by
    refine List.map_congr_left (fun c hc => ?_)
    obtain ⟨sh, h1, h2⟩ := hall c hc
    unfold pasted
    rw [if_pos]
    show (false || _) = true
    rw [Bool.false_or, List.any_eq_true]
    exact ⟨sh, h1, h2⟩
  rw [hb, he] at hP
  unfold decodeModularGroups
  rw [Rd.bind_ok (hLF _ 0 (by omega)), Rd.bind_ok (lift_ok (hall' _) s), Rd.bind_ok (lift_ok (hpaste _ g.stream.rest _ (by
    rw [hrest]
    intro b hb
    obtain ⟨c, hc, rfl⟩ := List.mem_map.mp hb
    exact hlf c hc)) s), Rd.bind_ok (lift_ok (H.sections _ (by omega)) s), Rd.bind_ok (lift_ok hps s), Rd.bind_ok eg, hrest, Rd.bind_ok (lift_ok hP s)]

/-- If no group codes the channels that are not in the global stream, they are left as they are. -/
theorem groups_skip {shs : List (Nat × Nat)} (hskip : ∀ c ∈ g.stream.rest, inLFGroups c = false ∧ ∀ sh ∈ shs, inPass sh c = false)
    (hr : ∀ i, i < 2 + l.numLFGroups + shs.length * l.numGroups → ∃ r, getBitreader toc readers i = .ok r) (hps : passShifts f.passes f.passes.numPasses 0 3 = .ok shs)
    (hlf : ∀ i, i < l.numGroups → ∃ j, lfGroupFor l i = .ok j) (padded : Dim)
    (hgrid : ∀ i, i < l.numLFGroups → ∃ p a, gridLocation l.lfGroupRowStride i = .ok p ∧ lfGroupArea f l i = .ok a) (s : BR) :
    decodeModularGroups h f l toc readers padded g s = Rd.lift (applyTransforms h.bitDepth.bits g.stream.steps (g.stream.done ++ g.stream.rest)) s := by
  have hnil : g.stream.rest.filter inLFGroups = [] := by
    rw [List.filter_eq_nil_iff]
    intro c hc
    rw [(hskip c hc).1]
    decide
  have hsec : ∀ i idx, i < 2 + l.numLFGroups + shs.length * l.numGroups → onSection toc readers i (readGroupStream h.bitDepth.bits g.tree idx []) s = (.ok [], s) := by
    intro i idx hi
    obtain ⟨r, e⟩ := hr i hi
    unfold onSection
    rw [Rd.bind_ok (lift_ok e s)]
    cases r <;> rfl
  have hone : ∀ i, i < l.numLFGroups → readLFGroup h f l toc readers padded g i s = (.ok [], s) := by
    intro i hi
    obtain ⟨p, a, e1, e2⟩ := hgrid i hi
    unfold readLFGroup
    rw [Rd.bind_ok (lift_ok e1 s), Rd.bind_ok (lift_ok e2 s), hnil]
    exact hsec _ _ (by omega)
  have hLF : ∀ n i, i + n ≤ l.numLFGroups → readLFGroups h f l toc readers padded g n i s = (.ok (List.replicate n (some [])), s) := by
    intro n
    induction n with
    | zero => intro i _; rfl
    | succ n ih =>
      intro i hi
      unfold readLFGroups
      rw [Rd.bind_ok (orEmpty_ok (hone i (by omega))), Rd.bind_ok (ih (i + 1) (by omega))]
      rfl
  have hall' : ∀ n, allRead (List.replicate n (some ([] : List (MChan × Origin)))) = .ok (List.replicate n []) := by
    intro n
    induction n with
    | zero => rfl
    | succ n ih =>
      rw [List.replicate_succ, allRead, ih]
      rfl
  have hG : ∀ sh pass n i, sh ∈ shs → pass < shs.length → i + n ≤ l.numGroups → ∃ out, readPassGroups h f l toc readers g sh pass n i s = (.ok out, s) := by
    intro sh pass n
    induction n with
    | zero => intro i _ _ _; exact ⟨_, rfl⟩
    | succ n ih =>
      intro i hsh hpass hi
      obtain ⟨out, e⟩ := ih (i + 1) hsh hpass (by omega)
      obtain ⟨j, ej⟩ := hlf i (by omega)
      refine ⟨some [] :: out, ?_⟩
      unfold readPassGroups
      have e1 : readPassGroup h f l toc readers g sh pass i s = (.ok [], s) := by
        unfold readPassGroup
        have en : g.stream.rest.filter (inPass sh) = [] := by
          rw [List.filter_eq_nil_iff]
          intro c hc
          rw [(hskip c hc).2 sh hsh]
          decide
        have em : (g.stream.rest.filter (inPass sh)).mapM (groupChannel f.groupDim i) = .ok [] := by rw [en]; rfl
        have hlt : 2 + l.numLFGroups + pass * l.numGroups + i < 2 + l.numLFGroups + shs.length * l.numGroups := by
          have := Nat.mul_le_mul_right l.numGroups (show pass + 1 ≤ shs.length by omega)
          rw [Nat.add_mul, Nat.one_mul] at this
          omega
        rw [Rd.bind_ok (lift_ok em s), Rd.bind_ok (hsec _ _ hlt), Rd.bind_ok (lift_ok ej s)]
        rfl
      rw [Rd.bind_ok (orEmpty_ok e1), Rd.bind_ok e]
      rfl
  have hGs : ∀ (ss : List (Nat × Nat)) pass, (∀ sh ∈ ss, sh ∈ shs) → pass + ss.length ≤ shs.length → ∃ out, readPassesGroups h f l toc readers g ss pass s = (.ok out, s) := by
    intro ss
    induction ss with
    | nil => intro pass _ _; exact ⟨_, rfl⟩
    | cons sh ss ih =>
      intro pass hm hle
      rw [List.length_cons] at hle
      obtain ⟨o1, e1⟩ := hG sh pass l.numGroups 0 (hm sh List.mem_cons_self) (by omega) (by omega)
      obtain ⟨o2, e2⟩ := ih (pass + 1) (fun x hx => hm x (List.mem_cons_of_mem _ hx)) (by omega)
      refine ⟨o1 :: o2, ?_⟩
      unfold readPassesGroups
      rw [Rd.bind_ok e1, Rd.bind_ok e2]
      rfl
  have hP : ∀ (cs : List MChan) sh gs j, (∀ c ∈ cs, inPass sh c = false) → pastePass sh gs cs j = .ok cs := by
    intro cs
    induction cs with
    | nil => intro sh gs j _; rfl
    | cons c cs ih =>
      intro sh gs j hc
      unfold pastePass
      rw [hc c List.mem_cons_self, if_neg (by decide), ih sh gs j (fun x hx => hc x (List.mem_cons_of_mem _ hx))]
      rfl
  have hPs : ∀ (ss : List (Nat × Nat)) groups, (∀ sh ∈ ss, sh ∈ shs) → pastePasses ss groups g.stream.rest = .ok g.stream.rest := by
    intro ss
    induction ss with
    | nil => intro groups _; rfl
    | cons sh ss ih =>
      intro groups hm
      cases groups with
      | nil => rfl
      | cons gs groups =>
        unfold pastePasses
        rw [hP _ sh gs 0 (fun c hc => (hskip c hc).2 sh (hm sh List.mem_cons_self)), Res.bind_ok, ih groups (fun x hx => hm x (List.mem_cons_of_mem _ hx))]
  have hL : ∀ (cs : List MChan) gs k, (∀ c ∈ cs, inLFGroups c = false) → pasteLF gs cs k = .ok cs := by
    intro cs
    induction cs with
    | nil => intro gs k _; rfl
    | cons c cs ih =>
      intro gs k hc
      unfold pasteLF
      rw [hc c List.mem_cons_self, if_neg (by decide), Res.bind_ok, ih gs (k + 1) (fun x hx => hc x (List.mem_cons_of_mem _ hx))]
      rfl
  obtain ⟨out, eo⟩ := hGs shs 0 (fun _ h => h) (by omega)
  obtain ⟨r, er⟩ := hr (1 + l.numLFGroups) (by omega)
  unfold decodeModularGroups
  rw [Rd.bind_ok (hLF _ 0 (by omega)), Rd.bind_ok (lift_ok (hall' _) s), Rd.bind_ok (lift_ok (hL _ _ _ (fun c hc => (hskip c hc).1)) s), Rd.bind_ok (lift_ok er s),
    Rd.bind_ok (lift_ok hps s), Rd.bind_ok eo, Rd.bind_ok (lift_ok (hPs _ _ (fun _ h => h)) s)]

/-- A frame all of whose channels are in the global stream: nothing else is read. -/
theorem groups_none (hrest : g.stream.rest = []) (hr : ∀ i, ∃ r, getBitreader toc readers i = .ok r) {shs : List (Nat × Nat)} (hps : passShifts f.passes f.passes.numPasses 0 3 = .ok shs)
    (hlf : ∀ i, i < l.numGroups → ∃ j, lfGroupFor l i = .ok j) (padded : Dim)
    (hgrid : ∀ i, i < l.numLFGroups → ∃ p a, gridLocation l.lfGroupRowStride i = .ok p ∧ lfGroupArea f l i = .ok a) (s : BR) :
    decodeModularGroups h f l toc readers padded g s = Rd.lift (applyTransforms h.bitDepth.bits g.stream.steps g.stream.done) s := by
  rw [groups_skip (by rw [hrest]; intro c hc; cases hc) (fun i _ => hr i) hps hlf padded hgrid s, hrest, List.append_nil]

end Jxl
