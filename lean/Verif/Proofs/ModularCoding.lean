import Verif.Spec.ModularCoding
import Verif.Proofs.TreeCoding
import Verif.Proofs.ModularStream
import Verif.Props.ModularStream
import Verif.Props.LFCoefficients
import Verif.Props.HFWeights
import Verif.Props.Groups

/-!
# Reading modular streams
-/
namespace Jxl
open Spec

theorem atBit_le {s : BR} {p : Nat} (h : AtBit s p) : p ≤ 8 * s.data.length := by
  rcases h with ⟨_, h1, h2⟩ | ⟨h1, h2, h3, h4, h5⟩
  · omega
  · have := (List.getElem?_eq_some_iff.mp h4).1
    omega

theorem bitsFrom_inj {data : List UInt8} {p q : Nat} (hp : p ≤ 8 * data.length) (hq : q ≤ 8 * data.length) (h : bitsFrom data p = bitsFrom data q) : p = q := by
  have hl := congrArg List.length h
  unfold bitsFrom at hl
  rw [List.length_drop, List.length_drop, length_streamBits] at hl
  omega

theorem Follows.at {α : Type} {m : Rd α} {d : Dec α} (h : Follows m d) {data : List UInt8} {p q : Nat} {a : α} (hd : DecAt d data p q a) {s : BR} (hs : AtBit s p)
    (hdata : s.data = data) : ∃ s', m s = (.ok a, s') ∧ AtBit s' q ∧ s'.data = data := by
  subst hdata
  obtain ⟨s', p', e1, e2, e3, e4, _⟩ := h s p hs a _ hd.2
  refine ⟨s', e1, ?_, e3⟩
  rw [bitsFrom_inj hd.1 (by rw [← e3]; exact atBit_le e2) e4]
  exact e2

theorem follows_wp : Follows readWPParams decWP := by
  unfold readWPParams decWP
  refine Follows.bind implements_bool.follows fun d => ?_
  cases d with
  | true => exact Follows.pure _
  | false =>
    show Follows (readBits 5 >>= _) (decBits 5 >>= _)
    refine Follows.bind (follows_bits 5 (by decide)) fun _ => Follows.bind (follows_bits 5 (by decide)) fun _ => Follows.bind (follows_bits 5 (by decide)) fun _ =>
      Follows.bind (follows_bits 5 (by decide)) fun _ => Follows.bind (follows_bits 5 (by decide)) fun _ => Follows.bind (follows_bits 5 (by decide)) fun _ =>
      Follows.bind (follows_bits 5 (by decide)) fun _ => Follows.bind (follows_bits 4 (by decide)) fun _ => Follows.bind (follows_bits 4 (by decide)) fun _ =>
      Follows.bind (follows_bits 4 (by decide)) fun _ => Follows.bind (follows_bits 4 (by decide)) fun _ => Follows.pure _

theorem follows_params : ∀ n, Follows (readSqueezeParams n) (Spec.decMany (Dec.fail : Dec SqueezeParam) n)
  | 0 => Follows.pure _
  | n + 1 => by
    rw [readSqueezeParams, Spec.decMany]
    exact Follows.bind (follows_fail _) fun p => Follows.bind (follows_params n) fun ps => Follows.pure _

theorem follows_transform : Follows readTransformInfo (decTransform Dec.fail) := by
  unfold readTransformInfo decTransform
  refine Follows.bind' (fun v => v < 2 ^ 2) (follows_bits 2 (by decide)) (fun _ _ _ h => decBits_lt h) ?_
  intro tr htr
  have hB : Follows (readU32 0 3 8 6 72 10 1096 13) (decU32 distBeginC) := (implements_u32 distBeginC (by decide)).follows
  by_cases h2 : tr = 2
  · rw [if_pos h2, if_pos h2]
    exact Follows.bind (implements_u32 distNumSqueezes (by decide)).follows (fun n => Follows.bind (follows_params n) (fun sp => Follows.pure _))
  · rw [if_neg h2, if_neg h2]
    have h013 : tr = 0 ∨ tr = 1 ∨ tr = 3 := by omega
    rcases h013 with rfl | rfl | rfl
    · exact Follows.bind hB (fun b => Follows.bind (implements_u32 distRctType (by decide)).follows (fun r => Follows.pure _))
    · exact Follows.bind hB (fun b => Follows.bind (implements_u32 distPaletteNumC (by decide)).follows (fun n => Follows.bind (implements_u32 distNbColours (by decide)).follows
        (fun c => Follows.bind (implements_u32 distNbDeltas (by decide)).follows (fun d => Follows.bind (follows_bits 4 (by decide)) (fun e => Follows.pure _)))))
    · exact Follows.bind hB (fun b => Follows.pure _)

theorem follows_modHeader : Follows readModHeader decModHeader := by
  unfold readModHeader decModHeader
  refine Follows.bind implements_bool.follows fun g => Follows.bind follows_wp fun wp => ?_
  exact Follows.bind (implements_u32 distNumTransforms (by decide)).follows fun n => Follows.bind (Follows.list follows_transform n) fun ts => Follows.pure _

/-- The tree of a frame, as it is read. -/
def GoodTree (global : GlobalTree) : Prop :=
  ∀ t es, global = some (t, es) → t.Usable ∧ es.state = none ∧ es.numToCopy = 0 ∧ es.numDecoded = 0 ∧ es.fresh = es

theorem goodTree_none : GoodTree none := fun _ _ h => by cases h

theorem streamTree_ok {data : List UInt8} {p q : Nat} {global : GlobalTree} {g : Bool} {t : MATree} {es : ES} (h : StreamTreeAt data p q global g t es)
    (hg : GoodTree global) {s : BR} (hs : AtBit s p) (hd : s.data = data) :
    ∃ s', streamTree global g s = (.ok (t, es), s') ∧ AtBit s' q ∧ s'.data = data ∧ t.Usable ∧ es.state = none ∧ es.numToCopy = 0 ∧ es.numDecoded = 0 := by
  unfold StreamTreeAt at h
  unfold streamTree
  cases g with
  | true =>
    rw [if_pos rfl] at h ⊢
    obtain ⟨rfl, rfl⟩ := h
    obtain ⟨h1, h2, h3, h4, h5⟩ := hg t es rfl
    refine ⟨s, ?_, hs, hd, h1, h2, h3, h4⟩
    dsimp only
    rw [h5]
    rfl
  | false =>
    rw [if_neg (by decide)] at h ⊢
    obtain ⟨s', e1, e2, e3, e4, e5, e6, e7, e8⟩ := h.1.read h.2 hd hs
    refine ⟨s', ?_, e2, e3, e4, e5, e6, e7⟩
    rw [Rd.bind_ok e1]
    dsimp only
    rw [e8]
    rfl

theorem globalTree_ok {data : List UInt8} {p q : Nat} {tree : GlobalTree} (h : GlobalTreeAt data p q tree) {s : BR} (hs : AtBit s p) (hd : s.data = data) :
    ∃ s', (do let has ← readBool; readGlobalTree has) s = (.ok tree, s') ∧ AtBit s' q ∧ s'.data = data ∧ GoodTree tree := by
  cases tree with
  | none =>
    obtain ⟨s', e1, e2, e3⟩ := implements_bool.follows.at h hs hd
    refine ⟨s', ?_, e2, e3, goodTree_none⟩
    rw [Rd.bind_ok e1]
    rfl
  | some x =>
    obtain ⟨t, es⟩ := x
    obtain ⟨h1, h2, h3⟩ := h
    obtain ⟨s', e1, e2, e3⟩ := implements_bool.follows.at h1 hs hd
    obtain ⟨s2, f1, f2, f3, f4, f5, f6, f7, f8⟩ := h2.read h3 e3 e2
    refine ⟨s2, ?_, f2, f3, ?_⟩
    · rw [Rd.bind_ok e1]
      unfold readGlobalTree
      rw [if_pos rfl, Rd.bind_ok f1]
      rfl
    · intro t' es' he
      cases he
      exact ⟨f4, f5, f6, f7, f8⟩

theorem maxWidth_blank (cs : List MChan) : maxWidth (cs.map MChan.blank) = maxWidth cs := by
  induction cs with
  | nil => rfl
  | cons c cs ih => rw [List.map_cons, maxWidth, maxWidth, ih]; rfl

/-- Decoding up to the first channel that is too large is decoding the channels before it. -/
theorem decodeSome_eq {groupDim m : Nat} {wp : WPParams} {tree : MATree} {streamIndex mult : Int} : ∀ (n : Nat) (cs done : List MChan) (es : ES) (s : BR) (R : List MChan) (es' : ES) (s' : BR),
    n ≤ cs.length → (∀ i c, i < n → cs[i]? = some c → stopsAt groupDim m (done.length + i) c = false) → (∀ c, cs[n]? = some c → stopsAt groupDim m (done.length + n) c = true) →
    decodeAll wp tree streamIndex mult (cs.take n) done es s = (.ok (R, es'), s') →
    decodeSome groupDim m wp tree streamIndex mult cs done es s = (.ok (R, cs.drop n, es'), s')
  | 0, cs, done, es, s, R, es', s', _, _, h2, h3 => by
    rw [List.take_zero, decodeAll, Rd.pure_eq] at h3
    cases h3
    cases cs with
    | nil => rfl
    | cons c cs =>
      unfold decodeSome
      have := h2 c rfl
      rw [Nat.add_zero] at this
      rw [if_pos this]
      rfl
  | n + 1, [], done, es, s, R, es', s', h0, _, _, _ => by simp at h0
  | n + 1, c :: cs, done, es, s, R, es', s', h0, h1, h2, h3 => by
    rw [List.take_succ_cons, decodeAll] at h3
    unfold decodeSome
    have := h1 0 c (Nat.succ_pos _) rfl
    rw [Nat.add_zero] at this
    rw [this, if_neg (by decide), List.drop_succ_cons]
    obtain ⟨r, s1, e1, e2⟩ := Rd.of_bind h3
    rw [Rd.bind_ok e1]
    refine decodeSome_eq n cs _ _ _ _ _ _ (by simpa using h0) ?_ ?_ e2
    · intro i c' hi hc
      have := h1 (i + 1) c' (by omega) (by simpa using hc)
      rw [List.length_append, List.length_singleton]
      rw [show done.length + 1 + i = done.length + (i + 1) by omega]
      exact this
    · intro c' hc
      have := h2 c' (by simpa using hc)
      rw [List.length_append, List.length_singleton]
      rw [show done.length + 1 + n = done.length + (n + 1) by omega]
      exact this

theorem globalCount_stops (groupDim m : Nat) (enc : List MChan) :
    (∀ i c, i < globalCount groupDim m enc → enc[i]? = some c → stopsAt groupDim m i c = false) ∧
    (∀ c, enc[globalCount groupDim m enc]? = some c → stopsAt groupDim m (globalCount groupDim m enc) c = true) := by
  unfold globalCount stopsAt
  constructor
  · intro i c hi hc
    by_cases hm : i < m
    · rw [decide_eq_false (by omega), Bool.false_and]
    · have hlt : i < enc.length := (List.getElem?_eq_some_iff.mp hc).1
      have hj : i - m < (enc.drop m).findIdx (Exceeds groupDim) := by omega
      have := List.not_of_lt_findIdx hj
      rw [List.getElem_drop] at this
      have he : enc[m + (i - m)]'(by omega) = c := by
        have h2 : enc[i]'hlt = c := (List.getElem?_eq_some_iff.mp hc).2
        rw [← h2]
        congr 1
        omega
      rw [he] at this
      unfold Exceeds at this
      rw [this, Bool.and_false]
  · intro c hc
    have hlt := (List.getElem?_eq_some_iff.mp hc).1
    have hl : (enc.drop m).findIdx (Exceeds groupDim) < (enc.drop m).length := by rw [List.length_drop]; omega
    have := List.findIdx_getElem (w := hl)
    rw [List.getElem_drop] at this
    rw [(List.getElem?_eq_some_iff.mp hc).2] at this
    unfold Exceeds at this
    rw [this, decide_eq_true (by omega)]
    rfl

theorem map_toU32' (out : List (Int × Nat)) (hb : ∀ o ∈ out, o.2 < 2 ^ 32) : (out.map fun o => i32 o.2).map toU32 = out.map Prod.snd := map_toU32 out hb

/-- What `StreamAt` gives the decoder. -/
theorem stream_read {bitDepth : Nat} {global : GlobalTree} (hg : GoodTree global) {index : Nat} {data : List UInt8} {p q : Nat} {hd : ModHeader} {chs enc : List MChan}
    {m n : Nat} (h : StreamAt bitDepth global index data p q hd chs m enc n) {s : BR} (hs : AtBit s p) (hdata : s.data = data) :
    ∃ (s1 s2 s3 : BR) (t : MATree) (es es' : ES) (R : List MChan) (l : List (TransformInfo × List SqueezeParam)),
      readModHeader s = (.ok hd, s1) ∧ streamTree global hd.useGlobalTree s1 = (.ok (t, es), s2) ∧
      planAll hd.transforms ⟨chs.map MChan.blank, 0⟩ = .ok (⟨enc.map MChan.blank, m⟩, l) ∧
      decodeAll hd.wp t index (maxWidth enc) ((enc.take n).map MChan.blank) [] es s2 = (.ok (R, es'), s3) ∧ es'.validateFinalState = true ∧
      R.map MChan.erase = (enc.take n).map MChan.erase ∧ AtBit s3 q ∧ s3.data = data ∧
      ∀ R' : List MChan, R'.map MChan.erase = enc.map MChan.erase → ∃ res, applyTransforms bitDepth l R' = .ok res ∧ res.map MChan.toChan = chs.map MChan.toChan := by
  obtain ⟨p1, p2, t, es, out, h1, h2, h3, h4, h5, h6⟩ := h
  obtain ⟨s1, e1, a1, d1⟩ := follows_modHeader.at h1 hs hdata
  obtain ⟨s2, e2, a2, d2, hu, c1, c2, c3⟩ := streamTree_ok h2 hg a1 d1
  obtain ⟨es', s3, e3, a3, d3, f3⟩ := h6.read c1 c2 c3 d2 a2
  obtain ⟨l, g1, g2, g3⟩ := appliesAll_ok h3
  simp only [Nat.cast_zero] at g1
  have hb : ∀ o ∈ out, o.2 < 2 ^ 32 := by
    obtain ⟨co, cd, cmds, b1, -⟩ := h6
    exact b1
  obtain ⟨R, r1, r2⟩ := decodeAll_ok hu (enc.take n) [] [] out es es' s2 s3 _ rfl (by simpa using h4) h5 e3 (map_toU32 out hb)
  rw [List.nil_append] at r2
  refine ⟨s1, s2, s3, t, es, es', R, l, e1, e2, g1, r1, f3, r2, a3, d3, ?_⟩
  intro R' hR
  have hu2 := g3 R'
  rw [hR, g3 enc, g2] at hu2
  cases hT : applyTransforms bitDepth l R' with
  | err => rw [hT] at hu2; cases hu2
  | panic => rw [hT] at hu2; cases hu2
  | ok res =>
    rw [hT] at hu2
    simp only [Res.mapTo, Res.ok.injEq] at hu2
    refine ⟨res, rfl, ?_⟩
    have := congrArg (List.map MChan.toChan) hu2
    rw [List.map_map, List.map_map] at this
    exact this.symm

/-- The global stream. -/
theorem globalStream_ok {bitDepth groupDim : Nat} {global : GlobalTree} (hg : GoodTree global) {data : List UInt8} {p q : Nat} {hd : ModHeader} {chs enc : List MChan}
    {m : Nat} (hne : chs ≠ []) (h : StreamAt bitDepth global 0 data p q hd chs m enc (globalCount groupDim m enc)) {s : BR} (hs : AtBit s p) (hdata : s.data = data) :
    ∃ (s' : BR) (l : List (TransformInfo × List SqueezeParam)) (R : List MChan), readGlobalStream groupDim global (chs.map MChan.blank) s =
        (.ok ⟨l, R, (enc.drop (globalCount groupDim m enc)).map MChan.blank⟩, s') ∧ AtBit s' q ∧ s'.data = data ∧
      R.map MChan.erase = (enc.take (globalCount groupDim m enc)).map MChan.erase ∧
      (∀ R' : List MChan, R'.map MChan.erase = enc.map MChan.erase → ∃ res, applyTransforms bitDepth l R' = .ok res ∧ res.map MChan.toChan = chs.map MChan.toChan) ∧
      (hd.transforms = [] → l = []) := by
  obtain ⟨s1, s2, s3, t, es, es', R, l, h1, h2, h3, h4, h5, h6, h7, h8, h9⟩ := stream_read hg h hs hdata
  refine ⟨s3, l, R, ?_, h7, h8, h6, h9, ?_⟩
  swap
  · intro ht
    rw [ht, planAll] at h3
    exact (congrArg Prod.snd (Res.ok.inj h3)).symm
  obtain ⟨c, cs, hc⟩ : ∃ c cs, chs.map MChan.blank = c :: cs := by
    cases chs with
    | nil => exact absurd rfl hne
    | cons c cs => exact ⟨_, _, rfl⟩
  rw [hc] at h3
  rw [hc]
  unfold readGlobalStream
  dsimp only
  rw [Rd.bind_ok h1, Rd.bind_ok (lift_ok h3 s1), Rd.bind_ok h2]
  dsimp only
  obtain ⟨k1, k2⟩ := globalCount_stops groupDim m enc
  have key : decodeSome groupDim m hd.wp t 0 (maxWidth (enc.map MChan.blank)) (enc.map MChan.blank) [] es s2 =
      (.ok (R, (enc.drop (globalCount groupDim m enc)).map MChan.blank, es'), s3) := by
    rw [maxWidth_blank, List.map_drop]
    by_cases hle : globalCount groupDim m enc ≤ enc.length
    · refine decodeSome_eq (globalCount groupDim m enc) _ [] _ _ _ _ _ (by simpa using hle) ?_ ?_ (by rw [← List.map_take]; exact h4)
      · intro i c hi hc
        rw [List.getElem?_map, Option.map_eq_some_iff] at hc
        obtain ⟨c', hc1, rfl⟩ := hc
        rw [List.length_nil, Nat.zero_add]
        exact k1 i c' hi hc1
      · intro c hc
        rw [List.getElem?_map, Option.map_eq_some_iff] at hc
        obtain ⟨c', hc1, rfl⟩ := hc
        rw [List.length_nil, Nat.zero_add]
        exact k2 c' hc1
    · have hd1 : (enc.map MChan.blank).drop (globalCount groupDim m enc) = (enc.map MChan.blank).drop enc.length := by
        rw [List.drop_eq_nil_of_le (by rw [List.length_map]; omega), List.drop_eq_nil_of_le (by rw [List.length_map])]
      rw [hd1]
      refine decodeSome_eq enc.length _ [] _ _ _ _ _ (by simp) ?_ ?_ (by
        rw [List.take_of_length_le (by omega)] at h4
        rw [List.take_of_length_le (by rw [List.length_map])]
        exact h4)
      · intro i c hi hc
        rw [List.getElem?_map, Option.map_eq_some_iff] at hc
        obtain ⟨c', hc1, rfl⟩ := hc
        rw [List.length_nil, Nat.zero_add]
        exact k1 i c' (by omega) hc1
      · intro c hc
        have := (List.getElem?_eq_some_iff.mp hc).1
        rw [List.length_map] at this
        omega
  rw [Rd.bind_ok key]
  dsimp only
  rw [if_pos h5]
  rfl

/-- The global section. -/
theorem modGlobal_ok {h : ImageHeader} {f : FrameHeader} (hfl : refusedFlags f.flags = false) {bitDepth : Nat} {data : List UInt8} {p q : Nat} {deq : List ℚ} {tree : GlobalTree}
    {hd : ModHeader} {chs enc : List MChan} {m : Nat} (hne : chs ≠ []) (hb : chs.map MChan.blank = globalBlanks h f)
    (hG : GlobalAt bitDepth f.groupDim data p q deq tree hd chs m enc) {s : BR} (hs : AtBit s p) (hdata : s.data = data) :
    ∃ (s' : BR) (l : List (TransformInfo × List SqueezeParam)) (R : List MChan), readModGlobal h f s =
        (.ok ⟨deq.map F32.fin, tree, ⟨l, R, (enc.drop (globalCount f.groupDim m enc)).map MChan.blank⟩⟩, s') ∧ AtBit s' q ∧ s'.data = data ∧
      R.map MChan.erase = (enc.take (globalCount f.groupDim m enc)).map MChan.erase ∧ GoodTree tree ∧
      (∀ R' : List MChan, R'.map MChan.erase = enc.map MChan.erase → ∃ res, applyTransforms bitDepth l R' = .ok res ∧ res.map MChan.toChan = chs.map MChan.toChan) ∧
      (hd.transforms = [] → l = []) := by
  obtain ⟨p1, p2, g1, g2, g3⟩ := hG
  obtain ⟨s1, e1, a1, d1⟩ := C71_dequant.follows.at g1 hs hdata
  obtain ⟨s2, e2, a2, d2, hgood⟩ := globalTree_ok g2 a1 d1
  obtain ⟨s3, l, R, e3, a3, d3, r3, t3, u3⟩ := globalStream_ok hgood hne g3 a2 d2
  refine ⟨s3, l, R, ?_, a3, d3, r3, hgood, t3, u3⟩
  unfold readModGlobal
  rw [hfl, if_neg (by decide), Rd.bind_ok e1]
  obtain ⟨has, s1', b1, b2⟩ := Rd.of_bind e2
  rw [Rd.bind_ok b1, Rd.bind_ok b2, ← hb, Rd.bind_ok e3]
  rfl

/-! ## Places -/

theorem set_same {α : Type} {l : List α} {i : Nat} {v : α} (h : l[i]? = some v) : setAt l (i : Int) v = .ok l := by
  obtain ⟨hi, he⟩ := List.getElem?_eq_some_iff.mp h
  rw [setAt_nat' l i v hi]
  congr 1
  rw [← he]
  exact List.set_getElem_self hi

theorem permutationLUT_ok : ∀ k, k < 6 → ∃ p, permutationLUT[k]? = some p ∧ p.1 < 3 ∧ p.2.1 < 3 ∧ p.2.2 < 3 := by
  decide

theorem undoOriginRCT_same {os : List Origin} {o : Origin} {b ty : Nat} (h : ∀ i, i < 3 → os[b + i]? = some o) (hty : ty < 42) : undoOriginRCT b ty os = .ok os := by
  unfold undoOriginRCT
  obtain ⟨p, e, p1, p2, p3⟩ := permutationLUT_ok (ty / 7) (by omega)
  have h0 := h 0 (by omega)
  have h1 := h 1 (by omega)
  have h2 := h 2 (by omega)
  rw [Nat.add_zero] at h0
  rw [idx_nat h0, Res.bind_ok, show ((b : Int) + 1) = ((b + 1 : Nat) : Int) by omega, idx_nat h1, Res.bind_ok, show ((b : Int) + 2) = ((b + 2 : Nat) : Int) by omega,
    idx_nat h2, Res.bind_ok, idx_nat e, Res.bind_ok, set_same (h _ p1), Res.bind_ok, set_same (h _ p2), Res.bind_ok, set_same (h _ p3)]

/-- Places that depend only on the shifts are kept by colour transforms and palettes of one channel. -/
theorem originsAfter_ok {pl : MChan → Origin} (hpl : ∀ a b : MChan, a.vshift = b.vshift → a.hshift = b.hshift → pl a = pl b)
    (hpal : ∀ c : MChan, c.vshift = -1 → c.hshift = -1 → pl c = (0, 0)) {bitDepth : Nat} {ts : List TransformInfo} {m m' : Nat} {chs enc : List MChan}
    (h : AppliesAll bitDepth ts m chs m' enc) (ht : ∀ t ∈ ts, t.tr = 0 ∨ t.tr = 1 ∧ t.numC = 1) :
    ∀ P l, planAll ts ⟨chs.map MChan.blank, m⟩ = .ok (P, l) → originsAfter l (chs.map pl) = .ok (chs.map pl) := by
  induction h with
  | nil m chs =>
    intro P l hp
    rw [planAll] at hp
    cases hp
    rfl
  | @cons t ts m m1 m2 chs chs1 chs2 h1 h2 ih =>
    intro P l hp
    obtain ⟨sps, a1, -, -⟩ := applies_ok h1
    rw [planAll, a1, Res.bind_ok] at hp
    obtain ⟨⟨P', l'⟩, b1, b2⟩ := Res.of_bind hp
    simp only [Res.ok.injEq, Prod.mk.injEq] at b2
    obtain ⟨-, rfl⟩ := b2
    have hrest := ih (fun t ht' => ht t (List.mem_cons_of_mem _ ht')) P' l' b1
    unfold originsAfter
    match h1 with
    | .rct _ _ h w pre post o0 o1 o2 htr hty hb h0 h1 h2 s1 s2 =>
      have e1 : pl o1 = pl o0 := hpl _ _ s1.2.2.2.1.symm s1.2.2.1.symm
      have e2 : pl o2 = pl o0 := hpl _ _ s2.2.2.2.1.symm s2.2.2.1.symm
      unfold planOrigin undoOrigin
      rw [if_neg (by omega), if_neg (by omega), Res.bind_ok]
      have hsame : (pre ++ [(encodeRCT t.rctType o0 o1 o2).1, (encodeRCT t.rctType o0 o1 o2).2.1, (encodeRCT t.rctType o0 o1 o2).2.2] ++ post).map pl =
          (pre ++ [o0, o1, o2] ++ post).map pl := by
        simp only [List.map_append, List.map_cons, List.map_nil]
        have hpick : ∀ k (b : List (List Int)), pl { pick3 o0 o1 o2 k with buffer := b } = pl o0 := by
          intro k b
          refine hpl _ _ ?_ ?_ <;> (show _ = _; unfold pick3; split <;> first | rfl | exact s1.2.2.2.1.symm | exact s1.2.2.1.symm | exact s2.2.2.2.1.symm | exact s2.2.2.1.symm)
        have f0 : pl (encodeRCT t.rctType o0 o1 o2).1 = pl o0 := hpick _ _
        have f1 : pl (encodeRCT t.rctType o0 o1 o2).2.1 = pl o1 := (hpick _ _).trans e1.symm
        have f2 : pl (encodeRCT t.rctType o0 o1 o2).2.2 = pl o2 := (hpick _ _).trans e2.symm
        rw [f0, f1, f2]
      rw [hsame] at hrest
      rw [hrest, Res.bind_ok, if_neg (by omega), if_pos htr]
      refine undoOriginRCT_same (o := pl o0) ?_ hty
      intro i hi
      rw [hb]
      simp only [List.map_append, List.map_cons, List.map_nil, e1, e2, List.append_assoc]
      rw [List.getElem?_append_right (by rw [List.length_map]; omega), List.length_map, Nat.add_sub_cancel_left]
      rcases (by omega : i = 0 ∨ i = 1 ∨ i = 2) with rfl | rfl | rfl <;> rfl
    | .steps _ _ _ _ htr _ _ _ _ =>
      exfalso
      have := ht t List.mem_cons_self
      omega
    | .default _ _ _ htr _ _ _ =>
      exfalso
      have := ht t List.mem_cons_self
      omega
    | .palette _ _ _ pre post palch first outs htr hd hpred hpal' hpr hf hfr h32 ho hp' hn hpost hm =>
      have hn1 : t.numC = 1 := by
        have := ht t List.mem_cons_self
        omega
      unfold planOrigin undoOrigin
      rw [if_pos htr, hn1]
      have epal : pl palch = (0, 0) := by
        have e := congrArg (fun c : MChan => (c.vshift, c.hshift)) hpal'
        simp only [MChan.blank, MChan.new, Prod.mk.injEq] at e
        exact hpal palch e.1 e.2
      have efirst : pl { first with buffer := outs 0 } = pl first := hpl _ _ rfl rfl
      have hl : (pre ++ (List.range 1).map (fun c => ({ first with buffer := outs c } : MChan)) ++ post).map pl = (pre ++ first :: post).map pl := by
        rw [show (List.range 1).map (fun c => ({ first with buffer := outs c } : MChan)) = [{ first with buffer := outs 0 }] from rfl]
        simp only [List.map_append, List.map_cons, List.map_nil, efirst, List.append_assoc, List.cons_append, List.nil_append]
      rw [hl]
      rw [List.cons_append, List.map_cons, epal] at hrest
      rw [show forFrom (fun _ l => removeAt l ((t.beginC : Int) + 1)) (1 - 1) 0 ((pre ++ first :: post).map pl) = .ok ((pre ++ first :: post).map pl) from rfl]
      rw [Res.bind_ok, Res.bind_ok, hrest, Res.bind_ok, if_neg (by omega), if_neg (by omega), if_pos htr]
      rfl

end Jxl
