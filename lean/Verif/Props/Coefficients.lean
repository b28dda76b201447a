import Verif.Proofs.Coefficients
import Verif.Props.Orders
import Verif.Props.BitReader
import Verif.Spec.Blocks

/-!
# C31 and C30: which coefficients are written, and in which contexts they are read
-/
namespace Jxl
open Spec

/-! ## Positions -/

/-- The 27 transform types are those of the format; blocks that are higher than wide (and square ones of the plain transform) use the order of their class transposed. -/
theorem type_table : ∀ t : Fin 27, ∃ tt h w, allDCT[t.1]? = some tt ∧ tt.ttType = (t.1 : Int) ∧ transformSizes[t.1]? = some (8 * h, 8 * w) ∧ Dims tt h w ∧
    (∃ b : Nat, b < 13 ∧ transformClasses[t.1]? = some b ∧ tt.orderID = (b : Int) ∧
      classSizes[b]? = some (if tt.flip then (8 * w, 8 * h) else (8 * h, 8 * w))) := by
  have key : ∀ t : Fin 27, (match allDCT[t.1]?, transformSizes[t.1]?, transformClasses[t.1]? with
    | some tt, some q, some b => decide (tt.ttType = (t.1 : Int) ∧ q = (8 * (q.1 / 8), 8 * (q.2 / 8)) ∧ tt.pixelHeight = ((8 * (q.1 / 8) : Nat) : Int) ∧
        tt.pixelWidth = ((8 * (q.2 / 8) : Nat) : Int) ∧ 0 < q.1 / 8 ∧ 0 < q.2 / 8 ∧ b < 13 ∧ tt.orderID = (b : Int) ∧
        classSizes[b]? = some (if tt.flip then (8 * (q.2 / 8), 8 * (q.1 / 8)) else (8 * (q.1 / 8), 8 * (q.2 / 8))))
    | _, _, _ => false) = true := by decide
  intro t
  have := key t
  split at this
  · next tt q b e1 e2 e3 =>
    obtain ⟨h1, h2, h3, h4, h5, h6, h7, h8, h9⟩ := of_decide_eq_true this
    exact ⟨tt, q.1 / 8, q.2 / 8, e1, h1, e2.trans (congrArg some h2), ⟨h3, h4, h5, h6⟩, b, h7, e3, h8, h9⟩
  · cases this

/-- After the low frequencies an order has exactly the other positions of the block. -/
theorem visits_drop {h w : Nat} (hw : 0 < w) {o : List Point} (h1 : Visits (8 * h) (8 * w) o) (h2 : CornerFirst (8 * h) (8 * w) o) :
    (o.drop (h * w)).Nodup ∧ ∀ p, p ∈ o.drop (h * w) ↔ InBlock (8 * h) (8 * w) p ∧ ¬ LowFrequency (8 * h) (8 * w) p := by
  have hd : ∀ p, p ∈ o.drop (h * w) ↔ ∃ i, h * w ≤ i ∧ o[i]? = some p := by
    intro p
    rw [List.mem_iff_getElem?]
    constructor
    · rintro ⟨i, hi⟩
      rw [List.getElem?_drop] at hi
      exact ⟨_, Nat.le_add_right _ _, hi⟩
    · rintro ⟨i, hi, he⟩
      refine ⟨i - h * w, ?_⟩
      rw [List.getElem?_drop, Nat.add_sub_cancel' hi, he]
  unfold CornerFirst at h2
  rw [show 8 * h / 8 = h by omega, show 8 * w / 8 = w by omega] at h2
  have hlow : ∀ p, LowFrequency (8 * h) (8 * w) p ↔ ∃ i, i < h * w ∧ o[i]? = some p := by
    intro p
    unfold LowFrequency InBlock
    rw [show 8 * h / 8 = h by omega, show 8 * w / 8 = w by omega]
    constructor
    · rintro ⟨a, b, c, d⟩
      have hlt : p.y.toNat * w + p.x.toNat < h * w := by
        have : (p.y.toNat + 1) * w ≤ h * w := Nat.mul_le_mul_right w (by omega)
        rw [Nat.add_mul] at this
        omega
      refine ⟨p.y.toNat * w + p.x.toNat, hlt, ?_⟩
      rw [h2 _ _ (by omega) (by omega)]
      obtain ⟨y, x⟩ := p
      dsimp only at a c ⊢
      rw [Int.toNat_of_nonneg a, Int.toNat_of_nonneg c]
    · rintro ⟨i, hi, he⟩
      have hy : i / w < h := Nat.div_lt_of_lt_mul (by rwa [Nat.mul_comm])
      have := h2 (i / w) (i % w) hy (Nat.mod_lt _ hw)
      rw [show i / w * w + i % w = i by rw [Nat.mul_comm]; exact Nat.div_add_mod i w] at this
      rw [this] at he
      cases he
      exact ⟨Int.natCast_nonneg _, Int.ofNat_lt.2 hy, Int.natCast_nonneg _, Int.ofNat_lt.2 (Nat.mod_lt i hw)⟩
  refine ⟨h1.1.sublist (List.drop_sublist _ _), fun p => ?_⟩
  rw [hd, ← h1.2 p, hlow]
  constructor
  · rintro ⟨i, hi, he⟩
    refine ⟨List.mem_of_getElem? he, ?_⟩
    rintro ⟨j, hj, he'⟩
    have := (List.getElem?_inj (l := o) (List.getElem?_eq_some_iff.1 he).1 h1.1).1 (he.trans he'.symm)
    omega
  · rintro ⟨hp, hn⟩
    obtain ⟨i, hi⟩ := List.mem_iff_getElem?.1 hp
    refine ⟨i, ?_, hi⟩
    by_contra hc
    exact hn ⟨i, by omega, hi⟩

theorem place_in {flip : Bool} {h w : Nat} (p : Point) : InBlock (if flip then w else h) (if flip then h else w) p ↔ InBlock h w (coeffPlace flip p) := by
  unfold InBlock coeffPlace
  cases flip
  · simp
  · simp only [if_true]
    omega

/-- The places of the coefficients of a block relative to its corner, in the order in which they are coded. -/
def places (tt : TransformType) (o : List Point) : List Point := (o.drop (tt.dctHeight * tt.dctWidth).toNat).map (coeffPlace tt.flip)

/-- **C31**: whatever orders are read for a pass, for each of the 27 transform types and each channel the places to which high-frequency coefficients go are exactly the positions
of the block outside its low-frequency corner, each once. -/
theorem C31_places (presets clusters : Int) (pass : HFPass) (s s' : BR) (h : readHFPass presets clusters s = (.ok pass, s')) (t c : Nat) (ht : t < 27) (hc : c < 3) :
    ∃ tt H W os o, allDCT[t]? = some tt ∧ transformSizes[t]? = some (H, W) ∧ idx pass.order tt.orderID = .ok os ∧ idx os (c : Int) = .ok o ∧ o.length = H * W ∧ o.Nodup ∧
      (places tt o).Nodup ∧ ∀ p, p ∈ places tt o ↔ InBlock H W p ∧ ¬ LowFrequency H W p := by
  obtain ⟨tt, bh, bw, h1, _, h3, h4, b, hb, h5, h6, h7⟩ := type_table ⟨t, ht⟩
  dsimp only at h1 h3 h5
  obtain ⟨_, q⟩ := readHFPass_orders presets clusters s pass s' h
  obtain ⟨os, tt', ch, cw, q1, q2, q3, q4, q5, q6⟩ := q b hb
  have hlt : c < os.length := by omega
  obtain ⟨g1, _⟩ := q6 os[c] (List.getElem_mem hlt)
  obtain ⟨v1, v2⟩ := g1.visits q3
  have hlen : os[c].length = 64 * (ch * cw) := by rw [g1.1.length_eq, natural_length q3]
  have e1 : idx pass.order tt.orderID = .ok os := by
    rw [h6]
    unfold idx
    rw [if_neg (by omega), Int.toNat_natCast, q1]
  have e2 : idx os (c : Int) = .ok os[c] := by simp [idx, hlt]
  have hdim : ch = (if tt.flip then bw else bh) ∧ cw = (if tt.flip then bh else bw) := by
    rw [q4] at h7
    cases hf : tt.flip <;> rw [hf] at h7 <;> simp at h7 <;> simp <;> omega
  have hprod : ch * cw = bh * bw := by
    rw [hdim.1, hdim.2]
    cases tt.flip
    · rfl
    · exact Nat.mul_comm _ _
  have hB : (tt.dctHeight * tt.dctWidth).toNat = ch * cw := by
    rw [h4.dct.1, h4.dct.2, hprod, ← Int.natCast_mul, Int.toNat_natCast]
  refine ⟨tt, 8 * bh, 8 * bw, os, os[c], h1, h3, e1, e2, ?_, v1.1, ?_⟩
  · rw [hlen, hprod, Nat.mul_mul_mul_comm]
  obtain ⟨d1, d2⟩ := visits_drop q3.wpos v1 v2
  unfold places
  rw [hB]
  refine ⟨d1.map (fun a b he => coeffPlace_inj (flip := tt.flip) (by rw [he]) (by rw [he])), ?_⟩
  intro p
  have hin : ∀ p, InBlock (8 * ch) (8 * cw) p ↔ InBlock (8 * bh) (8 * bw) (coeffPlace tt.flip p) := by
    intro p
    rw [← place_in, hdim.1, hdim.2]
    cases tt.flip <;> rfl
  have hlow : ∀ p, LowFrequency (8 * ch) (8 * cw) p ↔ LowFrequency (8 * bh) (8 * bw) (coeffPlace tt.flip p) := by
    intro p
    unfold LowFrequency
    rw [show 8 * ch / 8 = ch by omega, show 8 * cw / 8 = cw by omega, show 8 * bh / 8 = bh by omega, show 8 * bw / 8 = bw by omega, ← place_in, hdim.1, hdim.2]
  have hinv : ∀ p, coeffPlace tt.flip (coeffPlace tt.flip p) = p := by
    intro p
    unfold coeffPlace
    cases tt.flip <;> rfl
  rw [List.mem_map]
  constructor
  · rintro ⟨a, ha, rfl⟩
    rw [← hin, ← hlow]
    exact (d2 a).1 ha
  · intro hp
    refine ⟨coeffPlace tt.flip p, (d2 _).2 ?_, hinv p⟩
    rw [hin, hlow, hinv]
    exact hp

/-! ## Values -/

theorem unpack_coefficient {v : Int} (h0 : 0 ≤ v) (h1 : v < 2147483648) (shift : Nat) : unpackSigned (toU32 v) * 2 ^ shift = coefficient shift v := by
  obtain ⟨n, rfl⟩ := Int.eq_ofNat_of_zero_le h0
  have e : toU32 (n : Int) = n := by
    unfold toU32
    omega
  rw [e, C07_unpackSigned_partial n (by omega) (Or.inl (by omega))]
  unfold zigzag coefficient
  congr 1
  split <;> split <;> omega

variable {σ : Type} {read : σ → Int → Rd (Int × σ)}

/-- Reading one channel of a block, with the orders of a pass that was read. -/
theorem block_run {hf : HFBlockContext} (hw : hf.WellFormed) {presets : Int} {pass : HFPass} {s0 s0' : BR} (hpass : readHFPass presets hf.numClusters s0 = (.ok pass, s0'))
    {offset : Int} {shift : Nat} {b : HFBlock} {c : Nat} {sy sx : Int} {st : σ} {tr : List (Int × Int)}
    {p : HFPlane} {h w H W : Nat} {s s' : BR} {r : (σ × List (Int × Int)) × HFPlane} (hsmall : offset + 495 * hf.numClusters < 2147483648) (ho : 0 ≤ offset) (htt : b.tt ∈ allDCT)
    (hc : c < 3) (hl : 0 ≤ b.lfIndex ∧ b.lfIndex < hf.numLFContexts) {os : List (List Point)} {order : List Point} (ho1 : idx pass.order b.tt.orderID = .ok os) (ho2 : idx os (c : Int) = .ok order)
    (hp1 : CountTable h w p.nonZeros) (hp2 : Table H W p.coeffs) (hr : readBlockPlane (traced read) hf offset shift order b c sy sx (st, tr) p s = (.ok r, s'))
    (hpos : ∀ u ∈ r.1.2, 0 ≤ u.2) :
    ∃ cb : CodedBlock, r.1.2 = tr ++ cb.symbols ∧ cb.Ok offset hf.numClusters ∧ CountTable h w r.2.nonZeros ∧
      ∃ hist B, b.tt.dctHeight * b.tt.dctWidth = ((B : Nat) : Int) ∧
        Coded hist B order b.tt.flip (sy * 8) (sx * 8) shift 0 (order.length - B) cb.count.2 H W p.coeffs r.2.coeffs cb.values := by
  obtain ⟨t, ht⟩ := List.mem_iff_getElem?.1 htt
  have ht27 : t < 27 := (List.getElem?_eq_some_iff.1 ht).1
  obtain ⟨tt, H', W', os', o', q1, q2, q3, q4, q5, q6, _⟩ := C31_places presets hf.numClusters pass s0 s0' hpass t c ht27 hc
  rw [ht] at q1
  cases q1
  rw [ho1] at q3
  cases q3
  rw [ho2] at q4
  cases q4
  obtain ⟨tt', bh, bw, h1, _, h3, h4, _⟩ := type_table ⟨t, ht27⟩
  dsimp only at h1 h3
  rw [ht] at h1
  cases h1
  rw [q2] at h3
  cases h3
  refine readBlockPlane_run hw hsmall ho htt (by omega) hl q6 ?_ hp1 hp2 hr hpos
  rw [q5, h4.dct.1, h4.dct.2, Nat.mul_mul_mul_comm, Int.natCast_mul, Int.natCast_mul]
  rfl

/-- **C31**: reading one channel of a block of type `t` whose corner is at row `8 * sy`, column `8 * sx`. The symbols are a number and as many values as needed; there is a list
of all positions of the block outside its low-frequency corner, each once, and the values go to these positions in this order; all other entries keep what they had. -/
theorem C31_written {hf : HFBlockContext} (hw : hf.WellFormed) {presets : Int} {pass : HFPass} {s0 s0' : BR} (hpass : readHFPass presets hf.numClusters s0 = (.ok pass, s0'))
    {offset : Int} {shift : Nat} {b : HFBlock} {t c : Nat} {sy sx : Int} {st : σ} {p : HFPlane} {h w H W : Nat} {s s' : BR} {r : (σ × List (Int × Int)) × HFPlane}
    (hsmall : offset + 495 * hf.numClusters < 2147483648) (ho : 0 ≤ offset) (htt : allDCT[t]? = some b.tt) (hc : c < 3) (hl : 0 ≤ b.lfIndex ∧ b.lfIndex < hf.numLFContexts)
    {os : List (List Point)} {order : List Point} (ho1 : idx pass.order b.tt.orderID = .ok os) (ho2 : idx os (c : Int) = .ok order)
    (hp1 : CountTable h w p.nonZeros) (hp2 : Table H W p.coeffs) (hr : readBlockPlane (traced read) hf offset shift order b c sy sx (st, []) p s = (.ok r, s'))
    (hpos : ∀ u ∈ r.1.2, 0 ≤ u.2 ∧ u.2 < 2147483648) :
    ∃ (rows cols : Nat) (positions : List Point) (count : Int) (values : List Int), transformSizes[t]? = some (rows, cols) ∧
      (positions.Nodup ∧ ∀ q, q ∈ positions ↔ InBlock rows cols q ∧ ¬ LowFrequency rows cols q) ∧
      r.1.2.map (·.2) = count :: values ∧ values.length ≤ positions.length ∧ ((values.countP (fun v => v ≠ 0) : Nat) : Int) = count ∧
      Table H W r.2.coeffs ∧
      (∀ (i : Nat) (q : Point), positions[i]? = some q → cell r.2.coeffs (sy * 8 + q.y) (sx * 8 + q.x) =
        match values[i]? with
        | some v => some (i32 (coefficient shift v))
        | none => cell p.coeffs (sy * 8 + q.y) (sx * 8 + q.x)) ∧
      (∀ y x, (⟨y - sy * 8, x - sx * 8⟩ : Point) ∉ positions → cell r.2.coeffs y x = cell p.coeffs y x) := by
  have ht27 : t < 27 := (List.getElem?_eq_some_iff.1 htt).1
  obtain ⟨tt, rows, cols, os', o', q1, q2, q3, q4, q5, q6, q7, q8⟩ := C31_places presets hf.numClusters pass s0 s0' hpass t c ht27 hc
  rw [htt] at q1
  cases q1
  rw [ho1] at q3
  cases q3
  rw [ho2] at q4
  cases q4
  obtain ⟨cb, g1, g2, _, hist, B, g4, g5⟩ := block_run hw hpass hsmall ho (List.mem_of_getElem? htt) hc hl ho1 ho2 hp1 hp2 hr (fun u hu => (hpos u hu).1)
  rw [List.nil_append] at g1
  have hpl : ∀ (i : Nat) (q : Point), (places b.tt order)[i]? = some q → ∃ a, order[0 + B + i]? = some a ∧ q = coeffPlace b.tt.flip a := by
    intro i q hq
    unfold places at hq
    rw [g4, Int.toNat_natCast, List.getElem?_map, List.getElem?_drop] at hq
    rw [Nat.zero_add]
    cases ha : order[B + i]? with
    | none => rw [ha] at hq; cases hq
    | some a =>
      rw [ha, Option.map_some] at hq
      cases hq
      exact ⟨a, rfl, rfl⟩
  refine ⟨rows, cols, places b.tt order, cb.count.2, cb.values.map (·.2), q2, ⟨q7, q8⟩, by rw [g1]; rfl, ?_, ?_, g5.table, ?_, ?_⟩
  · rw [List.length_map]
    unfold places
    rw [g4, Int.toNat_natCast, List.length_map, List.length_drop]
    exact g5.len
  · rw [← g5.number, List.countP_map]
    rfl
  · intro i q hq
    obtain ⟨a, ha, rfl⟩ := hpl i q hq
    rw [g5.written i a ha, List.getElem?_map]
    cases hu : cb.values[i]? with
    | none => rfl
    | some u =>
      rw [Option.map_some]
      dsimp only
      have hm : u ∈ r.1.2 := by
        rw [g1]
        exact List.mem_cons_of_mem _ (List.mem_of_getElem? hu)
      rw [unpack_coefficient (hpos u hm).1 (hpos u hm).2]
  · intro y x hyx
    refine g5.other y x (fun i a ha e1 e2 => hyx ?_)
    have : (⟨y - sy * 8, x - sx * 8⟩ : Point) = coeffPlace b.tt.flip a := by
      rw [← e1, ← e2]
      cases coeffPlace b.tt.flip a
      simp
    rw [this]
    unfold places
    rw [g4, Int.toNat_natCast]
    refine List.mem_map_of_mem (List.mem_iff_getElem?.2 ⟨i, ?_⟩)
    rw [List.getElem?_drop]
    rwa [Nat.zero_add] at ha

/-! ## Contexts -/

/-- The symbols read so far, and the tables, after the blocks `cbs`. -/
def GroupRun (offset n : Int) (tr : List (Int × Int)) (s : (σ × List (Int × Int)) × List HFPlane) : Prop :=
  (∃ cbs : List CodedBlock, s.1.2 = tr ++ (cbs.map CodedBlock.symbols).flatten ∧ ∀ cb ∈ cbs, cb.Ok offset n) ∧ ∀ p ∈ s.2, p.Good

theorem setAt_mem {α : Type} {l l' : List α} {i : Int} {a : α} (h : setAt l i a = .ok l') : ∀ x ∈ l', x = a ∨ x ∈ l := by
  intro x hx
  unfold setAt at h
  split at h
  · cases h
  · split at h
    · cases h
      rcases List.mem_or_eq_of_mem_set hx with h | h
      · exact Or.inr h
      · exact Or.inl h
    · cases h

theorem coeffLoop_grows {hist nb : Int} {order : List Point} {flip : Bool} {py px : Int} {shift : Nat} :
    ∀ (n : Nat) (k nonZero prev : Int) (st : σ × List (Int × Int)) (q : List (List Int)) (s s' : BR) (r : Int × (σ × List (Int × Int)) × List (List Int)),
    coeffLoop (traced read) hist nb order flip py px shift n k nonZero prev st q s = (.ok r, s') → ∃ us, r.2.1.2 = st.2 ++ us
  | 0, k, nonZero, prev, st, q, s, s', r, h => by
    rw [coeffLoop] at h
    obtain ⟨e, _⟩ := Rd.of_pure h
    subst e
    exact ⟨[], by simp⟩
  | n + 1, k, nonZero, prev, st, q, s, s', r, h => by
    rw [coeffLoop] at h
    obtain ⟨v, e1, h⟩ := Rd.of_lift_bind h
    obtain ⟨a, s2, e2, h⟩ := Rd.of_bind h
    obtain ⟨st', ea, _⟩ := traced_inv e2
    generalize ea' : a.1 = uc at ea h
    subst ea
    obtain ⟨o, e3, h⟩ := Rd.of_lift_bind h
    obtain ⟨q1, e4, h⟩ := Rd.of_lift_bind h
    dsimp only at h
    split at h
    · split at h
      · obtain ⟨e, _⟩ := Rd.of_pure h
        subst e
        exact ⟨_, rfl⟩
      · obtain ⟨us, hu⟩ := coeffLoop_grows n _ _ _ _ _ _ _ _ h
        exact ⟨_, by rw [hu, List.append_assoc]⟩
    · obtain ⟨us, hu⟩ := coeffLoop_grows n _ _ _ _ _ _ _ _ h
      exact ⟨_, by rw [hu, List.append_assoc]⟩

theorem readBlockPlane_grows {hf : HFBlockContext} {offset : Int} {shift : Nat} {order : List Point} {b : HFBlock} {c sy sx : Int} {st : σ × List (Int × Int)} {p : HFPlane} {s s' : BR}
    {r : (σ × List (Int × Int)) × HFPlane} (h : readBlockPlane (traced read) hf offset shift order b c sy sx st p s = (.ok r, s')) : ∃ us, r.1.2 = st.2 ++ us := by
  unfold readBlockPlane at h
  obtain ⟨_, _, h⟩ := Rd.of_lift_bind h
  obtain ⟨_, _, h⟩ := Rd.of_lift_bind h
  obtain ⟨a, s2, e2, h⟩ := Rd.of_bind h
  obtain ⟨st', ea, _⟩ := traced_inv e2
  generalize ea' : a.1 = uc at ea h
  subst ea
  obtain ⟨_, _, h⟩ := Rd.of_lift_bind h
  split at h
  · obtain ⟨e, _⟩ := Rd.of_pure h
    subst e
    exact ⟨_, rfl⟩
  · obtain ⟨t, s3, e3, h⟩ := Rd.of_bind h
    split at h
    · cases h
    · obtain ⟨e, _⟩ := Rd.of_pure h
      subst e
      obtain ⟨us, hu⟩ := coeffLoop_grows _ _ _ _ _ _ _ _ _ e3
      exact ⟨_, by dsimp only at hu ⊢; rw [hu, List.append_assoc]⟩

section
variable {hf : HFBlockContext} (hw : hf.WellFormed) {presets : Int} {pass : HFPass} {s0 s0' : BR} (hpass : readHFPass presets hf.numClusters s0 = (.ok pass, s0'))
  {offset : Int} {shift : Nat} (hsmall : offset + 495 * hf.numClusters < 2147483648) (ho : 0 ≤ offset) {jpegY jpegX : List Nat}
include hw hpass hsmall ho

/-- The trace only grows. -/
theorem readBlockChannel_run {b : HFBlock} {c : Nat} {tr : List (Int × Int)} {v v' : (σ × List (Int × Int)) × List HFPlane} {s s' : BR} (hb : b.Good hf) (hc : c < 3)
    (hr : readBlockChannel (traced read) hf offset shift jpegY jpegX pass.order b c v s = (.ok v', s')) :
    (∃ us, v'.1.2 = v.1.2 ++ us) ∧ ((∀ u ∈ v'.1.2, 0 ≤ u.2) → GroupRun offset hf.numClusters tr v → GroupRun offset hf.numClusters tr v') := by
  unfold readBlockChannel at hr
  obtain ⟨uy, _, hr⟩ := Rd.of_lift_bind hr
  obtain ⟨ux, _, hr⟩ := Rd.of_lift_bind hr
  split at hr
  · obtain ⟨e, _⟩ := Rd.of_pure hr
    subst e
    exact ⟨⟨[], by simp⟩, fun _ h => h⟩
  · obtain ⟨p, e1, hr⟩ := Rd.of_lift_bind hr
    obtain ⟨os, e2, hr⟩ := Rd.of_lift_bind hr
    obtain ⟨order, e3, hr⟩ := Rd.of_lift_bind hr
    obtain ⟨r, s1, e4, hr⟩ := Rd.of_bind hr
    obtain ⟨ps, e5, hr⟩ := Rd.of_lift_bind hr
    obtain ⟨e, _⟩ := Rd.of_pure hr
    subst e
    dsimp only
    refine ⟨readBlockPlane_grows e4, ?_⟩
    rintro hpos ⟨⟨cbs, h1, h2⟩, h3⟩
    obtain ⟨_, hp⟩ := idx_inv e1
    obtain ⟨⟨h, w, hp1⟩, H, W, hp2⟩ := h3 p (List.mem_of_getElem? hp)
    obtain ⟨cb, g1, g2, g3, _, B, _, g5⟩ := block_run hw hpass hsmall ho hb.1 hc hb.2 e2 e3 hp1 hp2 e4 hpos
    refine ⟨⟨cbs ++ [cb], ?_, ?_⟩, ?_⟩
    · rw [g1, h1]
      simp
    · intro x hx
      rcases List.mem_append.1 hx with hx | hx
      · exact h2 x hx
      · rw [List.mem_singleton.1 hx]
        exact g2
    · intro x hx
      rcases setAt_mem e5 x hx with e | hx
      · rw [e]
        exact ⟨⟨h, w, g3⟩, H, W, g5.table⟩
      · exact h3 x hx

theorem readBlock_run {b : HFBlock} {tr : List (Int × Int)} {v v' : (σ × List (Int × Int)) × List HFPlane} {s s' : BR} (hb : b.Good hf)
    (hr : readBlock (traced read) hf offset shift jpegY jpegX pass.order b v s = (.ok v', s')) :
    (∃ us, v'.1.2 = v.1.2 ++ us) ∧ ((∀ u ∈ v'.1.2, 0 ≤ u.2) → GroupRun offset hf.numClusters tr v → GroupRun offset hf.numClusters tr v') := by
  unfold readBlock at hr
  obtain ⟨v1, s1, e1, hr⟩ := Rd.of_bind hr
  obtain ⟨v2, s2, e2, hr⟩ := Rd.of_bind hr
  obtain ⟨⟨u1, g1⟩, k1⟩ := readBlockChannel_run hw hpass hsmall ho (c := 1) (tr := tr) hb (by omega) e1
  obtain ⟨⟨u2, g2⟩, k2⟩ := readBlockChannel_run hw hpass hsmall ho (c := 0) (tr := tr) hb (by omega) e2
  obtain ⟨⟨u3, g3⟩, k3⟩ := readBlockChannel_run hw hpass hsmall ho (c := 2) (tr := tr) hb (by omega) hr
  refine ⟨⟨u1 ++ u2 ++ u3, by rw [g3, g2, g1]; simp⟩, fun hpos h => ?_⟩
  have p2 : ∀ u ∈ v2.1.2, 0 ≤ u.2 := fun u hu => hpos u (by rw [g3]; exact List.mem_append_left _ hu)
  have p1 : ∀ u ∈ v1.1.2, 0 ≤ u.2 := fun u hu => p2 u (by rw [g2]; exact List.mem_append_left _ hu)
  exact k3 hpos (k2 p2 (k1 p1 h))

theorem readBlocks_run {tr : List (Int × Int)} : ∀ (bs : List HFBlock) (v v' : (σ × List (Int × Int)) × List HFPlane) (s s' : BR), (∀ b ∈ bs, b.Good hf) →
    readBlocks (traced read) hf offset shift jpegY jpegX pass.order bs v s = (.ok v', s') →
    (∃ us, v'.1.2 = v.1.2 ++ us) ∧ ((∀ u ∈ v'.1.2, 0 ≤ u.2) → GroupRun offset hf.numClusters tr v → GroupRun offset hf.numClusters tr v')
  | [], v, v', s, s', _, h => by
    rw [readBlocks] at h
    obtain ⟨e, _⟩ := Rd.of_pure h
    subst e
    exact ⟨⟨[], by simp⟩, fun _ h => h⟩
  | b :: bs, v, v', s, s', hb, h => by
    rw [readBlocks] at h
    obtain ⟨v1, s1, e1, h⟩ := Rd.of_bind h
    obtain ⟨⟨u1, g1⟩, k1⟩ := readBlock_run hw hpass hsmall ho (tr := tr) (hb b List.mem_cons_self) e1
    obtain ⟨⟨u2, g2⟩, k2⟩ := readBlocks_run bs v1 v' s1 s' (fun a ha => hb a (List.mem_cons_of_mem _ ha)) h
    refine ⟨⟨u1 ++ u2, by rw [g2, g1]; simp⟩, fun hpos h => ?_⟩
    exact k2 hpos (k1 (fun u hu => hpos u (by rw [g2]; exact List.mem_append_left _ hu)) h)

end

/-! Noting the symbols does not change anything. -/

/-- `m'` does what `m` does, up to `f` on the result. -/
def Erases {α β : Type} (f : α → β) (m : Rd α) (m' : Rd β) : Prop := ∀ s, m' s =
  match m s with
  | (.ok a, s') => (.ok (f a), s')
  | (.err, s') => (.err, s')
  | (.panic, s') => (.panic, s')

theorem Erases.bind {α β γ δ : Type} {f : α → β} {g : γ → δ} {m : Rd α} {m' : Rd β} {k : α → Rd γ} {k' : β → Rd δ} (h : Erases f m m') (hk : ∀ a, Erases g (k a) (k' (f a))) :
    Erases g (m >>= k) (m' >>= k') := by
  intro s
  show Rd.bind m' k' s = match Rd.bind m k s with | (.ok a, s') => (.ok (g a), s') | (.err, s') => (.err, s') | (.panic, s') => (.panic, s')
  unfold Rd.bind
  rw [h s]
  rcases m s with ⟨a | _ | _, s1⟩
  · exact hk a s1
  · rfl
  · rfl

theorem Erases.lift {α : Type} (r : Res α) : Erases id (Rd.lift r) (Rd.lift r) := by
  intro s
  unfold Rd.lift
  cases r <;> rfl

theorem Erases.pure {α β : Type} {f : α → β} {a : α} {b : β} (h : b = f a) : Erases f (Pure.pure a) (Pure.pure b) := by
  intro s
  rw [h]
  rfl

theorem Erases.fail {α β : Type} {f : α → β} : Erases f Rd.fail Rd.fail := fun _ => rfl

theorem Erases.ite {α β : Type} {f : α → β} {P : Prop} [Decidable P] {m n : Rd α} {m' n' : Rd β} (h1 : P → Erases f m m') (h2 : ¬ P → Erases f n n') :
    Erases f (if P then m else n) (if P then m' else n') := by
  by_cases hp : P
  · rw [if_pos hp, if_pos hp]
    exact h1 hp
  · rw [if_neg hp, if_neg hp]
    exact h2 hp

theorem Erases.traced (st : σ × List (Int × Int)) (ctx : Int) : Erases (fun r => (r.1, r.2.1)) (traced read st ctx) (read st.1 ctx) := by
  intro s
  unfold Spec.traced
  simp only [Bind.bind, Rd.bind]
  rcases read st.1 ctx s with ⟨a | _ | _, s1⟩ <;> rfl

theorem Erases.coeffLoop {hist nb : Int} {order : List Point} {flip : Bool} {py px : Int} {shift : Nat} :
    ∀ (n : Nat) (k nonZero prev : Int) (st : σ × List (Int × Int)) (q : List (List Int)),
    Erases (fun r => (r.1, r.2.1.1, r.2.2)) (coeffLoop (Spec.traced read) hist nb order flip py px shift n k nonZero prev st q)
      (coeffLoop read hist nb order flip py px shift n k nonZero prev st.1 q)
  | 0, k, nonZero, prev, st, q => by
    rw [Jxl.coeffLoop, Jxl.coeffLoop]
    exact Erases.pure rfl
  | n + 1, k, nonZero, prev, st, q => by
    rw [Jxl.coeffLoop, Jxl.coeffLoop]
    refine Erases.bind (Erases.lift _) (fun v => ?_)
    refine Erases.bind (Erases.traced _ _) (fun r => ?_)
    refine Erases.bind (Erases.lift _) (fun o => ?_)
    refine Erases.bind (Erases.lift _) (fun q1 => ?_)
    refine Erases.ite (fun _ => ?_) (fun _ => Erases.coeffLoop n _ _ _ _ _)
    exact Erases.ite (fun _ => Erases.pure rfl) (fun _ => Erases.coeffLoop n _ _ _ _ _)

theorem Erases.readBlockPlane {hf : HFBlockContext} {offset : Int} {shift : Nat} {order : List Point} {b : HFBlock} {c sy sx : Int} {st : σ × List (Int × Int)} {p : HFPlane} :
    Erases (fun r => (r.1.1, r.2)) (readBlockPlane (Spec.traced read) hf offset shift order b c sy sx st p) (readBlockPlane read hf offset shift order b c sy sx st.1 p) := by
  unfold Jxl.readBlockPlane
  refine Erases.bind (Erases.lift _) (fun v => ?_)
  refine Erases.bind (Erases.lift _) (fun w => ?_)
  refine Erases.bind (Erases.traced _ _) (fun r => ?_)
  refine Erases.bind (Erases.lift _) (fun nz => ?_)
  refine Erases.ite (fun _ => Erases.pure rfl) (fun _ => ?_)
  refine Erases.bind (Erases.coeffLoop _ _ _ _ _ _) (fun t => ?_)
  exact Erases.ite (fun _ => Erases.fail) (fun _ => Erases.pure rfl)

/-- Forgetting the symbols. -/
def forget (v : (σ × List (Int × Int)) × List HFPlane) : σ × List HFPlane := (v.1.1, v.2)

theorem Erases.readBlockChannel {hf : HFBlockContext} {offset : Int} {shift : Nat} {jpegY jpegX : List Nat} {orders : List (List (List Point))} {b : HFBlock} {c : Int}
    (v : (σ × List (Int × Int)) × List HFPlane) :
    Erases forget (readBlockChannel (Spec.traced read) hf offset shift jpegY jpegX orders b c v) (readBlockChannel read hf offset shift jpegY jpegX orders b c (forget v)) := by
  unfold Jxl.readBlockChannel
  refine Erases.bind (Erases.lift _) (fun uy => ?_)
  refine Erases.bind (Erases.lift _) (fun ux => ?_)
  refine Erases.ite (fun _ => Erases.pure rfl) (fun _ => ?_)
  refine Erases.bind (Erases.lift _) (fun p => ?_)
  refine Erases.bind (Erases.lift _) (fun os => ?_)
  refine Erases.bind (Erases.lift _) (fun o => ?_)
  refine Erases.bind Erases.readBlockPlane (fun r => ?_)
  refine Erases.bind (Erases.lift _) (fun ps => ?_)
  exact Erases.pure rfl

theorem Erases.readBlocks {hf : HFBlockContext} {offset : Int} {shift : Nat} {jpegY jpegX : List Nat} {orders : List (List (List Point))} :
    ∀ (bs : List HFBlock) (v : (σ × List (Int × Int)) × List HFPlane),
    Erases forget (readBlocks (Spec.traced read) hf offset shift jpegY jpegX orders bs v) (readBlocks read hf offset shift jpegY jpegX orders bs (forget v))
  | [], v => by
    rw [Jxl.readBlocks, Jxl.readBlocks]
    exact Erases.pure rfl
  | b :: bs, v => by
    rw [Jxl.readBlocks, Jxl.readBlocks]
    refine Erases.bind ?_ (fun v => Erases.readBlocks bs v)
    unfold readBlock
    refine Erases.bind (Erases.readBlockChannel v) (fun v => ?_)
    refine Erases.bind (Erases.readBlockChannel v) (fun v => ?_)
    exact Erases.readBlockChannel v

theorem Erases.ok {α β : Type} {f : α → β} {m : Rd α} {m' : Rd β} (h : Erases f m m') {s s' : BR} {b : β} (hb : m' s = (.ok b, s')) : ∃ a, m s = (.ok a, s') ∧ b = f a := by
  have := h s
  rw [hb] at this
  rcases hm : m s with ⟨a | _ | _, s1⟩ <;> rw [hm] at this <;> cases this
  exact ⟨a, rfl, rfl⟩

/-! The claims about contexts. -/

theorem Spec.CodedBlock.Ok.range {offset n : Int} {b : CodedBlock} (h : b.Ok offset n) : ∀ u ∈ b.symbols, offset ≤ u.1 ∧ u.1 < offset + 495 * n := by
  have hc := h.ctx
  intro u hu
  rcases List.mem_cons.1 hu with e | hu
  · rw [e]
    obtain ⟨i, h0, h1, e⟩ := h.count
    rw [e]
    have h2 : n * 0 ≤ n * i := Int.mul_le_mul_of_nonneg_left h0 (by omega)
    have h3 : n * i ≤ n * 36 := Int.mul_le_mul_of_nonneg_left (by omega) (by omega)
    generalize n * i = q at *
    omega
  · obtain ⟨v, h0, h1, e⟩ := h.values u hu
    rw [e]
    omega

/-- **C30**: when the blocks of a group are decoded with preset `preset`, every symbol is read in a context of the table; the symbols are those of a sequence of blocks, each of which
has its number in a context for numbers and its coefficients in contexts for coefficients, of the same block context. `read` is any source of symbols, and `trace` lists the
contexts and the symbols. Missing: symbols below 0, see `C30_negative_number`. -/
theorem C30_contexts_partial {hf : HFBlockContext} (hw : hf.WellFormed) {presets preset : Int} {pass : HFPass} {s0 s0' : BR} (hpass : readHFPass presets hf.numClusters s0 = (.ok pass, s0'))
    (hpre : 0 ≤ preset ∧ preset < presets) (hsmall : 495 * hf.numClusters * presets < 2147483648) (shift : Nat) (jpegY jpegX : List Nat) (blocks : List HFBlock)
    (hb : ∀ b ∈ blocks, b.Good hf) (planes planes' : List HFPlane) (hpl : ∀ p ∈ planes, p.Good) (st st' : σ) (s s' : BR)
    (hr : readBlocks read hf (495 * hf.numClusters * preset) shift jpegY jpegX pass.order blocks (st, planes) s = (.ok (st', planes'), s')) :
    ∃ trace, readBlocks (traced read) hf (495 * hf.numClusters * preset) shift jpegY jpegX pass.order blocks ((st, []), planes) s = (.ok ((st', trace), planes'), s') ∧
      ((∀ u ∈ trace, 0 ≤ u.2) → (∀ u ∈ trace, 0 ≤ u.1 ∧ u.1 < 495 * hf.numClusters * presets) ∧
        ∃ coded : List CodedBlock, trace = (coded.map CodedBlock.symbols).flatten ∧ ∀ b ∈ coded, b.Ok (495 * hf.numClusters * preset) hf.numClusters) := by
  obtain ⟨⟨⟨st2, trace⟩, planes2⟩, e1, e2⟩ := (Erases.readBlocks blocks ((st, []), planes)).ok hr
  unfold forget at e2
  cases e2
  refine ⟨trace, e1, fun hpos => ?_⟩
  have hn : 0 ≤ hf.numClusters := by
    have h1 := hw.size
    have h2 := hw.lf
    have h3 : 0 < 39 * ((hf.qfThresholds.length : Int) + 1) * hf.numLFContexts := Int.mul_pos (by omega) h2
    have h4 : 0 < hf.clusterMap.length := by omega
    have := hw.entries _ (List.getElem_mem h4)
    omega
  have ho : 0 ≤ 495 * hf.numClusters * preset := Int.mul_nonneg (by omega) hpre.1
  have hle : 495 * hf.numClusters * preset + 495 * hf.numClusters ≤ 495 * hf.numClusters * presets := by
    have : 495 * hf.numClusters * (preset + 1) ≤ 495 * hf.numClusters * presets := Int.mul_le_mul_of_nonneg_left (by omega) (by omega)
    rwa [Int.mul_add, Int.mul_one] at this
  obtain ⟨_, k⟩ := readBlocks_run hw hpass (by omega) ho (tr := []) blocks _ _ _ _ hb e1
  obtain ⟨⟨cbs, h1, h2⟩, _⟩ := k hpos ⟨⟨[], rfl, by simp⟩, hpl⟩
  rw [List.nil_append] at h1
  dsimp only at h1
  refine ⟨?_, cbs, h1, h2⟩
  intro u hu
  rw [h1] at hu
  obtain ⟨l, hl, hul⟩ := List.mem_flatten.1 hu
  obtain ⟨cb, hcb, rfl⟩ := List.mem_map.1 hl
  have := (h2 cb hcb).range u hul
  omega

/-- **C30**: different roles never share a context: a context determines its preset, whether it is for numbers or for coefficients, and its block context. -/
theorem C30_roles {n p p' c c' x : Int} (hn : 0 < n) (hc : 0 ≤ c ∧ c < n) (hc' : 0 ≤ c' ∧ c' < n) :
    (CountContext (495 * n * p) n c x → CountContext (495 * n * p') n c' x → p = p' ∧ c = c') ∧
    (ValueContext (495 * n * p) n c x → ValueContext (495 * n * p') n c' x → p = p' ∧ c = c') ∧
    (CountContext (495 * n * p) n c x → ValueContext (495 * n * p') n c' x → False) := by
  have hcount : ∀ {p c}, 0 ≤ c ∧ c < n → CountContext (495 * n * p) n c x → ∃ m, 0 ≤ m ∧ m < 37 * n ∧ x = 495 * n * p + m ∧ c = m % n := by
    rintro p c hc ⟨i, h0, h1, e⟩
    have h2 : n * 0 ≤ n * i := Int.mul_le_mul_of_nonneg_left h0 (by omega)
    have h3 : n * i ≤ n * 36 := Int.mul_le_mul_of_nonneg_left (by omega) (by omega)
    refine ⟨c + n * i, by omega, by omega, e, ?_⟩
    rw [Int.add_mul_emod_self_left, Int.emod_eq_of_lt hc.1 hc.2]
  have hvalue : ∀ {p c}, 0 ≤ c ∧ c < n → ValueContext (495 * n * p) n c x → ∃ m, 37 * n ≤ m ∧ m < 495 * n ∧ x = 495 * n * p + m ∧ c = (m - 37 * n) / 458 := by
    rintro p c hc ⟨v, h0, h1, e⟩
    exact ⟨37 * n + 458 * c + v, by omega, by omega, by omega, by omega⟩
  have huniq : ∀ {p p' m m' : Int}, 0 ≤ m → m < 495 * n → 0 ≤ m' → m' < 495 * n → 495 * n * p + m = 495 * n * p' + m' → p = p' ∧ m = m' := by
    intro p p' m m' h0 h1 h2 h3 e
    have e1 : (495 * n * p + m) % (495 * n) = m := by rw [Int.add_comm, Int.add_mul_emod_self_left, Int.emod_eq_of_lt h0 h1]
    have e2 : (495 * n * p' + m') % (495 * n) = m' := by rw [Int.add_comm, Int.add_mul_emod_self_left, Int.emod_eq_of_lt h2 h3]
    have hm : m = m' := by rw [← e1, ← e2, e]
    subst hm
    refine ⟨Int.eq_of_mul_eq_mul_left (a := 495 * n) (by omega) (by omega), rfl⟩
  refine ⟨fun h h' => ?_, fun h h' => ?_, fun h h' => ?_⟩
  · obtain ⟨m, a1, a2, a3, a4⟩ := hcount hc h
    obtain ⟨m', b1, b2, b3, b4⟩ := hcount hc' h'
    obtain ⟨e1, e2⟩ := huniq a1 (by omega) b1 (by omega) (a3.symm.trans b3)
    exact ⟨e1, by rw [a4, b4, e2]⟩
  · obtain ⟨m, a1, a2, a3, a4⟩ := hvalue hc h
    obtain ⟨m', b1, b2, b3, b4⟩ := hvalue hc' h'
    obtain ⟨e1, e2⟩ := huniq (by omega) a2 (by omega) b2 (a3.symm.trans b3)
    exact ⟨e1, by rw [a4, b4, e2]⟩
  · obtain ⟨m, a1, a2, a3, a4⟩ := hcount hc h
    obtain ⟨m', b1, b2, b3, b4⟩ := hvalue hc' h'
    obtain ⟨e1, e2⟩ := huniq a1 (by omega) (by omega) b2 (a3.symm.trans b3)
    omega

/-! ## The table of contexts -/

theorem load_length (n : Nat) (b : Bool) : OnOk (ES.load n b) (fun es => es.clusterMap.length = n ∨ es.clusterMap.length = n + 1) := by
  unfold ES.load loadWith
  split
  · exact OnOk.fail
  · refine OnOk.bind (OnOk.trivial _) ?_
    intro lz _
    refine OnOk.bind (readClusterMap_ok 2 _ _) ?_
    rintro ⟨m, k⟩ h
    refine OnOk.bind (OnOk.trivial _) ?_
    intro ds _
    refine OnOk.pure ?_
    have h1 := h.1
    show m.length = n ∨ m.length = n + 1
    rw [h1]
    split
    · exact Or.inr rfl
    · exact Or.inl rfl

theorem readHFPass_contexts (presets clusters : Int) : OnOk (readHFPass presets clusters) (fun pass =>
    pass.contextStream.clusterMap.length = (i32 (i32 (495 * presets) * clusters)).toNat ∨ pass.contextStream.clusterMap.length = (i32 (i32 (495 * presets) * clusters)).toNat + 1) := by
  unfold readHFPass
  refine OnOk.bind (OnOk.trivial _) ?_
  intro used _
  split
  · refine OnOk.bind (OnOk.trivial _) ?_
    intro es _
    refine OnOk.bind (OnOk.trivial _) ?_
    rintro ⟨o, es1⟩ _
    split
    · refine OnOk.bind (load_length _ _) ?_
      intro ctx hctx
      exact OnOk.pure hctx
    · exact OnOk.fail
  · refine OnOk.bind (OnOk.trivial _) ?_
    rintro ⟨o, es1⟩ _
    refine OnOk.bind (load_length _ _) ?_
    intro ctx hctx
    exact OnOk.pure hctx

/-- **C30**: the table of contexts of a pass that was read has an entry for every context of every preset (and one more if copies are used). -/
theorem C30_table {presets n : Int} {pass : HFPass} {s0 s0' : BR} (hpass : readHFPass presets n s0 = (.ok pass, s0')) (hp : 0 < presets) (hn : 0 < n)
    (hsmall : 495 * n * presets < 2147483648) (x : Int) (hx : 0 ≤ x ∧ x < 495 * n * presets) : ∃ c, idx pass.contextStream.clusterMap x = .ok c := by
  have h := readHFPass_contexts presets n s0 pass s0' hpass
  have e : 495 * n * presets = 495 * presets * n := by ring
  rw [e] at hsmall hx
  have hle : 495 * presets ≤ 495 * presets * n := by
    have : 495 * presets * 1 ≤ 495 * presets * n := Int.mul_le_mul_of_nonneg_left (by omega) (by omega)
    omega
  rw [i32_in (z := 495 * presets) (by omega) (by omega)] at h
  generalize 495 * presets * n = q at *
  rw [i32_in (by omega) (by omega)] at h
  have hlt : x.toNat < pass.contextStream.clusterMap.length := by omega
  exact ⟨pass.contextStream.clusterMap[x.toNat], by unfold idx; rw [if_neg (by omega), List.getElem?_eq_getElem hlt]⟩

/-- **C30**: whatever the context, a symbol is delivered only if it is copied or if the context is in the table. -/
theorem C30_lookup (es es' : ES) (x v : Int) (s s' : BR) (h : es.readSymbol x s = (.ok (v, es'), s')) : 0 < es.numToCopy ∨ 0 ≤ x ∧ x < es.clusterMap.length := by
  unfold ES.readSymbol ES.readSymbolMul ES.readSymbolFuel at h
  by_cases hc : 0 < es.numToCopy
  · exact Or.inl hc
  · right
    rw [if_neg hc] at h
    obtain ⟨d, e1, _⟩ := Rd.of_lift_bind h
    unfold ES.distOf at e1
    split at e1
    · cases e1
    · obtain ⟨c, e2, _⟩ := Res.of_bind e1
      have := (idx_inv e2).1
      omega

/-! ## Block contexts -/

theorem countBelow_eq (ts : List Int) (v : Int) : countBelow ts v = below ts v := by
  unfold countBelow below
  have key : ∀ (ts : List Int) (n : Int), ts.foldl (fun n t => if t < v then n + 1 else n) n = n + ((ts.filter (fun t => t < v)).length : Nat) := by
    intro ts
    induction ts with
    | nil => intro n; simp
    | cons t ts ih =>
      intro n
      rw [List.foldl_cons]
      by_cases ht : t < v
      · rw [if_pos ht, ih, List.filter_cons_of_pos (by simpa using ht), List.length_cons]
        omega
      · rw [if_neg ht, ih, List.filter_cons_of_neg (by simpa using ht)]
  rw [key]
  omega

/-- **C30**: the block context is a valid one for all channels, classes, multipliers and intervals. -/
theorem C30_block {hf : HFBlockContext} (hw : hf.WellFormed) {c o mul lf : Int} (hc : 0 ≤ c ∧ c < 3) (ho : 0 ≤ o ∧ o < 13) (hl : 0 ≤ lf ∧ lf < hf.numLFContexts) :
    ∃ v, getBlockContext hf c o mul lf = .ok v ∧ 0 ≤ v ∧ v < hf.numClusters := by
  obtain ⟨v, h1, h2, h3, _⟩ := getBlockContext_ok hw (mul := mul) hc ho hl
  exact ⟨v, h1, h2, h3⟩

theorem mixed_unique {n a b a' b' : Int} (h : 0 ≤ b ∧ b < n) (h' : 0 ≤ b' ∧ b' < n) (e : a * n + b = a' * n + b') : a = a' ∧ b = b' := by
  have e1 : (a * n + b) % n = b := by rw [Int.add_comm, Int.add_mul_emod_self_right, Int.emod_eq_of_lt h.1 h.2]
  have e2 : (a' * n + b') % n = b' := by rw [Int.add_comm, Int.add_mul_emod_self_right, Int.emod_eq_of_lt h'.1 h'.2]
  have hb : b = b' := by rw [← e1, ← e2, e]
  subst hb
  exact ⟨Int.eq_of_mul_eq_mul_right (a := n) (by omega) (by omega), rfl⟩

/-- **C30**: the entries of the table of block contexts that are used for two different channels, classes, intervals of the multiplier or intervals of the low frequencies
are different entries: if no two entries of the table are equal, the block contexts are equal only when all four are. -/
theorem C30_block_entries {hf : HFBlockContext} (hw : hf.WellFormed) (hd : hf.clusterMap.Nodup) {c o mul lf c' o' mul' lf' : Int} (hc : 0 ≤ c ∧ c < 3) (ho : 0 ≤ o ∧ o < 13)
    (hl : 0 ≤ lf ∧ lf < hf.numLFContexts) (hc' : 0 ≤ c' ∧ c' < 3) (ho' : 0 ≤ o' ∧ o' < 13) (hl' : 0 ≤ lf' ∧ lf' < hf.numLFContexts)
    (h : getBlockContext hf c o mul lf = getBlockContext hf c' o' mul' lf') : c = c' ∧ o = o' ∧ below hf.qfThresholds mul = below hf.qfThresholds mul' ∧ lf = lf' := by
  obtain ⟨v, h1, _, _, h4⟩ := getBlockContext_ok hw (mul := mul) hc ho hl
  obtain ⟨v', h1', _, _, h4'⟩ := getBlockContext_ok hw (mul := mul') hc' ho' hl'
  rw [h1, h1'] at h
  cases h
  have hq := countBelow_range hf.qfThresholds mul
  have hq' := countBelow_range hf.qfThresholds mul'
  have hcc : 0 ≤ (if c < 2 then 1 - c else c) ∧ (if c < 2 then 1 - c else c) < 3 := by split <;> omega
  have hcc' : 0 ≤ (if c' < 2 then 1 - c' else c') ∧ (if c' < 2 then 1 - c' else c') < 3 := by split <;> omega
  have r := blockIndex_range (nq := (hf.qfThresholds.length : Int) + 1) (nl := hf.numLFContexts) (q := countBelow hf.qfThresholds mul) (by omega) hl hcc ho
  have r' := blockIndex_range (nq := (hf.qfThresholds.length : Int) + 1) (nl := hf.numLFContexts) (q := countBelow hf.qfThresholds mul') (by omega) hl' hcc' ho'
  have e := (List.getElem?_inj (List.getElem?_eq_some_iff.1 h4).1 hd).1 (h4.trans h4'.symm)
  have e2 := congrArg (fun n : Nat => (n : Int)) e
  rw [Int.toNat_of_nonneg (by omega), Int.toNat_of_nonneg (by omega)] at e2
  obtain ⟨a1, a2⟩ := mixed_unique hl hl' e2
  obtain ⟨b1, b2⟩ := mixed_unique (by omega) (by omega) a1
  rw [countBelow_eq, countBelow_eq] at b2
  refine ⟨?_, by omega, by omega, a2⟩
  by_cases hx : c < 2 <;> by_cases hx' : c' < 2 <;> simp only [hx, hx', if_true, if_false] at b1 hcc hcc' <;> omega

theorem lfInterval_ok {hf : HFBlockContext} {jy jx : List Nat} {lfQuant : List (List (List Int))} {order : Int} {i y x sy sx : Nat} {ts : List Int} {q : List (List Int)} {v : Int}
    (h1 : idx jy i = .ok sy) (h2 : idx jx i = .ok sx) (h3 : idx hf.lfThresholds i = .ok ts) (h4 : idx lfQuant order = .ok q)
    (h5 : at2 q (y >>> sy : Nat) (x >>> sx : Nat) = .ok v) : lfInterval hf jy jx lfQuant order i y x = .ok (below ts v) := by
  unfold lfInterval
  rw [h1, Res.bind_ok, h2, Res.bind_ok, h3, Res.bind_ok]
  by_cases ht : ts = []
  · rw [if_pos ht, ht]
    rfl
  · rw [if_neg ht, h4, Res.bind_ok, h5, Res.bind_ok, countBelow_eq]

theorem below_le (ts : List Int) (v : Int) : below ts v ≤ ts.length := List.length_filter_le _ _

/-- **C30**: the interval of the low frequencies at a place: the number of the interval is composed of those of the three channels; it is a valid one. The values of the three
channels are `vx`, `vy` and `vb`, in tables with the second channel first. -/
theorem C30_lf_index {hf : HFBlockContext} {tx ty tb : List Int} (ht : hf.lfThresholds = [tx, ty, tb])
    (hn : hf.numLFContexts = ((tx.length : Int) + 1) * ((tb.length : Int) + 1) * ((ty.length : Int) + 1)) (hsmall : hf.numLFContexts < 2147483648)
    {a0 a1 a2 b0 b1 b2 : Nat} {qx qy qb : List (List Int)} {y x : Nat} {vx vy vb : Int} (hx : at2 qx (y >>> a0 : Nat) (x >>> b0 : Nat) = .ok vx)
    (hy : at2 qy (y >>> a1 : Nat) (x >>> b1 : Nat) = .ok vy) (hb : at2 qb (y >>> a2 : Nat) (x >>> b2 : Nat) = .ok vb) :
    ∃ v : Int, getLFIndex hf [a0, a1, a2] [b0, b1, b2] [qy, qx, qb] y x = .ok v ∧ 0 ≤ v ∧ v < hf.numLFContexts ∧
      v = ((below tx vx : Int) * ((tb.length : Int) + 1) + below tb vb) * ((ty.length : Int) + 1) + below ty vy := by
  have l1 := below_le tx vx
  have l2 := below_le tb vb
  have l3 := below_le ty vy
  have hr : ((below tx vx : Int) * ((tb.length : Int) + 1) + below tb vb) * ((ty.length : Int) + 1) + below ty vy < hf.numLFContexts ∧
      0 ≤ ((below tx vx : Int) * ((tb.length : Int) + 1) + below tb vb) * ((ty.length : Int) + 1) + below ty vy := by
    rw [hn]
    have h1 : ((below tx vx : Int) + 1) * ((tb.length : Int) + 1) ≤ ((tx.length : Int) + 1) * ((tb.length : Int) + 1) := Int.mul_le_mul_of_nonneg_right (by omega) (by omega)
    rw [Int.add_mul] at h1
    have h2 : ((below tx vx : Int) * ((tb.length : Int) + 1) + below tb vb + 1) * ((ty.length : Int) + 1) ≤ ((tx.length : Int) + 1) * ((tb.length : Int) + 1) * ((ty.length : Int) + 1) :=
      Int.mul_le_mul_of_nonneg_right (by omega) (by omega)
    rw [Int.add_mul _ 1] at h2
    have h3 : 0 ≤ (below tx vx : Int) * ((tb.length : Int) + 1) := Int.mul_nonneg (by omega) (by omega)
    have h4 : 0 ≤ ((below tx vx : Int) * ((tb.length : Int) + 1) + below tb vb) * ((ty.length : Int) + 1) := Int.mul_nonneg (by omega) (by omega)
    omega
  refine ⟨_, ?_, hr.2, hr.1, rfl⟩
  unfold getLFIndex
  rw [lfInterval_ok (order := 1) (i := 0) (sy := a0) (sx := b0) (ts := tx) (q := qx) (v := vx) rfl rfl (by rw [ht]; rfl) rfl hx, Res.bind_ok,
    lfInterval_ok (order := 0) (i := 1) (sy := a1) (sx := b1) (ts := ty) (q := qy) (v := vy) rfl rfl (by rw [ht]; rfl) rfl hy, Res.bind_ok,
    lfInterval_ok (order := 2) (i := 2) (sy := a2) (sx := b2) (ts := tb) (q := qb) (v := vb) rfl rfl (by rw [ht]; rfl) rfl hb, Res.bind_ok, ht]
  show Res.ok (i32 _) = _
  rw [i32_in (by omega) (by omega)]

/-- **C30**: equal numbers come from equal intervals of the three channels. -/
theorem C30_lf_roles {tx ty tb : List Int} {vx vy vb vx' vy' vb' : Int}
    (h : ((below tx vx : Int) * ((tb.length : Int) + 1) + below tb vb) * ((ty.length : Int) + 1) + below ty vy =
      ((below tx vx' : Int) * ((tb.length : Int) + 1) + below tb vb') * ((ty.length : Int) + 1) + below ty vy') :
    below tx vx = below tx vx' ∧ below ty vy = below ty vy' ∧ below tb vb = below tb vb' := by
  have l2 := below_le tb vb
  have l3 := below_le ty vy
  have l2' := below_le tb vb'
  have l3' := below_le ty vy'
  obtain ⟨e1, e2⟩ := mixed_unique (by omega) (by omega) h
  obtain ⟨e3, e4⟩ := mixed_unique (by omega) (by omega) e1
  omega

/-! ## Reading the table of block contexts -/

theorem readThresholds_len : ∀ n, OnOk (readThresholds n) (fun l => l.length = n)
  | 0 => OnOk.pure rfl
  | n + 1 => by
    rw [readThresholds]
    refine OnOk.bind (OnOk.trivial _) ?_
    intro t _
    refine OnOk.bind (readThresholds_len n) ?_
    intro ts h
    exact OnOk.pure (by rw [List.length_cons, h])

theorem readQFThresholds_len : ∀ n, OnOk (readQFThresholds n) (fun l => l.length = n)
  | 0 => OnOk.pure rfl
  | n + 1 => by
    rw [readQFThresholds]
    refine OnOk.bind (OnOk.trivial _) ?_
    intro t _
    refine OnOk.bind (readQFThresholds_len n) ?_
    intro ts h
    exact OnOk.pure (by rw [List.length_cons, h])

theorem readLFThresholds_len : ∀ n, OnOk (readLFThresholds n) (fun l => l.length = n)
  | 0 => OnOk.pure rfl
  | n + 1 => by
    rw [readLFThresholds]
    refine OnOk.bind (OnOk.trivial _) ?_
    intro nb _
    refine OnOk.bind (OnOk.trivial _) ?_
    intro ts _
    refine OnOk.bind (readLFThresholds_len n) ?_
    intro l h
    exact OnOk.pure (by rw [List.length_cons, h])

theorem length_three {α : Type} {l : List α} (h : l.length = 3) : ∃ a b c, l = [a, b, c] := by
  match l, h with
  | [a, b, c], _ => exact ⟨a, b, c, rfl⟩

/-- **C30**: the table of block contexts that is read is complete and has at most 16 contexts, provided that it has no negative entries. Missing: negative entries, which
the reader of the table lets pass (`C16_violated`). -/
theorem C30_read_table_partial (hf : HFBlockContext) (s s' : BR) (h : readHFBlockContext s = (.ok hf, s')) (hneg : ∀ c ∈ hf.clusterMap, 0 ≤ c) :
    hf.WellFormed ∧ hf.numClusters ≤ 16 ∧ ∃ tx ty tb, hf.lfThresholds = [tx, ty, tb] ∧
      hf.numLFContexts = ((tx.length : Int) + 1) * ((tb.length : Int) + 1) * ((ty.length : Int) + 1) ∧ hf.numLFContexts ≤ 64 := by
  have key : OnOk readHFBlockContext (fun hf => (∀ c ∈ hf.clusterMap, 0 ≤ c) → hf.WellFormed ∧ hf.numClusters ≤ 16 ∧ ∃ tx ty tb, hf.lfThresholds = [tx, ty, tb] ∧
      hf.numLFContexts = ((tx.length : Int) + 1) * ((tb.length : Int) + 1) * ((ty.length : Int) + 1) ∧ hf.numLFContexts ≤ 64) := by
    unfold readHFBlockContext
    refine OnOk.bind (OnOk.trivial _) ?_
    intro useDefault _
    split
    · refine OnOk.pure (fun _ => ⟨⟨by decide, by decide, by decide, by decide, by decide⟩, by decide, [], [], [], rfl, by decide, by decide⟩)
    · refine OnOk.bind (readLFThresholds_len 3) ?_
      intro lf hlf
      obtain ⟨tx, ty, tb, rfl⟩ := length_three hlf
      refine OnOk.bind (OnOk.trivial _) ?_
      intro nb _
      refine OnOk.bind (readQFThresholds_len nb) ?_
      intro qf hqf
      dsimp only
      split
      · exact OnOk.fail
      · next hsz =>
        refine OnOk.bind (readClusterMap_ok 2 _ 16) ?_
        rintro ⟨m, k⟩ ⟨h1, h2, h3, h4, h5⟩
        dsimp only at h1 h2 h3 h4
        refine OnOk.pure (fun hneg => ?_)
        dsimp only at hneg ⊢
        have hi : intervals [tx, ty, tb] = ((tx.length : Int) + 1) * ((tb.length : Int) + 1) * ((ty.length : Int) + 1) := by
          simp only [intervals, List.foldl_cons, List.foldl_nil]
          ring
        have hi0 : 0 < intervals [tx, ty, tb] := by
          rw [hi]
          exact Int.mul_pos (Int.mul_pos (by omega) (by omega)) (by omega)
        have hpos : 39 * (1 * intervals [tx, ty, tb]) ≤ 39 * ((nb : Int) + 1) * intervals [tx, ty, tb] := by
          rw [Int.mul_assoc]
          exact Int.mul_le_mul_of_nonneg_left (Int.mul_le_mul_of_nonneg_right (by omega) (by omega)) (by omega)
        rw [← hqf] at h1 hsz hpos
        generalize hq : 39 * ((qf.length : Int) + 1) * intervals [tx, ty, tb] = q at *
        refine ⟨⟨hi0, ?_, ?_, fun c hc => ⟨hneg c hc, h2 c hc⟩, ?_⟩, h4, tx, ty, tb, rfl, hi, ?_⟩
        · show (m.length : Int) = 39 * ((qf.length : Int) + 1) * intervals [tx, ty, tb]
          rw [hq, h1]
          omega
        · show m.length < 2147483648
          omega
        · show k < 2147483648
          omega
        · show intervals [tx, ty, tb] ≤ 64
          omega
  exact key s hf s' h hneg

/-! ## What goes wrong -/

theorem setNonZeros_inside {h w : Nat} {tt : TransformType} {y x v : Int} {m m' : List (List Int)} (hm : Table h w m) (hh : 0 < tt.dctHeight) (hww : 0 < tt.dctWidth)
    (he : setNonZeros tt y x v m = .ok m') : 0 ≤ y ∧ 0 ≤ x ∧ y + tt.dctHeight ≤ h ∧ x + tt.dctWidth ≤ w := by
  unfold setNonZeros at he
  have inner : ∀ (iy : Nat) (m m' : List (List Int)), Table h w m → forFrom (fun ix nz => set2 nz (y + iy) (x + ix) v) tt.dctWidth.toNat 0 m = .ok m' →
      Table h w m' ∧ 0 ≤ y + iy ∧ y + iy < h ∧ 0 ≤ x ∧ x + tt.dctWidth ≤ w := by
    intro iy m m' hm he
    have := forFrom_of_ok (fun k m => Table h w m ∧ (0 < k → 0 ≤ y + iy ∧ y + iy < h ∧ 0 ≤ x ∧ x + k ≤ w)) _ _ _ _ he ⟨hm, by omega⟩ (by
      rintro k a b _ _ ⟨ha, hk⟩ hs
      have h0 : 0 ≤ y + iy ∧ 0 ≤ x + (k : Int) := by
        have hs' := hs
        unfold set2 at hs'
        obtain ⟨r, e1, hs'⟩ := Res.of_bind hs'
        obtain ⟨r', e2, hs'⟩ := Res.of_bind hs'
        exact ⟨setAt_inv hs', setAt_inv e2⟩
      obtain ⟨p, hp⟩ := Int.eq_ofNat_of_zero_le h0.1
      obtain ⟨q, hq⟩ := Int.eq_ofNat_of_zero_le h0.2
      rw [hp, hq] at hs
      obtain ⟨g1, g2, g3, _⟩ := set2_inv ha hs
      refine ⟨g3, fun _ => ?_⟩
      by_cases hk0 : 0 < k
      · have := hk hk0
        omega
      · omega)
    obtain ⟨g1, g2⟩ := this
    have := g2 (by omega)
    exact ⟨g1, by omega, by omega, by omega, by omega⟩
  have := forFrom_of_ok (fun k m => Table h w m ∧ (0 < k → 0 ≤ y ∧ y + k ≤ h ∧ 0 ≤ x ∧ x + tt.dctWidth ≤ w)) _ _ _ _ he ⟨hm, by omega⟩ (by
    rintro k a b _ _ ⟨ha, hk⟩ hs
    obtain ⟨g1, g2⟩ := inner k a b ha hs
    refine ⟨g1, fun _ => ?_⟩
    by_cases hk0 : 0 < k
    · have := hk hk0
      omega
    · omega)
  obtain ⟨g1, g2⟩ := this
  have := g2 (by omega)
  omega

/-- **C30**, and the end of `C29_crosses_groups`: a block is decoded only if it lies inside its group; the number of coefficients of any other block makes the decoder crash
(or is the end of the stream), whatever it is. -/
theorem C30_inside {hf : HFBlockContext} {offset : Int} {shift : Nat} {order : List Point} {b : HFBlock} {c sy sx : Int} {st : σ} {p : HFPlane} {s s' : BR} {r : σ × HFPlane}
    (htt : b.tt ∈ allDCT) (hp : Table 32 32 p.nonZeros) (h : readBlockPlane read hf offset shift order b c sy sx st p s = (.ok r, s')) :
    0 ≤ sy ∧ 0 ≤ sx ∧ sy + b.tt.dctHeight ≤ 32 ∧ sx + b.tt.dctWidth ≤ 32 := by
  obtain ⟨_, _, h1, h2, h3, h4, _⟩ := type_dims b.tt htt
  unfold readBlockPlane at h
  obtain ⟨_, _, h⟩ := Rd.of_lift_bind h
  obtain ⟨_, _, h⟩ := Rd.of_lift_bind h
  obtain ⟨a, s2, e2, h⟩ := Rd.of_bind h
  obtain ⟨nz, e3, h⟩ := Rd.of_lift_bind h
  exact setNonZeros_inside hp (by omega) (by omega) e3

/-- **C30**, false of the code: a number that is larger than the number of coefficients is not reported, it makes the decoder crash. -/
theorem C30_large_number {hf : HFBlockContext} {offset : Int} {shift : Nat} {order : List Point} {b : HFBlock} {c sy sx predicted blockCtx num : Int} {st st' : σ} {p : HFPlane} {s s1 : BR}
    {nz : List (List Int)} (htt : b.tt ∈ allDCT) (hlen : (order.length : Int) = 64 * (b.tt.dctHeight * b.tt.dctWidth))
    (h1 : getPredictedNonZeros p.nonZeros sy sx = .ok predicted) (h2 : getBlockContext hf c b.tt.orderID b.hfMult b.lfIndex = .ok blockCtx)
    (h3 : read st (i32 (offset + getNonZeroContext hf predicted blockCtx)) s = (.ok (num, st'), s1)) (hnum : 63 * (b.tt.dctHeight * b.tt.dctWidth) < num) (hmax : num < 2147482624)
    (h4 : setNonZeros b.tt sy sx (Int.tdiv (i32 (num + b.tt.dctHeight * b.tt.dctWidth - 1)) (b.tt.dctHeight * b.tt.dctWidth)) p.nonZeros = .ok nz) :
    (readBlockPlane read hf offset shift order b c sy sx st p s).1 = .panic := by
  obtain ⟨B, hB, hB0, hB1⟩ := type_blocks htt
  unfold readBlockPlane
  rw [hB] at hlen hnum h4 ⊢
  have hl : ((order.length : Int) - (B : Int)).toNat = (63 * B - 1) + 1 := by omega
  have hctx : ∀ prev, getCoefficientContext (0 + (B : Int)) num B prev = .panic := by
    intro prev
    unfold getCoefficientContext
    rw [i32_in (by omega) (by omega), Int.tdiv_eq_ediv_of_nonneg (by omega)]
    have : 64 ≤ (num + (B : Int) - 1) / (B : Int) := by
      rw [Int.le_ediv_iff_mul_le (by omega)]
      omega
    have e : idx coeffNumNonzeroCtx ((num + (B : Int) - 1) / (B : Int)) = .panic := by
      unfold idx
      rw [if_neg (by omega), List.getElem?_eq_none]
      show 64 ≤ _
      omega
    rw [e]
    rfl
  simp only [Bind.bind, Rd.bind, Rd.lift, h1, h2, h3, h4]
  rw [if_neg (by omega), hl]
  unfold coeffLoop
  simp only [Bind.bind, Rd.bind, Rd.lift, hctx]

/-- A source of given symbols. -/
def script (st : List Int) (_ : Int) : Rd (Int × List Int) :=
  match st with
  | v :: vs => pure (v, vs)
  | [] => Rd.fail

/-- The contexts and symbols noted by a run. -/
def noted {σ α : Type} (r : Res ((σ × List (Int × Int)) × α) × BR) : Option (List (Int × Int)) :=
  match r.1 with
  | .ok v => some v.1.2
  | _ => none

/-- **C30**, false of the code: numbers are not checked to be at least 0. After a number of -100 in the first block, the number of the next one is read in context -1500, which belongs to
another preset, or to none. -/
theorem C30_negative_number : noted (readBlocks (traced script) HFBlockContext.dflt 0 0 [0, 0, 0] [0, 0, 0] (List.replicate 13 (List.replicate 3 []))
    [⟨0, 0, ⟨0, 0, 0, 0, 8, 8⟩, 1, 0⟩, ⟨0, 1, ⟨0, 0, 0, 0, 8, 8⟩, 1, 0⟩] (([-100, 0, 0, 0, 0, 0], []), emptyPlanes 8 16 [0, 0, 0] [0, 0, 0]) (BR.new [])) =
    some [(300, -100), (307, 0), (307, 0), (-1500, 0), (7, 0), (7, 0)] := by
  decide +kernel

/-! ## Examples -/

/-- The order of the plain 8×8 transform. -/
def zigzagOrder : List Point := [⟨0, 0⟩, ⟨0, 1⟩, ⟨1, 0⟩, ⟨2, 0⟩, ⟨1, 1⟩, ⟨0, 2⟩, ⟨0, 3⟩, ⟨1, 2⟩, ⟨2, 1⟩, ⟨3, 0⟩, ⟨4, 0⟩, ⟨3, 1⟩, ⟨2, 2⟩, ⟨1, 3⟩, ⟨0, 4⟩, ⟨0, 5⟩, ⟨1, 4⟩, ⟨2, 3⟩, ⟨3, 2⟩, ⟨4, 1⟩, ⟨5, 0⟩, ⟨6, 0⟩, ⟨5, 1⟩, ⟨4, 2⟩, ⟨3, 3⟩, ⟨2, 4⟩, ⟨1, 5⟩, ⟨0, 6⟩, ⟨0, 7⟩, ⟨1, 6⟩, ⟨2, 5⟩, ⟨3, 4⟩, ⟨4, 3⟩, ⟨5, 2⟩, ⟨6, 1⟩, ⟨7, 0⟩, ⟨7, 1⟩, ⟨6, 2⟩, ⟨5, 3⟩, ⟨4, 4⟩, ⟨3, 5⟩, ⟨2, 6⟩, ⟨1, 7⟩, ⟨2, 7⟩, ⟨3, 6⟩, ⟨4, 5⟩, ⟨5, 4⟩, ⟨6, 3⟩, ⟨7, 2⟩, ⟨7, 3⟩, ⟨6, 4⟩, ⟨5, 5⟩, ⟨4, 6⟩, ⟨3, 7⟩, ⟨4, 7⟩, ⟨5, 6⟩, ⟨6, 5⟩, ⟨7, 4⟩, ⟨7, 5⟩, ⟨6, 6⟩, ⟨5, 7⟩, ⟨6, 7⟩, ⟨7, 6⟩, ⟨7, 7⟩]

theorem dct8_order : naturalOrder ⟨0, 0, 0, 0, 8, 8⟩ = zigzagOrder :=
  (naturalOrder_unique _ ⟨by decide, by decide⟩ _ (by decide +kernel) (by decide +kernel)).symm

/-- A table with one block context. -/
def oneContext : HFBlockContext := ⟨[[], [], []], List.replicate 39 0, 1, [], 1⟩

theorem oneContext_wellFormed : oneContext.WellFormed := ⟨by decide, by decide, by decide, by decide, by decide⟩

/-- A pass that is read. -/
def passOk (r : Res HFPass × BR) : Bool :=
  match r.1 with
  | .ok p => p.usedOrders == 0
  | _ => false

theorem example_pass : ∃ pass s', readHFPass 1 1 (BR.new [202, 7]) = (.ok pass, s') ∧ ∃ os, idx pass.order 0 = .ok os ∧ idx os 1 = .ok zigzagOrder := by
  have h : passOk (readHFPass 1 1 (BR.new [202, 7])) = true := by decide +kernel
  rcases e : readHFPass 1 1 (BR.new [202, 7]) with ⟨pass | _ | _, s'⟩ <;> rw [e] at h <;> try cases h
  have hu : pass.usedOrders = 0 := by simpa [passOk] using h
  obtain ⟨_, h2⟩ := readHFPass_orders 1 1 _ _ _ e
  obtain ⟨os, tt, H, W, q1, q2, q3, q4, q5, q6⟩ := h2 0 (by omega)
  have htt : tt = ⟨0, 0, 0, 0, 8, 8⟩ := by
    have : filterByOrderID ((0 : Nat) : Int) = .ok ⟨0, 0, 0, 0, 8, 8⟩ := by decide
    rw [this] at q2
    cases q2
    rfl
  have hlt : 1 < os.length := by omega
  have ho := (q6 os[1] (List.getElem_mem hlt)).2 (by rw [hu]; rfl)
  rw [htt, dct8_order] at ho
  refine ⟨pass, s', rfl, os, ?_, ?_⟩
  · unfold idx
    rw [if_neg (by omega)]
    rw [show (0 : Int).toNat = 0 from rfl, q1]
  · unfold idx
    rw [if_neg (by omega)]
    rw [show (1 : Int).toNat = 1 from rfl, List.getElem?_eq_getElem hlt, ho]

/-- The result of reading a block, without the coefficients that are 0. -/
def summary (r : Res ((List Int × List (Int × Int)) × HFPlane) × BR) : Option (List (Int × Int) × Int × Int × Int) :=
  match r.1 with
  | .ok v => some (v.1.2, (cell v.2.coeffs 1 0).getD 99, (cell v.2.coeffs 0 1).getD 99, (cell v.2.coeffs 0 2).getD 99)
  | _ => none

/-- The hypotheses of `C31_written` and `C30_contexts_partial` are met: two coefficients, 2 and -3, the second one after a coefficient that is 0. Places are transposed. -/
example : summary (readBlockPlane (traced script) oneContext 0 0 zigzagOrder ⟨0, 0, ⟨0, 0, 0, 0, 8, 8⟩, 1, 0⟩ 1 0 0 ([2, 4, 0, 5, 77], [])
    ⟨List.replicate 32 (List.replicate 32 0), List.replicate 8 (List.replicate 8 0)⟩ (BR.new [])) = some ([(20, 2), (100, 4), (40, 0), (41, 5)], 2, 0, -3) := by
  decide +kernel

/-- What the number of coefficients of a block is predicted from: 32 for the first block, then the numbers above and to the left. `n y x` is the number noted for the place in
row `y` and column `x`. -/
def predictedNumber (n : Nat → Nat → Int) : Nat → Nat → Int
  | 0, 0 => 32
  | y + 1, 0 => n y 0
  | 0, x + 1 => n 0 x
  | y + 1, x + 1 => (n y (x + 1) + n (y + 1) x + 1) / 2

/-- C30: the prediction of the number of coefficients of a block. -/
theorem C30_prediction {h w : Nat} {nz : List (List Int)} (t : Table h w nz) {n : Nat → Nat → Int} (hn : ∀ y x, y < h → x < w → sample nz y x = some (n y x))
    (hr : ∀ y x, y < h → x < w → 0 ≤ n y x ∧ n y x < 2 ^ 30) {y x : Nat} (hy : y < h) (hx : x < w) :
    getPredictedNonZeros nz (y : Int) (x : Int) = .ok (predictedNumber n y x) := by
  unfold getPredictedNonZeros
  rcases y with _ | y <;> rcases x with _ | x
  · rfl
  · rw [if_neg (by omega), if_neg (by omega), if_pos (by rfl), show (((x + 1 : Nat) : Int) - 1) = (x : Int) by omega]
    exact at2_sample (y := 0) (hn 0 x hy (by omega))
  · rw [if_neg (by omega), if_pos (by rfl), show (((y + 1 : Nat) : Int) - 1) = (y : Int) by omega]
    exact at2_sample (x := 0) (hn y 0 (by omega) hx)
  · rw [if_neg (by omega), if_neg (by omega), if_neg (by omega), show (((x + 1 : Nat) : Int) - 1) = (x : Int) by omega,
      show (((y + 1 : Nat) : Int) - 1) = (y : Int) by omega, at2_sample (hn y (x + 1) (by omega) hx), at2_sample (hn (y + 1) x hy (by omega))]
    have h1 := hr y (x + 1) (by omega) hx
    have h2 := hr (y + 1) x hy (by omega)
    show Res.ok (i32 (n y (x + 1) + n (y + 1) x + 1) / 2) = _
    rw [i32_in (by omega) (by omega)]
    rfl

/-- 3 above, 8 to the left: 6 is predicted. -/
example : getPredictedNonZeros [[1, 3], [8, 0]] 1 1 = .ok 6 := C30_prediction (h := 2) (w := 2) (n := fun y x => if y = 0 then (if x = 0 then 1 else 3) else if x = 0 then 8 else 0)
  ⟨rfl, by decide⟩ (by intro y x hy hx; rcases y with _ | _ | y <;> rcases x with _ | _ | x <;> first | rfl | omega)
  (by intro y x _ _; split <;> split <;> omega) (y := 1) (x := 1) (by decide) (by decide)

end Jxl
