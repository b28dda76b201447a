import Verif.Proofs.WP
import Verif.Proofs.Cluster
import Verif.Props.Modular

/-! # C21: the weighted predictor stays inside its tables -/
namespace Jxl

/-- **C21**: whatever the stream, the parameters that are read are five-bit numbers and the four weights four-bit numbers. -/
theorem C21_params (s s' : BR) (p : WPParams) (h : readWPParams s = (.ok p, s')) : p.OK := by
  have bits : ∀ n : Nat, OnOk (readBits n) (fun v => v < 2 ^ n) := fun n => (safe_bits n).onOk
  have main : OnOk readWPParams WPParams.OK := by
    unfold readWPParams
    refine OnOk.bind (OnOk.trivial _) (fun d _ => ?_)
    cases d with
    | true =>
      rw [if_pos rfl]
      exact OnOk.pure ⟨by decide, by decide, by decide, by decide, by decide, by decide, by decide, by decide, by decide⟩
    | false =>
      rw [if_neg (by decide)]
      refine OnOk.bind (bits 5) (fun a1 h1 => OnOk.bind (bits 5) (fun a2 h2 => OnOk.bind (bits 5) (fun a3 h3 => OnOk.bind (bits 5) (fun a4 h4 =>
        OnOk.bind (bits 5) (fun a5 h5 => OnOk.bind (bits 5) (fun a6 h6 => OnOk.bind (bits 5) (fun a7 h7 => OnOk.bind (bits 4) (fun w0 g0 =>
        OnOk.bind (bits 4) (fun w1 g1 => OnOk.bind (bits 4) (fun w2 g2 => OnOk.bind (bits 4) (fun w3 g3 => OnOk.pure ?_)))))))))))
      refine ⟨?_, ?_, ?_, ?_, ?_, ?_, ?_, rfl, ?_⟩
      iterate 7 (dsimp only; omega)
      intro v hv
      simp only [List.mem_cons, List.not_mem_nil, or_false] at hv
      rcases hv with rfl | rfl | rfl | rfl <;> omega
  exact main s p s' h

/-- **C21**, one weight: for every error sum that is not negative the table access is in range, the weight is positive
and as the format defines it; for every negative one the program crashes. -/
theorem C21_weight (mw e : Int) (hm : 0 ≤ mw) (hm' : mw ≤ 15) (he : e < 2 ^ 31) :
    (0 ≤ e → errorWeight mw e = .ok (wpWeight mw e) ∧ 4 ≤ wpWeight mw e) ∧ (e < 0 → errorWeight mw e = .panic) :=
  ⟨fun h0 => ⟨errorWeight_eq hm hm' h0 he, (wpWeight_bounds hm h0).1⟩, errorWeight_neg⟩

/-- **C21**: with recorded errors between 0 and 2^28, every sample has a weighted prediction: no table is left and nothing
crashes, whatever the samples, the true errors (any 32-bit values), the parameters and the position. -/
theorem C21_predict (h w x y : Nat) (hx : x < w) (hy : y < h) (p : WPPlanes) (hs : p.Shape h w) (hf : p.Fine) (b : List (List Int))
    (hb : b.length = h) (hb' : ∀ r ∈ b, r.length = w) (wp : WPParams) (hwp : wp.OK) :
    ∃ r, prePredictWP (w : Int) wp b p (x : Int) (y : Int) = .ok r ∧ r.sub.length = 4 :=
  ⟨_, prePredictWP_eq hs hf hx hy (Agree.self hb hb' y x) hwp.count hwp.weights, rfl⟩

/-- **C21**, what is computed: for samples up to 2^19 and true errors up to 2^23 in magnitude, nothing overflows and the
result is the weighted prediction of the format, with its sub-predictions and its largest error. -/
theorem C21_matches (h w x y : Nat) (hx : x < w) (hy : y < h) (p : WPPlanes) (hs : p.Shape h w) (hf : p.Fine) (b : List (List Int))
    (hb : b.length = h) (hb' : ∀ r ∈ b, r.length = w) (wp : WPParams) (hwp : wp.OK)
    (hsmall : (Img.ofRows b).Within (2 ^ 19)) (ht : (p.plane 4).Within (2 ^ 23)) :
    ∃ m, prePredictWP (w : Int) wp b p (x : Int) (y : Int) =
        .ok ⟨(Img.ofRows b).wpSubs (p.plane 4) wp w x y, (Img.ofRows b).wpPredict (p.plane 4) p.plane wp w x y, m⟩ ∧
      (p.plane 4).IsMaxError w x y m := by
  have hi : (Img.ofRows b).Within 524288 := hsmall
  have ht' : (p.plane 4).Within 8388608 := ht
  have tN := eN_between (by decide) (by decide) ht' x y
  have tW := eW_between (by decide) (by decide) ht' x y
  have tNW := eNW_between (by decide) (by decide) ht' x y
  have tNE := eNE_between (by decide) (by decide) ht' w x y
  have hN := Within.N (by decide) hi x y
  have hW := Within.W (by decide) hi x y
  have hNE := Within.NE (by decide) hi w x y
  have hmain := prePredictWP_eq hs hf hx hy (Agree.self hb hb' y x) hwp.count hwp.weights
  obtain ⟨s1, s2⟩ := subPredictions_eq hi ht' hwp w x y
  obtain ⟨-, a, b', c, d, e, ea, eb, ec, ed⟩ := Shape.errorWeights hs hf hx hy hwp.count hwp.weights
  dsimp only at hmain
  have hr := avg_range ((Img.ofRows b).wpSubs (p.plane 4) wp w x y) (Img.weightsOf p.plane wp.weight w x y)
  have hclamp := clamp4Int_eq hr (a := 8 * (Img.ofRows b).W x y) (b := 8 * (Img.ofRows b).N x y) (c := 8 * (Img.ofRows b).NE w x y)
    (by omega) (by omega) (by omega)
  have havg := wrappedAverage_eq (sub := (Img.ofRows b).wpSubs (p.plane 4) wp w x y) rfl s2 e ea eb ec ed
  rw [s1, sample_mul8 hN, sample_mul8 hW, sample_mul8 hNE, hclamp, havg,
    errorSignsDiffer_eq (by omega) (by omega) (by omega)] at hmain
  refine ⟨_, ?_, maxErrorOf_spec (a := (p.plane 4).eW x y) (b := (p.plane 4).eN x y) (c := (p.plane 4).eNW x y) (d := (p.plane 4).eNE w x y)
    (by omega) (by omega) (by omega) (by omega)⟩
  rw [hmain]
  unfold Img.wpPredict
  dsimp only
  change Res.ok (WPResult.mk _ (if (!sameSense _ _ _) = true then _ else _) _) = Res.ok (WPResult.mk _ (if sameSense _ _ _ = true then wpAverage _ (Img.weightsOf p.plane wp.weight w x y) else _) _)
  cases sameSense ((p.plane 4).eN x y) ((p.plane 4).eW x y) ((p.plane 4).eNW x y) <;> rfl

/-- **C21**: the planes a channel starts with are in order. -/
theorem C21_init (h w : Nat) : (initPlanes true h w).Shape h w ∧ (initPlanes true h w).Fine ∧ ((initPlanes true h w).plane 4).Within 0 := by
  have hz : ∀ k y x, (initPlanes true h w).plane k y x = 0 := by
    intro k y x
    unfold WPPlanes.plane initPlanes Img.ofRows
    simp only [if_true, List.getD_eq_getElem?_getD, List.getElem?_replicate]
    split <;> simp only [Option.getD_some, Option.getD_none, List.getElem?_replicate, List.getElem?_nil]
    split <;> simp only [Option.getD_some, Option.getD_none, List.getElem?_replicate, List.getElem?_nil]
    split <;> rfl
  refine ⟨⟨by simp [initPlanes], ?_, ?_⟩, ?_, ?_⟩
  · intro pl hpl
    unfold initPlanes at hpl
    rw [if_pos rfl] at hpl
    have := List.eq_of_mem_replicate hpl
    subst this
    exact ⟨List.length_replicate, fun r hr => by rw [List.eq_of_mem_replicate hr]; exact List.length_replicate⟩
  · unfold initPlanes
    rw [if_pos rfl]
    exact ⟨List.length_replicate, fun r hr => by rw [List.eq_of_mem_replicate hr]; exact List.length_replicate⟩
  · intro k _ y x; rw [hz]; decide
  · intro y x; rw [hz]; decide

/-- **C21**, from sample to sample: once the value `v` of the sample is known, its errors are recorded as the format
says and the planes stay in order, so that every later sample has its prediction too.
Partial: this needs that `8 v` is less than `2^31 - 3` away from each sub-prediction; `C21_violated` shows that samples
exist that break it and crash the decoder. -/
theorem C21_step_partial (env : ChanEnv) (hu : env.useWP = true) (b : List (List Int)) (x y : Nat) (hx : x < env.chan.width)
    (hy : y < env.chan.height) (hb : b.length = env.chan.height) (hb' : ∀ r ∈ b, r.length = env.chan.width) (hwp : env.wp.OK)
    (p : WPPlanes) (hs : p.Shape env.chan.height env.chan.width) (hf : p.Fine) :
    ∃ r p1, wpStep env b p x y = .ok (r, p1) ∧ ∀ v, (∀ s ∈ r.sub, (s - 8 * v).natAbs < 2 ^ 31 - 3) →
      ∃ p2, wpUpdate env r v p1 x y = .ok p2 ∧ p2.Shape env.chan.height env.chan.width ∧ p2.Fine ∧
        (∀ k < 4, p2.plane k y x = wpErr (r.sub.getD k 0) v) ∧
        ((r.pred - 8 * v).natAbs < 2 ^ 31 → p2.plane 4 y x = r.pred - 8 * v) ∧
        ∀ k j l, (j ≠ y ∨ l ≠ x) → p2.plane k j l = p.plane k j l := by
  obtain ⟨r, hr, hl⟩ := C21_predict _ _ x y hx hy p hs hf b hb hb' env.wp hwp
  obtain ⟨pred', e1, e2, e3, -⟩ := set2_ok hs.pred.1 hs.pred.2 hy hx r.pred
  have hs1 : WPPlanes.Shape ⟨p.err, pred'⟩ env.chan.height env.chan.width := ⟨hs.count, hs.rows, e2, e3⟩
  refine ⟨r, ⟨p.err, pred'⟩, ?_, ?_⟩
  · unfold wpStep
    rw [if_pos hu, hr, Res.bind_ok, e1, Res.bind_ok]
  · intro v hv
    obtain ⟨p2, u1, u2, u3, u4⟩ := wpUpdate_ok hu hs1 hx hy hl v
    have hget : ∀ k < 4, r.sub.getD k 0 ∈ r.sub := by
      intro k hk
      rw [List.getD_eq_getElem?_getD, List.getElem?_eq_getElem (by omega)]
      exact List.getElem_mem _
    refine ⟨p2, u1, u2, ?_, ?_, ?_, ?_⟩
    · intro k hk j l
      rw [u4]
      by_cases hjl : j = y ∧ l = x
      · rw [if_pos ⟨hk, hjl⟩]
        obtain ⟨g1, g2, g3⟩ := storedErr_eq (hv _ (hget k hk))
        rw [g1]; exact ⟨g2, g3⟩
      · rw [if_neg (fun h => hjl h.2), if_neg (by omega)]
        exact hf k hk j l
    · intro k hk
      rw [u4, if_pos ⟨hk, rfl, rfl⟩, (storedErr_eq (hv _ (hget k hk))).1]
    · intro hd
      rw [u4, if_neg (by omega), if_pos (by simp)]
      unfold i32
      omega
    · intro k j l hjl
      rw [u4, if_neg (by omega), if_neg (by omega)]
      rfl

/-- A decoder that yields the number 2 for ever without reading anything. -/
def twosES : ES :=
  { clusterMap := [0], dists := [.pre (.single 2) ⟨4, 0, 0⟩], usesLZ77 := false, lzLengthConfig := ⟨4, 0, 0⟩, minSymbol := 0, minLength := 0
    state := none, window := fun _ => 0, numToCopy := 0, copyPos := 0, numDecoded := 0 }

/-- The run ends in a crash. -/
def Res.crashed {α : Type} : Res α → Bool
  | .panic => true
  | _ => false

/-- The negation of **C21**: two samples of value 2^28, coded with the weighted predictor. The error of the first one,
2^31, has no absolute value in 32 bits; recorded as a negative number it is a negative table index at the second. -/
theorem C21_violated : (decodeChannel ⟨2, 1, 0, 0, false, []⟩ [] defaultWP (.leaf ⟨0, 6, 0, 2 ^ 28⟩) 0 0 0 twosES (BR.new [])).1.crashed = true := by
  decide +kernel

/-- The hypotheses above are met half-way through an image with errors on record. -/
def examplePlanes : WPPlanes := ⟨[[[3, 0], [0, 0]], [[4, 0], [0, 0]], [[0, 1], [2, 0]], [[1, 0], [0, 0]], [[-30, 12], [7, 0]]], [[8, 0], [0, 0]]⟩

theorem defaultWP_ok : defaultWP.OK := ⟨by decide, by decide, by decide, by decide, by decide, by decide, by decide, by decide, by decide⟩

theorem exampleP : examplePlanes.Shape 2 2 ∧ examplePlanes.Fine ∧ (Img.ofRows [[5, -7], [9, 0]]).Within (2 ^ 19) ∧ (examplePlanes.plane 4).Within (2 ^ 23) := by
  have tab : ∀ (l : List (List Int)) (m n : Int), m ≤ 0 → 0 ≤ n → (∀ r ∈ l, ∀ v ∈ r, m ≤ v ∧ v ≤ n) → ∀ y x, m ≤ Img.ofRows l y x ∧ Img.ofRows l y x ≤ n := by
    intro l m n hm hn hl y x
    unfold Img.ofRows
    simp only [List.getD_eq_getElem?_getD]
    cases hr : l[y]? with
    | none => simp; exact ⟨hm, hn⟩
    | some r =>
      simp only [Option.getD_some]
      cases hv : r[x]? with
      | none => simp; exact ⟨hm, hn⟩
      | some v => exact hl r (List.mem_of_getElem? hr) v (List.mem_of_getElem? hv)
  refine ⟨⟨by decide, by decide, by decide⟩, ?_, tab _ _ _ (by decide) (by decide) (by decide), tab _ _ _ (by decide) (by decide) (by decide)⟩
  intro k hk
  unfold WPPlanes.plane examplePlanes
  match k, hk with
  | 0, _ => exact tab _ _ _ (by decide) (by decide) (by decide)
  | 1, _ => exact tab _ _ _ (by decide) (by decide) (by decide)
  | 2, _ => exact tab _ _ _ (by decide) (by decide) (by decide)
  | 3, _ => exact tab _ _ _ (by decide) (by decide) (by decide)

example : (Img.ofRows [[5, -7], [9, 0]]).wpPredict (examplePlanes.plane 4) examplePlanes.plane defaultWP 2 1 1 = -11 ∧
    (Img.ofRows [[5, -7], [9, 0]]).wpSubs (examplePlanes.plane 4) defaultWP 2 1 1 = [72, -71, 76, -54] := by decide +kernel

end Jxl
