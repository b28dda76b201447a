import Verif.Spec.VarDCTFrame
import Verif.Proofs.ModularGroups
import Verif.Props.LFCoefficients
import Verif.Props.HFWeights

/-!
# Proofs: the streams and the global section of VarDCT frames
-/
namespace Jxl
open Spec

/-- The action reads the bits from `p` to `q`, and what it reads satisfies `G`. -/
def Runs {α : Type} (m : Rd α) (data : List UInt8) (p q : Nat) (G : α → Prop) : Prop :=
  ∀ s, AtBit s p → s.data = data → ∃ v s', m s = (.ok v, s') ∧ AtBit s' q ∧ s'.data = data ∧ G v

theorem Runs.bind {α β : Type} {m : Rd α} {k : α → Rd β} {data : List UInt8} {p q r : Nat} {G : α → Prop} {H : β → Prop} (h1 : Runs m data p q G)
    (h2 : ∀ v, G v → Runs (k v) data q r H) : Runs (m >>= k) data p r H := by
  intro s hs hd
  obtain ⟨v, s1, e1, a1, d1, g1⟩ := h1 s hs hd
  obtain ⟨w, s2, e2, a2, d2, g2⟩ := h2 v g1 s1 a1 d1
  exact ⟨w, s2, by rw [Rd.bind_ok e1, e2], a2, d2, g2⟩

theorem Runs.pure {α : Type} {data : List UInt8} {p : Nat} {G : α → Prop} {v : α} (h : G v) : Runs (Pure.pure v) data p p G :=
  fun s hs hd => ⟨v, s, rfl, hs, hd, h⟩

theorem Runs.lift {α : Type} {data : List UInt8} {p : Nat} {r : Res α} {v : α} (h : r = .ok v) : Runs (Rd.lift r) data p p (· = v) :=
  fun s hs hd => ⟨v, s, lift_ok h s, hs, hd, rfl⟩

theorem Runs.lift' {α : Type} {data : List UInt8} {p : Nat} {r : Res α} {G : α → Prop} (h : ∃ v, r = .ok v ∧ G v) : Runs (Rd.lift r) data p p G := by
  obtain ⟨v, e, g⟩ := h
  exact fun s hs hd => ⟨v, s, lift_ok e s, hs, hd, g⟩

theorem Runs.dec {α : Type} {m : Rd α} {d : Dec α} (h : Follows m d) {data : List UInt8} {p q : Nat} {a : α} (hd : DecAt d data p q a) : Runs m data p q (· = a) := by
  intro s hs hdata
  obtain ⟨s', e1, e2, e3⟩ := h.at hd hs hdata
  exact ⟨a, s', e1, e2, e3, rfl⟩

theorem Runs.mono {α : Type} {m : Rd α} {data : List UInt8} {p q : Nat} {G H : α → Prop} (h : Runs m data p q G) (hG : ∀ v, G v → H v) : Runs m data p q H := by
  intro s hs hdata
  obtain ⟨v, s', e1, e2, e3, e4⟩ := h s hs hdata
  exact ⟨v, s', e1, e2, e3, hG v e4⟩

theorem Runs.bind_eq {α β : Type} {m : Rd α} {k : α → Rd β} {data : List UInt8} {p q r : Nat} {a : α} {H : β → Prop} (h1 : Runs m data p q (· = a))
    (h2 : Runs (k a) data q r H) : Runs (m >>= k) data p r H :=
  h1.bind (fun v hv => by subst hv; exact h2)

/-- A stream of channels is decoded to them. -/
theorem channels_read {bitDepth : Nat} {global : GlobalTree} (hg : GoodTree global) {index : Nat} {data : List UInt8} {p q : Nat} {hd : ModHeader} {chs enc : List MChan}
    {m : Nat} (hne : chs ≠ []) (h : StreamAt bitDepth global index data p q hd chs m enc enc.length) :
    Runs (readChannels bitDepth global index (chs.map MChan.blank)) data p q (· = chs.map fun c => c.buffer) := by
  intro s hs hdata
  obtain ⟨s1, s2, s3, t, es, es', R, l, h1, h2, h3, h4, h5, h6, h7, h8, h9⟩ := stream_read hg h hs hdata
  rw [List.take_of_length_le (Nat.le_refl _)] at h4 h6
  obtain ⟨res, r1, r2⟩ := h9 R h6
  refine ⟨_, s3, ?_, h7, h8, rfl⟩
  obtain ⟨c, cs, hc⟩ : ∃ c cs, chs.map MChan.blank = c :: cs := by
    cases chs with
    | nil => exact absurd rfl hne
    | cons c cs => exact ⟨_, _, rfl⟩
  rw [hc] at h3 ⊢
  unfold readChannels
  dsimp only
  rw [Rd.bind_ok h1, Rd.bind_ok (lift_ok h3 s1), Rd.bind_ok h2]
  dsimp only
  have key : decodeModular bitDepth hd.transforms (c :: cs) hd.wp t (index : Int) es s2 = (.ok (res, es'), s3) := by
    unfold decodeModular
    rw [Rd.bind_ok (lift_ok h3 s2)]
    dsimp only
    rw [maxWidth_blank, Rd.bind_ok h4, if_pos h5, Rd.bind_ok (lift_ok r1 s3)]
    rfl
  rw [Rd.bind_ok key]
  have hb : (res.map fun c => c.buffer) = chs.map fun c => c.buffer := by
    have := congrArg (List.map Chan.buffer) r2
    rw [List.map_map, List.map_map] at this
    exact this
  dsimp only
  rw [hb]
  rfl

/-! ## Block contexts -/

theorem unpack_signed (t : Nat) (ht : t < 2 ^ 31) : unpackSigned t = signed t := by
  unfold unpackSigned signed
  by_cases h : t % 2 = 0
  · rw [if_pos h, if_pos h]
    simp only [i32]
    omega
  · rw [if_neg h, if_neg h]
    simp only [i32]
    omega

theorem Dec.bind_assoc {α β γ : Type} (d : Dec α) (f : α → Dec β) (g : β → Dec γ) : (d >>= f) >>= g = d >>= fun a => f a >>= g := by
  funext l
  show (match (match d l with | some (a, r) => f a r | none => none) with | some (a, r) => g a r | none => none) = (match d l with | some (a, r) => (f a >>= g) r | none => none)
  cases d l with
  | none => rfl
  | some v => rfl

theorem Dec.pure_bind {α β : Type} (a : α) (f : α → Dec β) : (Pure.pure a : Dec α) >>= f = f a := rfl

theorem follows_thresholds : ∀ n, Follows (readThresholds n) (decList decThreshold n)
  | 0 => Follows.pure _
  | n + 1 => by
    unfold readThresholds decList
    rw [show decThreshold = (decU32 (fun k => match k with | 0 => (0, 4) | 1 => (16, 8) | 2 => (272, 16) | 3 => (65808, 32)) >>= fun t => decCheck (decide (t < 2 ^ 31)) t >>= fun t =>
      (Pure.pure (signed t) : Dec Int)) from rfl, Dec.bind_assoc]
    rw [← show decThreshold = (decU32 (fun k => match k with | 0 => (0, 4) | 1 => (16, 8) | 2 => (272, 16) | 3 => (65808, 32)) >>= fun t => decCheck (decide (t < 2 ^ 31)) t >>= fun t =>
      (Pure.pure (signed t) : Dec Int)) from rfl]
    refine Follows.congr (d := decU32 (fun k => match k with | 0 => (0, 4) | 1 => (16, 8) | 2 => (272, 16) | 3 => (65808, 32)) >>= fun t => decCheck (decide (t < 2 ^ 31)) t >>= fun t =>
      (do let l ← decList decThreshold n; Pure.pure (signed t :: l) : Dec (List Int))) ?_ ?_
    · refine Follows.bind (implements_u32 (fun k => match k with | 0 => (0, 4) | 1 => (16, 8) | 2 => (272, 16) | 3 => (65808, 32)) (by decide)).follows (fun t => ?_)
      refine Follows.check_left (fun ht => ?_)
      rw [decide_eq_true_eq] at ht
      rw [unpack_signed t ht]
      exact Follows.bind (follows_thresholds n) (fun l => Follows.pure _)
    · simp only [Dec.bind_assoc, Dec.pure_bind]

theorem follows_mulThresholds : ∀ n, Follows (readQFThresholds n) (decList decMulThreshold n)
  | 0 => Follows.pure _
  | n + 1 => by
    unfold readQFThresholds decList
    rw [show decMulThreshold = (decU32 (fun k => match k with | 0 => (0, 2) | 1 => (4, 3) | 2 => (12, 5) | 3 => (44, 8)) >>= fun t =>
      (Pure.pure ((t : Int) + 1) : Dec Int)) from rfl, Dec.bind_assoc]
    rw [← show decMulThreshold = (decU32 (fun k => match k with | 0 => (0, 2) | 1 => (4, 3) | 2 => (12, 5) | 3 => (44, 8)) >>= fun t =>
      (Pure.pure ((t : Int) + 1) : Dec Int)) from rfl]
    refine Follows.congr (d := decU32 (fun k => match k with | 0 => (0, 2) | 1 => (4, 3) | 2 => (12, 5) | 3 => (44, 8)) >>= fun t =>
      (do let l ← decList decMulThreshold n; Pure.pure (((t : Int) + 1) :: l) : Dec (List Int))) ?_ ?_
    · refine Follows.bind (implements_u32 (fun k => match k with | 0 => (0, 2) | 1 => (4, 3) | 2 => (12, 5) | 3 => (44, 8)) (by decide)).follows (fun t => ?_)
      exact Follows.bind (follows_mulThresholds n) (fun l => Follows.pure _)
    · simp only [Dec.bind_assoc, Dec.pure_bind]

theorem follows_lfThresholds : Follows (readLFThresholds 3) (do
    let tx ← decThresholds
    let ty ← decThresholds
    let tb ← decThresholds
    return [tx, ty, tb]) := by
  unfold readLFThresholds readLFThresholds readLFThresholds readLFThresholds decThresholds
  simp only [Dec.bind_assoc]
  refine Follows.bind (follows_bits 4 (by decide)) fun n0 => Follows.bind (follows_thresholds n0) fun tx => ?_
  have key : ∀ (d : Rd (List (List Int))) (e : Dec (List (List Int))), Follows d e → Follows (do let rest ← d; Pure.pure (tx :: rest)) (do let rest ← e; Pure.pure (tx :: rest)) :=
    fun d e h => Follows.bind h fun _ => Follows.pure _
  have key2 : ∀ (ty : List Int) (d : Rd (List (List Int))) (e : Dec (List (List Int))), Follows d e → Follows (do let rest ← d; Pure.pure (ty :: rest)) (do let rest ← e; Pure.pure (ty :: rest)) :=
    fun _ d e h => Follows.bind h fun _ => Follows.pure _
  refine Follows.congr (key _ (do
    let n ← decBits 4
    let ty ← decList decThreshold n
    let rest ← (do
      let n ← decBits 4
      let tb ← decList decThreshold n
      let rest ← (Pure.pure [] : Dec (List (List Int)))
      return tb :: rest)
    return ty :: rest) ?_) ?_
  · refine Follows.bind (follows_bits 4 (by decide)) fun n0 => Follows.bind (follows_thresholds n0) fun ty => key2 ty _ _ ?_
    refine Follows.bind (follows_bits 4 (by decide)) fun n0 => Follows.bind (follows_thresholds n0) fun tb => key2 tb _ _ (Follows.pure _)
  · simp only [Dec.bind_assoc, Dec.pure_bind]

theorem follows_fixed (w : Nat) (hw : w ≤ 64) : ∀ n, Follows (readFixed w n) (do let m ← decList (decBits w) n; return m.map Int.ofNat)
  | 0 => Follows.pure _
  | n + 1 => by
    unfold readFixed decList
    simp only [Dec.bind_assoc, Dec.pure_bind]
    refine Follows.bind (follows_bits w hw) fun v => ?_
    refine Follows.congr (Follows.bind (follows_fixed w hw n) fun vs => Follows.pure _) ?_
    simp only [Dec.bind_assoc, Dec.pure_bind]
    rfl

theorem decList_props {α : Type} {d : Dec α} {P : α → Prop} (h : ∀ l a r, d l = some (a, r) → P a) : ∀ n l m r, decList d n l = some (m, r) → m.length = n ∧ ∀ c ∈ m, P c
  | 0, l, m, r, e => by
    have e' : some (([] : List α), l) = some (m, r) := e
    simp only [Option.some.injEq, Prod.mk.injEq] at e'
    rw [← e'.1]
    exact ⟨rfl, fun c hc => absurd hc (by simp)⟩
  | n + 1, l, m, r, e => by
    unfold decList at e
    obtain ⟨a, l1, e1, e2⟩ := Dec.of_bind e
    obtain ⟨b, l2, e3, e4⟩ := Dec.of_bind e2
    have e' : some (a :: b, l2) = some (m, r) := e4
    simp only [Option.some.injEq, Prod.mk.injEq] at e'
    obtain ⟨k1, k2⟩ := decList_props h n _ _ _ e3
    rw [← e'.1]
    refine ⟨by rw [List.length_cons, k1], fun c hc => ?_⟩
    rcases List.mem_cons.mp hc with rfl | hc
    · exact h _ _ _ e1
    · exact k2 c hc

theorem countClusters_map (m : List Nat) (hm : m ≠ []) : countClusters (m.map Int.ofNat) = ((m.foldl max 0 : Nat) : Int) + 1 := by
  have hcount : ∀ (l : List Nat) (n : Nat), (l.map Int.ofNat).foldl (fun n c => if n ≤ c then c + 1 else n) ((n : Int) + 1) = ((l.foldl max n : Nat) : Int) + 1 := by
    intro l
    induction l with
    | nil => intro n; rfl
    | cons c l ih =>
      intro n
      simp only [List.map_cons, List.foldl_cons]
      have : (if ((n : Int) + 1) ≤ Int.ofNat c then Int.ofNat c + 1 else (n : Int) + 1) = ((max n c : Nat) : Int) + 1 := by
        show (if ((n : Int) + 1) ≤ (c : Int) then (c : Int) + 1 else (n : Int) + 1) = _
        split <;> omega
      rw [this, ih]
  match m, hm with
  | c :: l, _ =>
    unfold countClusters
    simp only [List.map_cons, List.foldl_cons]
    rw [if_pos (by show (0 : Int) ≤ (c : Int); omega)]
    show (l.map Int.ofNat).foldl _ ((c : Int) + 1) = _
    rw [hcount l c]
    simp

theorem foldl_max_lt {N : Nat} : ∀ (l : List Nat) (n : Nat), n < N → (∀ c ∈ l, c < N) → l.foldl max n < N
  | [], _, h, _ => h
  | c :: l, n, h, hl => foldl_max_lt l _ (by have := hl c (by simp); omega) (fun c hc => hl c (by simp [hc]))

theorem follows_clusterMap (n : Nat) (hn : 1 < n) : Follows (readClusterMap 2 n 16) (do
    let m ← decFixedMap n
    return (m.map Int.ofNat, ((m.foldl max 0 + 1 : Nat) : Int))) := by
  unfold readClusterMap decFixedMap
  rw [if_neg (by omega)]
  simp only [Dec.bind_assoc]
  refine Follows.bind implements_bool.follows fun simple => Follows.check_left fun hs => ?_
  rw [if_pos hs]
  refine Follows.bind' (fun v => v < 2 ^ 2) (follows_bits 2 (by decide)) (fun _ _ _ h => decBits_lt h) fun w hw => ?_
  have hmap := Follows.bind' (f := fun m => Rd.lift (checkClusters m 16)) (e := fun m : List Int => (Pure.pure (m, countClusters m) : Dec (List Int × Int)))
    (fun m => ∃ l : List Nat, m = l.map Int.ofNat ∧ l.length = n ∧ ∀ c ∈ l, c < 2 ^ w) (follows_fixed w (by omega) n) (fun l a r h => by
      obtain ⟨m, l1, e1, e2⟩ := Dec.of_bind h
      have e' : some (m.map Int.ofNat, l1) = some (a, r) := e2
      simp only [Option.some.injEq, Prod.mk.injEq] at e'
      exact ⟨m, e'.1.symm, decList_props (fun _ _ _ h => decBits_lt h) n _ _ _ e1⟩) (fun m hm => by
      obtain ⟨l, rfl, hl, hb⟩ := hm
      have hne : l ≠ [] := by intro h; rw [h] at hl; simp at hl; omega
      have h8 : l.foldl max 0 < 8 := foldl_max_lt l 0 (by decide) (fun c hc => Nat.lt_of_lt_of_le (hb c hc) (by
        have : (2:Nat) ^ w ≤ 2 ^ 3 := Nat.pow_le_pow_right (by decide) (by omega)
        omega))
      refine Follows.lift ?_
      unfold checkClusters
      rw [countClusters_map l hne, if_neg (by omega)])
  refine Follows.congr hmap ?_
  simp only [Dec.bind_assoc, Dec.pure_bind]
  funext l
  show Dec.bind _ _ l = Dec.bind _ _ l
  unfold Dec.bind
  cases h : decList (decBits w) n l with
  | none => rfl
  | some v =>
    obtain ⟨m, r⟩ := v
    have hl := (decList_props (P := fun _ => True) (fun _ _ _ _ => trivial) n _ _ _ h).1
    dsimp only
    rw [countClusters_map m (by intro h; rw [h] at hl; simp at hl; omega)]
    rfl

/-- The block contexts. -/
theorem follows_hfContext : Follows readHFBlockContext decHFContext := by
  unfold readHFBlockContext decHFContext
  refine Follows.bind implements_bool.follows fun d => ?_
  by_cases hd : d = true
  · rw [if_pos hd, if_pos hd]
    exact Follows.pure _
  rw [if_neg hd, if_neg hd]
  refine Follows.congr (Follows.bind' (e := fun lf : List (List Int) => (do
    let n ← decBits 4
    let qf ← decList decMulThreshold n
    let _ ← decCheck (decide (39 * (n + 1) * (intervals lf).toNat ≤ 39 * 64)) ()
    let m ← decFixedMap (39 * (n + 1) * (intervals lf).toNat)
    return ⟨lf, m.map Int.ofNat, ((m.foldl max 0 + 1 : Nat) : Int), qf, intervals lf⟩ : Dec HFBlockContext))
    (fun lf => ∃ tx ty tb : List Int, lf = [tx, ty, tb]) follows_lfThresholds (fun l a r h => by
      obtain ⟨tx, l1, _, h⟩ := Dec.of_bind h
      obtain ⟨ty, l2, _, h⟩ := Dec.of_bind h
      obtain ⟨tb, l3, _, h⟩ := Dec.of_bind h
      have e' : some ([tx, ty, tb], l3) = some (a, r) := h
      simp only [Option.some.injEq, Prod.mk.injEq] at e'
      exact ⟨tx, ty, tb, e'.1.symm⟩) (fun lf hlf => ?_)) ?_
  · obtain ⟨tx, ty, tb, rfl⟩ := hlf
    have hi : intervals [tx, ty, tb] = ((tx.length + 1) * (ty.length + 1) * (tb.length + 1) : Nat) := by
      unfold intervals
      simp
    refine Follows.bind (follows_bits 4 (by decide)) fun n => Follows.bind (follows_mulThresholds n) fun qf => Follows.check_left fun hc => ?_
    rw [decide_eq_true_eq, hi, Int.toNat_natCast] at hc
    have hb : 39 * ((n : Int) + 1) * intervals [tx, ty, tb] = ((39 * (n + 1) * ((tx.length + 1) * (ty.length + 1) * (tb.length + 1)) : Nat) : Int) := by
      rw [hi]; push_cast; ring
    dsimp only
    rw [hb, hi, Int.toNat_natCast, Int.toNat_natCast, if_neg (by omega)]
    refine Follows.congr (Follows.bind (follows_clusterMap _ (by
      have h1 : 0 < (tx.length + 1) * (ty.length + 1) * (tb.length + 1) := by positivity
      have h2 : 39 * (n + 1) * 1 ≤ 39 * (n + 1) * ((tx.length + 1) * (ty.length + 1) * (tb.length + 1)) := Nat.mul_le_mul_left _ h1
      omega)) fun m => Follows.pure _) ?_
    simp only [Dec.bind_assoc, Dec.pure_bind]
  · simp only [Dec.bind_assoc, Dec.pure_bind]
    have hi : ∀ tx ty tb : List Int, intervals [tx, ty, tb] = ((tx.length + 1) * (ty.length + 1) * (tb.length + 1) : Nat) := by
      intro tx ty tb
      unfold intervals
      simp
    simp only [hi, Int.toNat_natCast]

end Jxl
