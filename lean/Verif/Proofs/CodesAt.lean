import Verif.Spec.TreeCoding
import Verif.Proofs.CodeCoding

/-!
# Reading descriptions of codes whose maps are coded
-/
namespace Jxl
open Spec

/-- Reading numbers where they are written. -/
theorem NumbersAt.read {data : List UInt8} {p q : Nat} {es : ES} {mult : Int} {out : List (Int × Nat)} (h : NumbersAt data p q es mult out)
    (h0 : es.state = none) (h1 : es.numToCopy = 0) (h2 : es.numDecoded = 0) {s : BR} (hd : s.data = data) (hs : AtBit s p) :
    ∃ es' s', ES.readSeq mult (out.map Prod.fst) es s = (.ok (out.map (fun o => i32 o.2), es'), s') ∧ AtBit s' q ∧ s'.data = data ∧ es'.validateFinalState = true := by
  obtain ⟨co, cd, cmds, a1, a2, a3, a4, a5, a6, a7, a8, a9⟩ := h
  obtain ⟨es', s', e1, e2, e3, e4⟩ := C15_lz77_partial co cd mult cmds (out.map Prod.fst) es h0 h1 h2 a4 a5 (by rw [List.length_map]; exact a2) a6 s p hs
    (by rw [hd]; exact a7) (by rw [hd, ← a8]; exact a9)
  rw [a3] at e1
  exact ⟨es', s', e1, by rw [a8]; exact e2, by rw [e3, hd], e4⟩

theorem readMany_seq (n : Nat) : ∀ es : ES, ES.readMany n es = ES.readSeq 0 (List.replicate n 0) es := by
  induction n with
  | zero => intro es; rfl
  | succ n ih =>
    intro es
    unfold ES.readMany
    rw [List.replicate_succ]
    unfold ES.readSeq
    congr 1
    funext x
    obtain ⟨v, es1⟩ := x
    show (ES.readMany n es1 >>= _) = (ES.readSeq 0 (List.replicate n 0) es1 >>= _)
    rw [ih es1]

theorem mtfEncode_mem : ∀ (vs t : List Int), (∀ v ∈ vs, v ∈ t) → ∀ i ∈ mtfEncode t vs, 0 ≤ i ∧ i < t.length := by
  intro vs
  induction vs with
  | nil => intro t _ i hi; cases hi
  | cons v vs ih =>
    intro t h i hi
    have hv : v ∈ t := h v (by simp)
    unfold mtfEncode at hi
    rcases List.mem_cons.1 hi with rfl | hi
    · have := List.idxOf_lt_length_iff.2 hv
      omega
    · have := ih (v :: t.erase v) (fun x hx => ?_) i hi
      · rw [List.length_cons, List.length_erase_of_mem hv] at this
        have hl := List.length_pos_of_mem hv
        omega
      · by_cases hxv : x = v
        · subst hxv; simp
        · exact List.mem_cons_of_mem _ ((List.mem_erase_of_ne hxv).2 (h x (by simp [hx])))

theorem mtfEncode_length : ∀ (vs t : List Int), (mtfEncode t vs).length = vs.length := by
  intro vs
  induction vs with
  | nil => intro t; rfl
  | cons v vs ih => intro t; unfold mtfEncode; rw [List.length_cons, List.length_cons, ih]

theorem foldl_max_bound : ∀ (l : List Nat) (n : Nat), n ≤ l.foldl max n ∧ ∀ c ∈ l, c ≤ l.foldl max n := by
  intro l
  induction l with
  | nil => intro n; exact ⟨le_refl _, by simp⟩
  | cons c l ih =>
    intro n
    obtain ⟨h1, h2⟩ := ih (max n c)
    rw [List.foldl_cons]
    refine ⟨by omega, ?_⟩
    intro x hx
    rcases List.mem_cons.1 hx with rfl | hx
    · omega
    · exact h2 x hx

theorem i32_nats (l : List Nat) (h : ∀ c ∈ l, c < 256) : l.map (fun v : Nat => i32 (v : Int)) = l.map Int.ofNat := by
  refine List.map_congr_left fun v hv => ?_
  have := h v hv
  show i32 (v : Int) = (v : Int)
  unfold i32
  omega

/-- A map is read where it is written. -/
theorem readClusterMap_at {data : List UInt8} {codes : Bool → Nat → Nat → ES → Prop} {fuel : Nat}
    (hc : ∀ lz p q es, codes lz p q es → ∃ k, fuel = k + 1 ∧ ∀ s, s.data = data → AtBit s p →
      ∃ s', loadWith (readClusterMap k) 1 (!lz) s = (.ok es, s') ∧ AtBit s' q ∧ s'.data = data ∧ es.state = none ∧ es.numToCopy = 0 ∧ es.numDecoded = 0)
    {p q : Nat} {map : List Nat} (h : MapAt data codes p q map) (hpos : 1 ≤ map.length) {n : Nat} (hn : n = map.foldl max 0 + 1) (hmax : n ≤ map.length)
    {s : BR} (hs : AtBit s p) (hd : s.data = data) :
    ∃ s', readClusterMap fuel map.length map.length s = (.ok (map.map Int.ofNat, (n : Int)), s') ∧ AtBit s' q ∧ s'.data = data := by
  unfold MapAt at h
  by_cases h1 : map.length = 1
  · rw [if_pos h1] at h
    obtain ⟨rfl, rfl⟩ := h
    refine ⟨s, ?_, hs, hd⟩
    subst hn
    cases fuel <;> rfl
  rw [if_neg h1] at h
  have hlen : 2 ≤ map.length := by omega
  have hcl := countClusters_nats map hlen
  have hck : checkClusters (map.map Int.ofNat) map.length = .ok (map.map Int.ofNat, (n : Int)) := by
    unfold checkClusters
    rw [hcl, if_neg (by omega), hn]
    rfl
  rcases h with ⟨width, hw, he, hb, rfl⟩ | ⟨mtf, es, p1, he, hb, hes, hnum⟩
  · have hm : ∀ c ∈ map, c < map.length := fun c hc => by
      have := (foldl_max_bound map 0).2 c hc
      omega
    obtain ⟨s', e1, e2, e3⟩ := readClusterMap_fixed fuel width hw map he hlen map.length hm s p hs (by rw [hd]; exact hb)
    refine ⟨s', ?_, ?_, by rw [e3, hd]⟩
    · rw [e1, hn]
      rfl
    · have hl : ([true] ++ (bitsOf 2 width ++ map.flatMap (bitsOf width))).length = 3 + (map.flatMap (bitsOf width)).length := by
        rw [List.length_append, List.length_append, length_bitsOf]
        simp only [List.length_cons, List.length_nil]
        omega
      rwa [hl] at e2
  · obtain ⟨k, rfl, hk⟩ := hc _ _ _ _ hes
    obtain ⟨hb1, hb2⟩ := prefix_append_split (a := [false]) (b := [mtf]) hb
    rw [bitsFrom_drop] at hb2
    obtain ⟨s1, e1, a1, d1⟩ := reads_bool false s p hs (by rw [hd]; exact hb1)
    obtain ⟨s2, e2, a2, d2⟩ := reads_bool mtf s1 (p + 1) a1 (by rw [d1, hd]; exact hb2)
    obtain ⟨s3, e3, a3, d3, f1, f2, f3⟩ := hk s2 (by rw [d2, d1, hd]) a2
    obtain ⟨es', s4, e4, a4, d4, v4⟩ := hnum.read f1 f2 f3 d3 a3
    have hmem : ∀ v ∈ map.map Int.ofNat, v ∈ (List.range 256).map Int.ofNat := by
      intro v hv
      obtain ⟨c, hc, rfl⟩ := List.mem_map.1 hv
      exact List.mem_map.2 ⟨c, List.mem_range.2 (he c hc), rfl⟩
    have hfront := mtfEncode_mem (map.map Int.ofNat) ((List.range 256).map Int.ofNat) hmem
    have hback : (movedToFront map).map Int.ofNat = mtfEncode ((List.range 256).map Int.ofNat) (map.map Int.ofNat) := by
      unfold movedToFront
      rw [List.map_map]
      conv => rhs; rw [← List.map_id (mtfEncode _ _)]
      refine List.map_congr_left fun i hi => ?_
      have := (hfront i hi).1
      show ((i.toNat : Nat) : Int) = i
      omega
    have hsmall : ∀ c ∈ movedToFront map, c < 256 := by
      intro c hc
      obtain ⟨i, hi, rfl⟩ := List.mem_map.1 hc
      have := hfront i hi
      rw [List.length_map, List.length_range] at this
      omega
    have hml : (movedToFront map).length = map.length := by
      unfold movedToFront
      rw [List.length_map, mtfEncode_length, List.length_map]
    have hctx : ∀ l : List Nat, (l.map fun v => ((0 : Int), v)).map Prod.fst = List.replicate l.length 0 := by
      intro l
      rw [List.map_map, List.eq_replicate_iff]
      exact ⟨by rw [List.length_map], by simp⟩
    have hz : ∀ l : List Nat, (∀ c ∈ l, c < 256) → l.map ((fun o : Int × Nat => i32 (o.2 : Int)) ∘ fun v => ((0 : Int), v)) = l.map Int.ofNat := fun l h => i32_nats l h
    refine ⟨s4, ?_, a4, d4⟩
    unfold readClusterMap
    rw [if_neg h1, Rd.bind_ok e1, if_neg (by decide), Rd.bind_ok e2]
    dsimp only
    have hdec : decide (map.length ≤ 2) = !(decide (2 < map.length)) := by
      by_cases h2 : 2 < map.length <;> simp [h2] <;> omega
    rw [hdec, Rd.bind_ok e3]
    unfold nestedMap
    rw [readMany_seq]
    cases mtf with
    | false =>
      simp only [Bool.false_eq_true, if_false] at e4 ⊢
      rw [hctx, List.map_map] at e4
      have e5 : ES.readSeq 0 (List.replicate map.length 0) es s3 = (.ok (map.map Int.ofNat, es'), s4) := by
        rw [e4, hz map he]
      rw [show ∀ (f : List Int → Rd _) (g : List Int × ES → Rd (List Int)), ((ES.readSeq 0 (List.replicate map.length 0) es >>= g) >>= f) s3 = (g (map.map Int.ofNat, es') >>= f) s4 from
        fun f g => by rw [Rd.bind_eq, Rd.bind_ok e5]; rfl]
      dsimp only
      rw [if_neg (by rw [v4]; decide), Rd.bind_ok (Rd.pure_eq _ _), hck]
      rfl
    | true =>
      simp only [if_true] at e4 ⊢
      rw [hctx, List.map_map, hml] at e4
      have e5 : ES.readSeq 0 (List.replicate map.length 0) es s3 = (.ok (mtfEncode ((List.range 256).map Int.ofNat) (map.map Int.ofNat), es'), s4) := by
        rw [e4, ← hback, hz _ hsmall]
      rw [show ∀ (f : List Int → Rd _) (g : List Int × ES → Rd (List Int)), ((ES.readSeq 0 (List.replicate map.length 0) es >>= g) >>= f) s3 =
        (g (mtfEncode ((List.range 256).map Int.ofNat) (map.map Int.ofNat), es') >>= f) s4 from
        fun f g => by rw [Rd.bind_eq, Rd.bind_ok e5]; rfl]
      dsimp only
      rw [if_neg (by rw [v4]; decide), inverseMTF_encode _ _ hmem, Rd.bind_ok (show Rd.lift (Res.ok (map.map Int.ofNat)) s4 = (.ok (map.map Int.ofNat), s4) from rfl), hck]
      rfl

/-- Codes are read where they are described. -/
theorem loadWith_at {data : List UInt8} {mapAt : Nat → Nat → List Nat → Prop} {rcm : Nat → Nat → Rd (List Int × Int)}
    (hm : ∀ {p q : Nat} {map : List Nat} {n : Nat}, mapAt p q map → 1 ≤ map.length → n = map.foldl max 0 + 1 → n ≤ map.length → ∀ {s : BR}, AtBit s p → s.data = data →
      ∃ s', rcm map.length map.length s = (.ok (map.map Int.ofNat, (n : Int)), s') ∧ AtBit s' q ∧ s'.data = data)
    {allowed : Bool} {n p q : Nat} {es : ES} (h : CodesIn data mapAt allowed n p q es) {s : BR} (hs : AtBit s p) (hd : s.data = data) :
    ∃ s', loadWith rcm n (!allowed) s = (.ok es, s') ∧ AtBit s' q ∧ s'.data = data ∧ es.state = none ∧ es.numToCopy = 0 ∧ es.numDecoded = 0 := by
  obtain ⟨hn, lz, map, codes, ds, p1, h1, h2, h3, h4, h5, h6, h7, h8, h9, rfl, h10, h11, rfl⟩ := h
  obtain ⟨s1, e1, a1, d1⟩ := readLZ_ok lz h1 (!allowed) (fun hx => by rw [h2 hx]; rfl) s p hs (by rw [hd]; exact h3)
  obtain ⟨s2, e2, a2, d2⟩ := hm h5 (by split at h4 <;> omega) h7 h8 a1 (by rw [d1, hd])
  obtain ⟨s3, e3, a3, d3⟩ := readDists_ok codes h6 h11 s2 p1 a2 (by rw [d2]; exact h9) (by rw [d2]; exact h10)
  refine ⟨s3, ?_, a3, by rw [d3, d2], rfl, rfl, rfl⟩
  unfold loadWith
  rw [if_neg (by omega), Rd.bind_ok e1]
  dsimp only
  rw [Option.isSome_map, ← h4, Rd.bind_ok e2]
  dsimp only
  rw [Int.toNat_natCast, Rd.bind_ok e3]
  rfl

theorem codesDeep_read {data : List UInt8} : ∀ (depth : Nat) (allowed : Bool) (n p q : Nat) (es : ES), CodesDeep data depth allowed n p q es → ∀ s, s.data = data → AtBit s p →
    ∃ s', loadWith (readClusterMap depth) n (!allowed) s = (.ok es, s') ∧ AtBit s' q ∧ s'.data = data ∧ es.state = none ∧ es.numToCopy = 0 ∧ es.numDecoded = 0 := by
  intro depth
  induction depth with
  | zero =>
    intro allowed n p q es h s hd hs
    refine loadWith_at (fun {p q map n} hm h1 hn hx {s} ha hd => ?_) h hs hd
    exact readClusterMap_at (fun _ _ _ _ hf => hf.elim) hm h1 hn hx ha hd
  | succ depth ih =>
    intro allowed n p q es h s hd hs
    refine loadWith_at (fun {p q map n} hm h1 hn hx {s} ha hd => ?_) h hs hd
    exact readClusterMap_at (fun lz p q es hc => ⟨depth, rfl, fun s hd hs => ih lz 1 p q es hc s hd hs⟩) hm h1 hn hx ha hd

/-- Codes are read where they are described. -/
theorem CodesAt.load {data : List UInt8} {p q n : Nat} {es : ES} (h : CodesAt data p q n es) (s : BR) (hd : s.data = data) (hs : AtBit s p) :
    ∃ s', ES.load n false s = (.ok es, s') ∧ AtBit s' q ∧ s'.data = data := by
  obtain ⟨s', e, a, d, -⟩ := codesDeep_read 2 true n p q es h s hd hs
  exact ⟨s', e, a, d⟩

end Jxl
