import Verif.Model.Decode
import Verif.Spec.Decode
import Verif.Props.Boxes
import Verif.Props.ICC
import Verif.Props.ModularCoding
import Verif.Props.FrameHeader
import Verif.Props.BitReader

/-! # Decoding of files: lemmas -/
namespace Jxl
open Spec

/-! ## The boxes and the image header -/

theorem boxes_ok {file : List UInt8} {k level : Nat} (hf : CodestreamIn file k level) :
    ∃ s box, readBoxHeader (BR.new file) = (.ok ([box], level), s) ∧ box.offset = k ∧ s.data = file ∧ s.index = 0 ∧ (level = 5 ∨ level = 10) := by
  rcases hf with ⟨rfl, rfl, hl, hs⟩ | ⟨before, after, payload, hb, hn, rfl, rfl, rfl⟩
  · have h0 : At { BR.new file with pos := 0 } [] (file.take 12 ++ file.drop 12) := by
      rw [List.take_append_drop]
      exact ⟨rfl, rfl, rfl⟩
    have hl12 : (file.take 12).length = 12 := by rw [List.length_take]; omega
    obtain ⟨s1, e1, a1⟩ := readBuf_at (file.take 12) (by intro h; rw [h] at hl12; cases hl12) h0
    rw [hl12] at e1
    refine ⟨s1, ⟨tagJXLC, 0, true, 0⟩, ?_, rfl, ?_, a1.2.2, Or.inl rfl⟩
    · unfold readBoxHeader
      refine (Rd.bind_ok (m := seekStart 0) (a := ()) (s' := { BR.new file with pos := 0 }) rfl).trans ?_
      refine (Rd.bind_ok e1).trans ?_
      rw [if_pos (show file.take 12 ≠ containerHeader from fun h => hs (h.trans (by decide)))]
      rfl
    · rw [a1.1, List.nil_append, List.take_append_drop]
  · obtain ⟨s1, n, e, a, _⟩ := readBoxHeader_at _ hb []
    rw [List.append_nil] at e
    rw [boxLoop_end n _ _ a] at e
    have hp : pieces 12 (before ++ [⟨kindC, payload⟩] ++ after) = [((container before).length + 8, payload.length, false)] := by
      have := pieces_single before after payload (fun b h => hn b (by simp [h])) (fun b h => hn b (by simp [h])) (fun b h => (hb b (by simp [h])).1.1) signature
      rw [show signature.length = 12 by decide] at this
      exact this
    rw [hp] at e
    exact ⟨s1, _, e, rfl, by rw [a.1, List.append_nil], a.2.2, levelOf_cases _ hb⟩

theorem iccBytes_ok : ∀ (rest done : List Nat) (es es' : ES) (s s' : BR), (∀ b ∈ done ++ rest, b < 256) →
    ES.readSeq 0 ((List.range rest.length).map fun i => (contextOfNext ((done ++ rest).take (done.length + i)) : Int)) es s = (.ok (rest.map fun b : Nat => (b : Int), es'), s') →
    iccBytes rest.length done es s = (.ok (done ++ rest, es'), s')
  | [], done, es, es', s, s', _, h => by
    have h : (Pure.pure ([], es) : Rd (List Int × ES)) s = (.ok ([], es'), s') := h
    rw [Rd.pure_eq] at h
    injection h with h1 h2
    injection h1 with h1
    injection h1 with _ h1
    subst h1 h2
    show (Pure.pure (done, es) : Rd (List Nat × ES)) s = _
    rw [Rd.pure_eq, List.append_nil]
  | b :: rest, done, es, es', s, s', hb, h => by
    rw [List.length_cons, List.range_succ_eq_map, List.map_cons, List.map_map, ES.readSeq] at h
    obtain ⟨⟨v, es1⟩, s1, e1, h⟩ := Rd.of_bind h
    obtain ⟨⟨vs, es2⟩, s2, e2, h⟩ := Rd.of_bind h
    dsimp only at h e2
    rw [Rd.pure_eq] at h
    injection h with h1 h2
    injection h1 with h1
    injection h1 with h1 h3
    rw [List.map_cons] at h1
    injection h1 with h1 h4
    subst h1 h2 h3 h4
    have hd : ∀ x ∈ done, x < 256 := fun x hx => hb x (List.mem_append_left _ hx)
    have hctx : iccContext done done.length = .ok (contextOfNext done) := by
      have := C40_context done hd done.length (Nat.le_refl _)
      rwa [Nat.sub_self, List.replicate_zero, List.append_nil] at this
    rw [Nat.add_zero, List.take_left] at e1
    have hbb : b < 256 := hb b (by simp)
    have hm : (((b : Int) % 256).toNat) = b := by omega
    rw [List.length_cons, iccBytes, Rd.bind_ok (lift_ok hctx s), Rd.bind_ok (show es.readSymbol _ s = _ from e1)]
    dsimp only
    rw [hm]
    have := iccBytes_ok rest (done ++ [b]) es1 es2 s1 s2 (fun x hx => hb x (by simpa using hx)) (by
      have hc : ((List.range rest.length).map fun i => (contextOfNext ((done ++ [b] ++ rest).take ((done ++ [b]).length + i)) : Int)) =
          (List.range rest.length).map ((fun i => (contextOfNext ((done ++ b :: rest).take (done.length + i)) : Int)) ∘ Nat.succ) := by
        refine List.map_congr_left (fun i _ => ?_)
        simp only [Function.comp, List.append_assoc, List.singleton_append, List.length_append, List.length_singleton]
        rw [show done.length + 1 + i = done.length + i.succ by omega]
      rw [hc]
      exact e2)
    rw [this, List.append_assoc]
    rfl

theorem byte_i32 {b : Nat} (h : b < 256) : i32 (b : Int) = b := i32_ofNat (by omega)

theorem byte_values {e : List Nat} (h4 : ∀ b ∈ e, b < 256) :
    ((List.range e.length).map ((fun o : Int × Nat => i32 o.2) ∘ fun i => ((contextOfNext (e.take i) : Int), e.getD i 0))) = e.map fun b : Nat => (b : Int) := by
  have h1 : ((List.range e.length).map ((fun o : Int × Nat => i32 o.2) ∘ fun i => ((contextOfNext (e.take i) : Int), e.getD i 0))) =
      ((List.range e.length).map (fun j => e.getD j 0)).map (fun b : Nat => i32 b) := by
    rw [List.map_map]
    rfl
  rw [h1, getD_map]
  exact List.map_congr_left (fun b hb => byte_i32 (h4 b hb))

theorem encodedICC_ok {data : List UInt8} {p q : Nat} {e : List Nat} (h : ICCAt data p q e) {s : BR} (hs : AtBit s p) (hd : s.data = data) :
    ∃ s', readEncodedICC s = (.ok (e.map UInt8.ofNat), s') ∧ AtBit s' q ∧ s'.data = data := by
  obtain ⟨p1, p2, es, h1, h2, h3, h4⟩ := h
  obtain ⟨s1, e1, a1, d1⟩ := implements_u64.follows.at h1 hs hd
  obtain ⟨s2, e2, a2, d2⟩ := h2.load s1 d1 a1
  obtain ⟨f1, f2, f3, _⟩ := load_fresh e2
  have hlen : e.length < 2 ^ 31 := by
    obtain ⟨_, _, _, _, hl, _⟩ := h3
    simpa using hl
  obtain ⟨es', s3, e3, a3, d3, v3⟩ := h3.read f1 f2 f3 d2 a2
  rw [List.map_map, List.map_map] at e3
  have hv : ((List.range e.length).map ((fun o : Int × Nat => i32 o.2) ∘ fun i => ((contextOfNext (e.take i) : Int), e.getD i 0))) = e.map fun b : Nat => (b : Int) := by
    exact byte_values h4
  have hc : ((List.range e.length).map (Prod.fst ∘ fun i => ((contextOfNext (e.take i) : Int), e.getD i 0))) =
      (List.range e.length).map fun i => (contextOfNext (([] ++ e).take (([] : List Nat).length + i)) : Int) := by
    refine List.map_congr_left (fun i _ => ?_)
    simp only [Function.comp, List.nil_append, List.length_nil, Nat.zero_add]
  rw [hv, hc] at e3
  have hb := iccBytes_ok e [] es es' s2 s3 (by simpa using h4) e3
  refine ⟨s3, ?_, a3, d3⟩
  unfold readEncodedICC
  rw [Rd.bind_ok e1, if_neg (by omega), Rd.bind_ok e2, Rd.bind_ok hb]
  dsimp only
  rw [if_pos v3, List.nil_append]
  rfl

theorem parseHeader_ok {level : Nat} (hl : level = 5 ∨ level = 10) {data : List UInt8} {k k' : Nat} {h : ImageHeader} {profile : Option (List Nat)}
    (hh : ImageHeaderAt level data k k' h profile) {s : BR} (hs : AtBit s (8 * k)) (hd : s.data = data) :
    ∃ s', parseImageHeader level s = (.ok (h, profile.map fun e => e.map UInt8.ofNat), s') ∧ AtBit s' (8 * k') ∧ s'.data = data := by
  obtain ⟨p, q, h1, rfl, h3⟩ := hh
  obtain ⟨s1, e1, a1, d1⟩ := (C56_header_partial level (by omega)).at h1 hs hd
  have : ∃ s2, readIf h.colour.useIcc (do let e ← readEncodedICC; Pure.pure (some e)) none s1 = (.ok (profile.map fun e => e.map UInt8.ofNat), s2) ∧ AtBit s2 q ∧ s2.data = data := by
    cases profile with
    | none =>
      obtain ⟨hu, rfl⟩ := h3
      rw [hu]
      exact ⟨s1, rfl, a1, d1⟩
    | some e =>
      obtain ⟨hu, h3⟩ := h3
      obtain ⟨s2, e2, a2, d2⟩ := encodedICC_ok h3 a1 d1
      rw [hu]
      refine ⟨s2, ?_, a2, d2⟩
      show (readEncodedICC >>= fun e => Pure.pure (some e)) s1 = _
      rw [Rd.bind_ok e2]
      rfl
  obtain ⟨s2, e2, a2, d2⟩ := this
  obtain ⟨s3, e3, a3, d3⟩ := zeroPad_spec s2 q a2
  refine ⟨s3, ?_, a3, d3.trans d2⟩
  unfold parseImageHeader
  rw [Rd.bind_ok e1, Rd.bind_ok e2, Rd.bind_ok e3]
  rfl

theorem headerAt_ok {level : Nat} (hl : level = 5 ∨ level = 10) {data : List UInt8} {k k' : Nat} {h : ImageHeader} {profile : Option (List Nat)}
    (hh : ImageHeaderAt level data k k' h profile) (hk : k < data.length) {s : BR} (hi : s.index = 0) (hd : s.data = data) :
    ∃ s', headerAt k level s = (.ok (some (h, profile.map fun e => e.map UInt8.ofNat)), s') ∧ AtBit s' (8 * k') ∧ s'.data = data := by
  have a0 : AtBit { s with pos := k } (8 * k) := Or.inl ⟨hi, by rw [show ({ s with pos := k } : BR).data = data from hd]; exact Nat.le_of_lt hk, rfl⟩
  obtain ⟨s1, e1, a1, d1⟩ := parseHeader_ok hl hh a0 hd
  refine ⟨s1, ?_, a1, d1⟩
  unfold headerAt
  rw [Rd.bind_ok (show seekStart k s = (.ok (), { s with pos := k }) from rfl)]
  rw [C03_atEnd _ _ a0, show decide (8 * k = 8 * ({ s with pos := k } : BR).data.length) = false from decide_eq_false (by
    rw [show ({ s with pos := k } : BR).data = data from hd]; omega)]
  dsimp only
  rw [Rd.bind_ok e1]
  rfl

end Jxl
