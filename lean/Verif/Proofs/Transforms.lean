import Verif.Spec.Transforms
import Verif.Proofs.Modular
import Verif.Proofs.WP
import Mathlib.Tactic.Linarith
import Mathlib.Tactic.Positivity
import Mathlib.Tactic.NormNum

/-! Proofs about the modular transforms. -/
namespace Jxl

theorem i32_of {x : Int} (h : -2147483648 ≤ x ∧ x < 2147483648) : i32 x = x := i32_id h.1 h.2

theorem forFrom_inv {σ : Type} {f : Nat → σ → Res σ} (P : Nat → σ → Prop) : ∀ (n i : Nat) (s : σ), P i s →
    (∀ k s, i ≤ k → k < i + n → P k s → ∃ s', f k s = .ok s' ∧ P (k + 1) s') → ∃ s', forFrom f n i s = .ok s' ∧ P (i + n) s'
  | 0, i, s, h, _ => ⟨s, rfl, h⟩
  | n + 1, i, s, h, hs => by
    obtain ⟨s1, e1, h1⟩ := hs i s (Nat.le_refl _) (by omega) h
    obtain ⟨s2, e2, h2⟩ := forFrom_inv P n (i + 1) s1 h1 (fun k s a b => hs k s (by omega) (by omega))
    refine ⟨s2, ?_, by rwa [show i + (n + 1) = i + 1 + n by omega]⟩
    rw [forFrom, e1, Res.bind_ok, e2]

/-- Two nested loops. -/
theorem fill_loop {σ : Type} {f : Nat → Nat → σ → Res σ} (P : Nat → Nat → σ → Prop) (h w : Nat) (s : σ) (h0 : P 0 0 s)
    (hstep : ∀ y x s, y < h → x < w → P y x s → ∃ s', f y x s = .ok s' ∧ P y (x + 1) s') (hrow : ∀ y s, y < h → P y w s → P (y + 1) 0 s) :
    ∃ s', forFrom (fun y s => forFrom (fun x s => f y x s) w 0 s) h 0 s = .ok s' ∧ P h 0 s' := by
  have := forFrom_inv (f := fun y s => forFrom (fun x s => f y x s) w 0 s) (fun y s => P y 0 s) h 0 s h0 ?_
  · rwa [Nat.zero_add] at this
  · intro y s _ hy hP
    obtain ⟨s', e, h'⟩ := forFrom_inv (f := fun x s => f y x s) (fun x s => P y x s) w 0 s hP (fun x s _ hx hp => hstep y x s (by omega) (by omega) hp)
    rw [Nat.zero_add] at h'
    exact ⟨s', e, hrow y s' (by omega) h'⟩

theorem tab_rect (h w : Nat) (i : Img) : Rect h w (tab h w i) := by
  unfold Rect tab
  split
  · rfl
  · refine ⟨by simp, ?_⟩
    intro r hr
    rw [List.mem_map] at hr
    obtain ⟨y, -, rfl⟩ := hr
    simp

theorem ofRows_tab {h w : Nat} {i : Img} {y x : Nat} (hy : y < h) (hx : x < w) : Img.ofRows (tab h w i) y x = i y x := by
  unfold tab
  rw [if_neg (by omega)]
  apply ofRows_eq (r := (List.range w).map (fun x => i y x))
  · rw [List.getElem?_map, List.getElem?_range hy]; rfl
  · rw [List.getElem?_map, List.getElem?_range hx]; rfl

theorem rect_ext {h w : Nat} {a b : List (List Int)} (ha : Rect h w a) (hb : Rect h w b)
    (he : ∀ j k, j < h → k < w → Img.ofRows a j k = Img.ofRows b j k) : a = b := by
  unfold Rect at ha hb
  by_cases h0 : h = 0 ∨ w = 0
  · rw [if_pos h0] at ha hb; rw [ha, hb]
  · rw [if_neg h0] at ha hb
    exact rows_ext ha.1 ha.2 hb.1 hb.2 he

theorem Is32.at {b : List (List Int)} (h : Is32 b) (y x : Nat) : -2147483648 ≤ Img.ofRows b y x ∧ Img.ofRows b y x < 2147483648 := by
  unfold Img.ofRows
  simp only [List.getD_eq_getElem?_getD]
  cases hr : b[y]? with
  | none => simp
  | some r =>
    simp only [Option.getD_some]
    cases hv : r[x]? with
    | none => simp
    | some v => exact h r (List.mem_of_getElem? hr) v (List.mem_of_getElem? hv)

theorem Rect.at2 {h w : Nat} {b : List (List Int)} (hR : Rect h w b) {y x : Nat} (hy : y < h) (hx : x < w) : Jxl.at2 b (y : Int) (x : Int) = .ok (Img.ofRows b y x) := by
  obtain ⟨h1, h2⟩ := hR.shape (by omega) (by omega)
  exact at2_ofRows h1 h2 hy hx

theorem Rect.set2 {h w : Nat} {b : List (List Int)} (hR : Rect h w b) {y x : Nat} (hy : y < h) (hx : x < w) (v : Int) :
    ∃ b', Jxl.set2 b (y : Int) (x : Int) v = .ok b' ∧ Rect h w b' ∧ ∀ j k, Img.ofRows b' j k = if j = y ∧ k = x then v else Img.ofRows b j k := by
  obtain ⟨h1, h2⟩ := hR.shape (by omega) (by omega)
  obtain ⟨b', e1, e2, e3, e4⟩ := set2_ok h1 h2 hy hx v
  refine ⟨b', e1, ?_, e4⟩
  unfold Rect
  rw [if_neg (by omega)]
  exact ⟨e2, e3⟩

/-! ## Colour transforms -/

/-- What `rctAt` does to a pixel. -/
def rctInverse (ty : Nat) (a b c : Int) : Int × Int × Int :=
  match ty with
  | 0 => (a, b, c)
  | 1 => (a, b, i32 (c + a))
  | 2 => (a, i32 (b + a), c)
  | 3 => (a, i32 (b + a), i32 (c + a))
  | 4 => (a, i32 (b + sar (i32 (a + c)) 1), c)
  | 5 => (a, i32 (b + sar (i32 (a + i32 (a + c))) 1), i32 (a + c))
  | _ =>
    let tmp := i32 (a - sar c 1)
    let f := i32 (tmp - sar b 1)
    (i32 (f + b), i32 (c + tmp), f)

theorem rctForward_6 (a b c : Int) : rctForward 6 a b c = (i32 (i32 (c + i32 (a - c) / 2) + i32 (b - i32 (c + i32 (a - c) / 2)) / 2), i32 (a - c),
    i32 (b - i32 (c + i32 (a - c) / 2))) := rfl

theorem rctInverse_6 (a b c : Int) : rctInverse 6 a b c = (i32 (i32 (i32 (a - sar c 1) - sar b 1) + b), i32 (c + i32 (a - sar c 1)), i32 (i32 (a - sar c 1) - sar b 1)) := rfl

theorem rct_undo {ty : Nat} (hty : ty < 7) {a b c : Int} (ha : -2147483648 ≤ a ∧ a < 2147483648) (hb : -2147483648 ≤ b ∧ b < 2147483648)
    (hc : -2147483648 ≤ c ∧ c < 2147483648) :
    rctInverse ty (rctForward ty a b c).1 (rctForward ty a b c).2.1 (rctForward ty a b c).2.2 = (a, b, c) := by
  match ty, hty with
  | 0, _ => rfl
  | 1, _ => unfold rctInverse rctForward sar; simp only [Prod.mk.injEq, true_and]; unfold i32; omega
  | 2, _ => unfold rctInverse rctForward sar; simp only [Prod.mk.injEq, true_and, and_true]; unfold i32; omega
  | 3, _ => unfold rctInverse rctForward sar; simp only [Prod.mk.injEq, true_and]; unfold i32; omega
  | 4, _ => unfold rctInverse rctForward sar; simp only [Prod.mk.injEq, true_and, and_true]; unfold i32; omega
  | 5, _ =>
    unfold rctInverse rctForward sar
    simp only [Prod.mk.injEq, true_and]
    have e : i32 (a + i32 (c - a)) = c := by unfold i32; omega
    rw [e]
    refine ⟨?_, rfl⟩
    generalize i32 (a + c) = q
    unfold i32; omega
  | 6, _ =>
    rw [rctForward_6]
    dsimp only
    rw [rctInverse_6]
    unfold sar
    have e1 : ∀ cg tmp : Int, -2147483648 ≤ tmp ∧ tmp < 2147483648 → i32 (i32 (tmp + cg / 2) - cg / 2 ^ 1) = tmp := by
      intro cg tmp h; unfold i32; omega
    have ht := i32_range (c + i32 (a - c) / 2)
    rw [e1 _ _ ht]
    have e2 : i32 (i32 (c + i32 (a - c) / 2) - i32 (a - c) / 2 ^ 1) = c := by
      generalize i32 (a - c) = q
      unfold i32; omega
    rw [e2]
    generalize i32 (c + i32 (a - c) / 2) = t
    have e3 : i32 (c + i32 (a - c)) = a := by unfold i32; omega
    have e4 : i32 (i32 (b - t) + t) = b := by unfold i32; omega
    rw [e3, e4]

/-- The shape of the three buffers and what changes at a pixel. -/
structure Upd3 (h w y x : Nat) (v v' : Buf3) (q : Int × Int × Int) : Prop where
  ra : Rect h w v'.a
  rb : Rect h w v'.b
  rc : Rect h w v'.c
  ea : ∀ j k, Img.ofRows v'.a j k = if j = y ∧ k = x then q.1 else Img.ofRows v.a j k
  eb : ∀ j k, Img.ofRows v'.b j k = if j = y ∧ k = x then q.2.1 else Img.ofRows v.b j k
  ec : ∀ j k, Img.ofRows v'.c j k = if j = y ∧ k = x then q.2.2 else Img.ofRows v.c j k

theorem same_at {b : List (List Int)} {y x : Nat} (j k : Nat) : Img.ofRows b j k = if j = y ∧ k = x then Img.ofRows b y x else Img.ofRows b j k := by
  split
  · rename_i h; rw [h.1, h.2]
  · rfl

theorem rctAt_eq {h w y x : Nat} (hy : y < h) (hx : x < w) {ty : Nat} (hty : ty < 7) {v : Buf3} (ha : Rect h w v.a) (hb : Rect h w v.b) (hc : Rect h w v.c) :
    ∃ v', rctAt ty y x v = .ok v' ∧ Upd3 h w y x v v' (rctInverse ty (Img.ofRows v.a y x) (Img.ofRows v.b y x) (Img.ofRows v.c y x)) := by
  have ra := ha.at2 hy hx
  have rb := hb.at2 hy hx
  have rc := hc.at2 hy hx
  unfold rctAt Buf3.addB Buf3.addC
  match ty, hty with
  | 0, _ =>
    rw [if_pos rfl]
    exact ⟨v, rfl, ha, hb, hc, same_at, same_at, same_at⟩
  | 1, _ =>
    obtain ⟨c', s1, s2, s3⟩ := hc.set2 hy hx (i32 (Img.ofRows v.c y x + Img.ofRows v.a y x))
    refine ⟨{ v with c := c' }, ?_, ha, hb, s2, same_at, same_at, s3⟩
    rw [if_neg (by omega), if_pos rfl, ra, Res.bind_ok, rc, Res.bind_ok, s1, Res.bind_ok]
  | 2, _ =>
    obtain ⟨b', s1, s2, s3⟩ := hb.set2 hy hx (i32 (Img.ofRows v.b y x + Img.ofRows v.a y x))
    refine ⟨{ v with b := b' }, ?_, ha, s2, hc, same_at, s3, same_at⟩
    rw [if_neg (by omega), if_neg (by omega), if_pos rfl, ra, Res.bind_ok, rb, Res.bind_ok, s1, Res.bind_ok]
  | 3, _ =>
    obtain ⟨c', s1, s2, s3⟩ := hc.set2 hy hx (i32 (Img.ofRows v.c y x + Img.ofRows v.a y x))
    obtain ⟨b', t1, t2, t3⟩ := hb.set2 hy hx (i32 (Img.ofRows v.b y x + Img.ofRows v.a y x))
    refine ⟨⟨v.a, b', c'⟩, ?_, ha, t2, s2, same_at, t3, s3⟩
    rw [if_neg (by omega), if_neg (by omega), if_neg (by omega), if_pos rfl, ra, Res.bind_ok, rc, Res.bind_ok, s1, Res.bind_ok, Res.bind_ok]
    dsimp only
    rw [rb, Res.bind_ok, t1, Res.bind_ok]
  | 4, _ =>
    obtain ⟨b', s1, s2, s3⟩ := hb.set2 hy hx (i32 (Img.ofRows v.b y x + sar (i32 (Img.ofRows v.a y x + Img.ofRows v.c y x)) 1))
    refine ⟨{ v with b := b' }, ?_, ha, s2, hc, same_at, s3, same_at⟩
    rw [if_neg (by omega), if_neg (by omega), if_neg (by omega), if_neg (by omega), if_pos rfl, ra, Res.bind_ok, rc, Res.bind_ok, rb, Res.bind_ok, s1, Res.bind_ok]
  | 5, _ =>
    obtain ⟨b', s1, s2, s3⟩ := hb.set2 hy hx (i32 (Img.ofRows v.b y x + sar (i32 (Img.ofRows v.a y x + i32 (Img.ofRows v.a y x + Img.ofRows v.c y x))) 1))
    obtain ⟨c', t1, t2, t3⟩ := hc.set2 hy hx (i32 (Img.ofRows v.a y x + Img.ofRows v.c y x))
    refine ⟨⟨v.a, b', c'⟩, ?_, ha, s2, t2, same_at, s3, t3⟩
    rw [if_neg (by omega), if_neg (by omega), if_neg (by omega), if_neg (by omega), if_neg (by omega), if_pos rfl, ra, Res.bind_ok, rc, Res.bind_ok, rb, Res.bind_ok, s1,
      Res.bind_ok, Res.bind_ok]
    dsimp only
    rw [t1, Res.bind_ok]
  | 6, _ =>
    obtain ⟨a', r1, r2, r3⟩ := ha.set2 hy hx (i32 (i32 (i32 (Img.ofRows v.a y x - sar (Img.ofRows v.c y x) 1) - sar (Img.ofRows v.b y x) 1) + Img.ofRows v.b y x))
    obtain ⟨b', s1, s2, s3⟩ := hb.set2 hy hx (i32 (Img.ofRows v.c y x + i32 (Img.ofRows v.a y x - sar (Img.ofRows v.c y x) 1)))
    obtain ⟨c', t1, t2, t3⟩ := hc.set2 hy hx (i32 (i32 (Img.ofRows v.a y x - sar (Img.ofRows v.c y x) 1) - sar (Img.ofRows v.b y x) 1))
    refine ⟨⟨a', b', c'⟩, ?_, r2, s2, t2, r3, s3, t3⟩
    rw [if_neg (by omega), if_neg (by omega), if_neg (by omega), if_neg (by omega), if_neg (by omega), if_neg (by omega), if_pos rfl, rb, Res.bind_ok, rc, Res.bind_ok, ra,
      Res.bind_ok]
    dsimp only
    rw [r1, Res.bind_ok, s1, Res.bind_ok, t1, Res.bind_ok]

/-- The loop of a colour transform over all pixels. -/
theorem rct_loop {h w ty : Nat} (hty : ty < 7) {A B C : List (List Int)} (hA : Rect h w A) (hB : Rect h w B) (hC : Rect h w C)
    (kA : Is32 A) (kB : Is32 B) (kC : Is32 C) :
    ∃ v : Buf3, forFrom (fun y v => forFrom (fun x v => rctAt ty y x v) w 0 v) h 0
      ⟨tab h w (fun y x => (rctForward ty (Img.ofRows A y x) (Img.ofRows B y x) (Img.ofRows C y x)).1),
       tab h w (fun y x => (rctForward ty (Img.ofRows A y x) (Img.ofRows B y x) (Img.ofRows C y x)).2.1),
       tab h w (fun y x => (rctForward ty (Img.ofRows A y x) (Img.ofRows B y x) (Img.ofRows C y x)).2.2)⟩ = .ok v ∧ v.a = A ∧ v.b = B ∧ v.c = C := by
  have key := fill_loop (f := fun y x v => rctAt ty y x v)
    (fun y x (v : Buf3) => Rect h w v.a ∧ Rect h w v.b ∧ Rect h w v.c ∧
      (∀ j k, j < h → k < w → (j < y ∨ (j = y ∧ k < x)) → Img.ofRows v.a j k = Img.ofRows A j k ∧ Img.ofRows v.b j k = Img.ofRows B j k ∧ Img.ofRows v.c j k = Img.ofRows C j k) ∧
      (∀ j k, j < h → k < w → ¬ (j < y ∨ (j = y ∧ k < x)) →
        (Img.ofRows v.a j k, Img.ofRows v.b j k, Img.ofRows v.c j k) = rctForward ty (Img.ofRows A j k) (Img.ofRows B j k) (Img.ofRows C j k)))
    h w ⟨tab h w (fun y x => (rctForward ty (Img.ofRows A y x) (Img.ofRows B y x) (Img.ofRows C y x)).1),
       tab h w (fun y x => (rctForward ty (Img.ofRows A y x) (Img.ofRows B y x) (Img.ofRows C y x)).2.1),
       tab h w (fun y x => (rctForward ty (Img.ofRows A y x) (Img.ofRows B y x) (Img.ofRows C y x)).2.2)⟩ ?_ ?_ ?_
  · obtain ⟨v, e, r1, r2, r3, r4, -⟩ := key
    exact ⟨v, e, rect_ext r1 hA (fun j k hj hk => (r4 j k hj hk (by omega)).1), rect_ext r2 hB (fun j k hj hk => (r4 j k hj hk (by omega)).2.1),
      rect_ext r3 hC (fun j k hj hk => (r4 j k hj hk (by omega)).2.2)⟩
  · refine ⟨tab_rect _ _ _, tab_rect _ _ _, tab_rect _ _ _, fun j k _ _ h => by omega, ?_⟩
    intro j k hj hk _
    rw [ofRows_tab hj hk, ofRows_tab hj hk, ofRows_tab hj hk]
  · intro y x v hy hx ⟨r1, r2, r3, r4, r5⟩
    obtain ⟨v', e, u⟩ := rctAt_eq hy hx hty r1 r2 r3
    refine ⟨v', e, u.ra, u.rb, u.rc, ?_, ?_⟩
    · intro j k hj hk hlt
      rw [u.ea, u.eb, u.ec]
      by_cases hjk : j = y ∧ k = x
      · obtain ⟨rfl, rfl⟩ := hjk
        have h5 := r5 j k hj hk (by omega)
        have hu := rct_undo hty (kA.at j k) (kB.at j k) (kC.at j k)
        rw [← h5] at hu
        dsimp only at hu
        simp only [and_self, if_true]
        rw [hu]
        exact ⟨rfl, rfl, rfl⟩
      · rw [if_neg hjk, if_neg hjk, if_neg hjk]
        exact r4 j k hj hk (by omega)
    · intro j k hj hk hlt
      rw [u.ea, u.eb, u.ec, if_neg (by omega), if_neg (by omega), if_neg (by omega)]
      exact r5 j k hj hk (by omega)
  · intro y v hy ⟨r1, r2, r3, r4, r5⟩
    exact ⟨r1, r2, r3, fun j k hj hk hlt => r4 j k hj hk (by omega), fun j k hj hk hlt => r5 j k hj hk (by omega)⟩

theorem idx_mid {α : Type} (pre : List α) (k : Nat) (l : List α) (a : α) (h : l[k]? = some a) : idx (pre ++ l) ((pre.length : Int) + k) = .ok a := by
  have := idx_of_getElem? (pre ++ l) (pre.length + k) a (by rw [List.getElem?_append_right (by omega), Nat.add_sub_cancel_left]; exact h)
  rwa [show ((pre.length + k : Nat) : Int) = (pre.length : Int) + k by omega] at this

theorem setAt_mid {α : Type} (pre : List α) (k : Nat) (l : List α) (a : α) (h : k < l.length) : setAt (pre ++ l) ((pre.length : Int) + k) a = .ok (pre ++ l.set k a) := by
  have := setAt_ok (l := pre ++ l) (n := pre.length + k) (by rw [List.length_append]; omega) a
  rwa [show ((pre.length + k : Nat) : Int) = (pre.length : Int) + k by omega, List.set_append_right _ _ (by omega), Nat.add_sub_cancel_left] at this

theorem setAt_mid' {α : Type} (pre : List α) (k : Nat) (l : List α) (a : α) (h : k < l.length) : setAt (pre ++ l) ((pre.length + k : Nat) : Int) a = .ok (pre ++ l.set k a) := by
  rw [show ((pre.length + k : Nat) : Int) = (pre.length : Int) + k by omega]; exact setAt_mid pre k l a h

/-- A channel of a colour transform. -/
def MChan.Of32 (h w : Nat) (c : MChan) : Prop := c.height = h ∧ c.width = w ∧ Rect h w c.buffer ∧ Is32 c.buffer

theorem undoRCT_ok {h w : Nat} {o0 o1 o2 : MChan} (h0 : o0.Of32 h w) (h1 : o1.Of32 h w) (h2 : o2.Of32 h w) {ty : Nat} (hty : ty < 42) (pre post : List MChan) :
    undoRCT pre.length ty (pre ++ [(encodeRCT ty o0 o1 o2).1, (encodeRCT ty o0 o1 o2).2.1, (encodeRCT ty o0 o1 o2).2.2] ++ post) = .ok (pre ++ [o0, o1, o2] ++ post) := by
  have core : ∀ a b c : MChan, a.Of32 h w → b.Of32 h w → c.Of32 h w → ∀ p0 p1 p2 : Nat, p0 < 3 → p1 < 3 → p2 < 3 → idx permutationLUT ((ty / 7 : Nat) : Int) = .ok (p0, p1, p2) →
      ∀ va vb vc : MChan,
      va = { a with buffer := tab a.height a.width (fun y x => (rctForward (ty % 7) (Img.ofRows a.buffer y x) (Img.ofRows b.buffer y x) (Img.ofRows c.buffer y x)).1) } →
      vb = { b with buffer := tab a.height a.width (fun y x => (rctForward (ty % 7) (Img.ofRows a.buffer y x) (Img.ofRows b.buffer y x) (Img.ofRows c.buffer y x)).2.1) } →
      vc = { c with buffer := tab a.height a.width (fun y x => (rctForward (ty % 7) (Img.ofRows a.buffer y x) (Img.ofRows b.buffer y x) (Img.ofRows c.buffer y x)).2.2) } →
      undoRCT pre.length ty (pre ++ [va, vb, vc] ++ post) = .ok (pre ++ ((([va, vb, vc] ++ post).set p0 a).set p1 b).set p2 c) := by
    intro a b c ha hb hc p0 p1 p2 l0 l1 l2 hp va vb vc ea eb ec
    obtain ⟨v, ev, e1, e2, e3⟩ := rct_loop (show ty % 7 < 7 by omega) ha.2.2.1 hb.2.2.1 hc.2.2.1 ha.2.2.2 hb.2.2.2 hc.2.2.2
    rw [List.append_assoc]
    unfold undoRCT
    have i0 := idx_mid pre 0 ([va, vb, vc] ++ post) va rfl
    have i1 := idx_mid pre 1 ([va, vb, vc] ++ post) vb rfl
    have i2 := idx_mid pre 2 ([va, vb, vc] ++ post) vc rfl
    rw [show (pre.length : Int) + (0 : Nat) = pre.length by omega] at i0
    rw [show (pre.length : Int) + (1 : Nat) = pre.length + 1 by omega] at i1
    rw [show (pre.length : Int) + (2 : Nat) = pre.length + 2 by omega] at i2
    have w0 : va.width = w := by rw [ea]; exact ha.2.1
    have g0 : va.height = h := by rw [ea]; exact ha.1
    have ba : va.buffer = tab h w (fun y x => (rctForward (ty % 7) (Img.ofRows a.buffer y x) (Img.ofRows b.buffer y x) (Img.ofRows c.buffer y x)).1) := by
      rw [ea]; dsimp only; rw [ha.1, ha.2.1]
    have bb : vb.buffer = tab h w (fun y x => (rctForward (ty % 7) (Img.ofRows a.buffer y x) (Img.ofRows b.buffer y x) (Img.ofRows c.buffer y x)).2.1) := by
      rw [eb]; dsimp only; rw [ha.1, ha.2.1]
    have bc : vc.buffer = tab h w (fun y x => (rctForward (ty % 7) (Img.ofRows a.buffer y x) (Img.ofRows b.buffer y x) (Img.ofRows c.buffer y x)).2.2) := by
      rw [ec]; dsimp only; rw [ha.1, ha.2.1]
    have ra : { va with buffer := a.buffer } = a := by rw [ea]
    have rb : { vb with buffer := b.buffer } = b := by rw [eb]
    have rc : { vc with buffer := c.buffer } = c := by rw [ec]
    have ev' : forFrom (fun y v => forFrom (fun x v => rctAt (ty % 7) y x v) va.width 0 v) va.height 0 ⟨va.buffer, vb.buffer, vc.buffer⟩ = .ok v := by
      rw [w0, g0, ba, bb, bc]; exact ev
    rw [i0, Res.bind_ok, i1, Res.bind_ok, i2, Res.bind_ok, ev', Res.bind_ok, hp, Res.bind_ok]
    dsimp only
    rw [e1, e2, e3, ra, rb, rc, setAt_mid' _ _ _ _ (by simp; omega), Res.bind_ok, setAt_mid' _ _ _ _ (by simp; omega), Res.bind_ok,
      setAt_mid' _ _ _ _ (by simp; omega)]
  rw [List.append_assoc]
  have hk : ty / 7 = 0 ∨ ty / 7 = 1 ∨ ty / 7 = 2 ∨ ty / 7 = 3 ∨ ty / 7 = 4 ∨ ty / 7 = 5 := by omega
  rw [← List.append_assoc]
  unfold encodeRCT
  rcases hk with hk | hk | hk | hk | hk | hk <;> rw [hk] at core ⊢
  · exact (core o0 o1 o2 h0 h1 h2 0 1 2 (by omega) (by omega) (by omega) rfl _ _ _ rfl rfl rfl).trans (by rw [List.append_assoc]; rfl)
  · exact (core o1 o2 o0 h1 h2 h0 1 2 0 (by omega) (by omega) (by omega) rfl _ _ _ rfl rfl rfl).trans (by rw [List.append_assoc]; rfl)
  · exact (core o2 o0 o1 h2 h0 h1 2 0 1 (by omega) (by omega) (by omega) rfl _ _ _ rfl rfl rfl).trans (by rw [List.append_assoc]; rfl)
  · exact (core o0 o2 o1 h0 h2 h1 0 2 1 (by omega) (by omega) (by omega) rfl _ _ _ rfl rfl rfl).trans (by rw [List.append_assoc]; rfl)
  · exact (core o1 o0 o2 h1 h0 h2 1 0 2 (by omega) (by omega) (by omega) rfl _ _ _ rfl rfl rfl).trans (by rw [List.append_assoc]; rfl)
  · exact (core o2 o1 o0 h2 h1 h0 2 1 0 (by omega) (by omega) (by omega) rfl _ _ _ rfl rfl rfl).trans (by rw [List.append_assoc]; rfl)

/-! ## Squeeze -/

theorem tdiv_bound {a m : Int} (k : Int) (h : -m ≤ a ∧ a ≤ m) (hk : 0 < k) : -m ≤ a.tdiv k ∧ a.tdiv k ≤ m := by
  rcases Int.le_total 0 a with h0 | h0
  · have e := Int.tdiv_eq_ediv_of_nonneg (b := k) h0
    have h1 := Int.ediv_le_self k h0
    have h2 := Int.ediv_nonneg h0 (by omega : 0 ≤ k)
    omega
  · have e : a.tdiv k = - ((-a).tdiv k) := by rw [Int.neg_tdiv]; omega
    have e' := Int.tdiv_eq_ediv_of_nonneg (a := -a) (b := k) (by omega)
    have h1 := Int.ediv_le_self (a := -a) k (by omega)
    have h2 := Int.ediv_nonneg (a := -a) (b := k) (by omega) (by omega)
    omega

theorem tendancy_eq {a b c : Int} (ha : -134217728 ≤ a ∧ a ≤ 134217728) (hb : -134217728 ≤ b ∧ b ≤ 134217728) (hc : -134217728 ≤ c ∧ c ≤ 134217728) :
    tendancy a b c = sqTend a b c := by
  unfold tendancy sqTend
  split
  · dsimp only
    rw [i32_of (x := 4 * a - 3 * c - b + 6) (by omega), i32_of (x := 2 * (a - b)) (by omega), i32_of (x := 2 * (b - c)) (by omega)]
    have hx := tdiv_bound (a := 4 * a - 3 * c - b + 6) (m := 1073741830) 12 (by omega) (by omega)
    generalize (4 * a - 3 * c - b + 6).tdiv 12 = x at hx ⊢
    have hm : 0 ≤ x % 2 ∧ x % 2 < 2 := by omega
    rw [i32_of (x := x - x % 2) (by omega), i32_of (x := 2 * (a - b) + 1) (by omega)]
    generalize hy : (if 2 * (a - b) < x - x % 2 then 2 * (a - b) + 1 else x) = y
    have hy' : -1073741840 ≤ y ∧ y ≤ 1073741840 := by rw [← hy]; split <;> omega
    rw [i32_of (x := y + y % 2) (by omega)]
  · split
    · dsimp only
      rw [i32_of (x := 4 * a - 3 * c - b - 6) (by omega), i32_of (x := 2 * (a - b)) (by omega), i32_of (x := 2 * (b - c)) (by omega)]
      have hx := tdiv_bound (a := 4 * a - 3 * c - b - 6) (m := 1073741830) 12 (by omega) (by omega)
      generalize (4 * a - 3 * c - b - 6).tdiv 12 = x at hx ⊢
      have hm : 0 ≤ x % 2 ∧ x % 2 < 2 := by omega
      rw [i32_of (x := x + x % 2) (by omega), i32_of (x := 2 * (a - b) - 1) (by omega)]
      generalize hy : (if x + x % 2 < 2 * (a - b) then 2 * (a - b) - 1 else x) = y
      have hy' : -1073741840 ≤ y ∧ y ≤ 1073741840 := by rw [← hy]; split <;> omega
      rw [i32_of (x := y - y % 2) (by omega)]
    · rfl

theorem sqAvg_bound {a b m : Int} (ha : -m ≤ a ∧ a ≤ m) (hb : -m ≤ b ∧ b ≤ m) : -m ≤ sqAvg a b ∧ sqAvg a b ≤ m := by
  unfold sqAvg
  split <;> omega

theorem avg1_bound {n : Nat} {f : Nat → Int} {m : Int} (hf : ∀ k, -m ≤ f k ∧ f k ≤ m) (k : Nat) : -m ≤ avg1 n f k ∧ avg1 n f k ≤ m := by
  unfold avg1
  split
  · exact sqAvg_bound (hf _) (hf _)
  · exact hf _

/-- A pair comes back from its average and its difference. -/
theorem pair_undo (a b : Int) : sqAvg a b + (a - b).tdiv 2 = a := by
  unfold sqAvg
  rcases Int.le_total 0 (a - b) with h | h
  · rw [Int.tdiv_eq_ediv_of_nonneg h]
    split <;> omega
  · have e : (a - b).tdiv 2 = - ((b - a).tdiv 2) := by rw [show a - b = -(b - a) by omega, Int.neg_tdiv]
    rw [e, Int.tdiv_eq_ediv_of_nonneg (by omega)]
    split <;> omega

/-- The previous sample and the next average of a pair. -/
def prev1 (n : Nat) (f : Nat → Int) (k : Nat) : Int := if 0 < k then f (2 * k - 1) else avg1 n f k
def next1 (n : Nat) (f : Nat → Int) (k : Nat) : Int := if k + 1 < (n + 1) / 2 then avg1 n f (k + 1) else avg1 n f k

theorem line_undo {n : Nat} {f : Nat → Int} (hf : ∀ k, -134217728 ≤ f k ∧ f k ≤ 134217728) {k : Nat} (hk : 2 * k + 1 < n) :
    let diff := i32 (res1 n f k + tendancy (prev1 n f k) (avg1 n f k) (next1 n f k))
    let first := i32 (avg1 n f k + diff.tdiv 2)
    first = f (2 * k) ∧ i32 (first - diff) = f (2 * k + 1) := by
  dsimp only
  have hp : -134217728 ≤ prev1 n f k ∧ prev1 n f k ≤ 134217728 := by unfold prev1; split; exacts [hf _, avg1_bound hf _]
  have hn : -134217728 ≤ next1 n f k ∧ next1 n f k ≤ 134217728 := by unfold next1; split; exacts [avg1_bound hf _, avg1_bound hf _]
  rw [tendancy_eq hp (avg1_bound hf k) hn]
  have e : res1 n f k + sqTend (prev1 n f k) (avg1 n f k) (next1 n f k) = f (2 * k) - f (2 * k + 1) := by
    unfold res1 prev1 next1
    dsimp only
    omega
  rw [e]
  have h1 := hf (2 * k)
  have h2 := hf (2 * k + 1)
  rw [i32_of (x := f (2 * k) - f (2 * k + 1)) (by omega)]
  have e2 : avg1 n f k = sqAvg (f (2 * k)) (f (2 * k + 1)) := by unfold avg1; rw [if_pos hk]
  rw [e2, pair_undo, i32_of (x := f (2 * k)) (by omega)]
  refine ⟨rfl, ?_⟩
  rw [show f (2 * k) - (f (2 * k) - f (2 * k + 1)) = f (2 * k + 1) by omega, i32_of (by omega)]

theorem Small27.at {b : List (List Int)} (h : Small27 b) (y x : Nat) : -134217728 ≤ Img.ofRows b y x ∧ Img.ofRows b y x ≤ 134217728 := by
  unfold Img.ofRows
  simp only [List.getD_eq_getElem?_getD]
  cases hr : b[y]? with
  | none => simp
  | some r =>
    simp only [Option.getD_some]
    cases hv : r[x]? with
    | none => simp
    | some v => exact h r (List.mem_of_getElem? hr) v (List.mem_of_getElem? hv)

theorem at2_cast {b : List (List Int)} {y x : Int} {j k : Nat} {v : Int} (hj : y = j) (hk : x = k) (h : at2 b (j : Int) (k : Int) = .ok v) : at2 b y x = .ok v := by
  rw [hj, hk]; exact h

theorem set2_cast {b : List (List Int)} {y x : Int} {j k : Nat} {v : Int} {r : Res (List (List Int))} (hj : y = j) (hk : x = k) (h : set2 b (j : Int) (k : Int) v = r) : set2 b y x v = r := by
  rw [hj, hk]; exact h

theorem zeroPlane_rect (h w : Nat) : Rect h w (zeroPlane h w) := by
  unfold Rect zeroPlane
  split
  · rfl
  · exact ⟨by simp, fun r hr => by rw [List.eq_of_mem_replicate hr]; simp⟩

section
variable {h w : Nat} {img : List (List Int)} (hR : Rect h w img) (hS : Small27 img)
include hR hS

omit hR in
theorem hPair_ok {orig res : MChan} (ow : orig.width = (w + 1) / 2)
    (ob : orig.buffer = tab h ((w + 1) / 2) (fun y x => avg1 w (Img.ofRows img y) x)) (rb : res.buffer = tab h (w / 2) (fun y x => res1 w (Img.ofRows img y) x))
    {y x : Nat} (hy : y < h) (hx : x < w / 2) {b : List (List Int)} (hb : Rect h w b) (hbe : 0 < x → Img.ofRows b y (2 * x - 1) = Img.ofRows img y (2 * x - 1)) :
    ∃ b', hPair orig res y x b = .ok b' ∧ Rect h w b' ∧ ∀ j k, Img.ofRows b' j k = if j = y ∧ (k = 2 * x ∨ k = 2 * x + 1) then Img.ofRows img j k else Img.ofRows b j k := by
  have hf : ∀ k, -134217728 ≤ Img.ofRows img y k ∧ Img.ofRows img y k ≤ 134217728 := fun k => hS.at y k
  obtain ⟨l1, l2⟩ := line_undo hf (k := x) (n := w) (by omega)
  have a1 : at2 orig.buffer (y : Int) (x : Int) = .ok (avg1 w (Img.ofRows img y) x) := by
    rw [ob, (tab_rect h ((w + 1) / 2) _).at2 hy (by omega), ofRows_tab hy (by omega)]
  have a2 : at2 res.buffer (y : Int) (x : Int) = .ok (res1 w (Img.ofRows img y) x) := by
    rw [rb, (tab_rect h (w / 2) _).at2 hy hx, ofRows_tab hy hx]
  have a3 : hNext orig y x (avg1 w (Img.ofRows img y) x) = .ok (next1 w (Img.ofRows img y) x) := by
    unfold hNext next1
    rw [ow]
    split
    · rw [ob]
      refine at2_cast rfl (k := x + 1) (by omega) ?_
      rw [(tab_rect h ((w + 1) / 2) _).at2 hy (by omega), ofRows_tab hy (by omega)]
    · rfl
  have a4 : hLeft b y x (avg1 w (Img.ofRows img y) x) = .ok (prev1 w (Img.ofRows img y) x) := by
    unfold hLeft prev1
    split
    · rename_i h0
      refine at2_cast rfl (k := 2 * x - 1) (by omega) ?_
      rw [hb.at2 hy (by omega), hbe h0]
    · rfl
  obtain ⟨b1, s1, s2, s3⟩ := hb.set2 (y := y) (x := 2 * x) hy (by omega) (Img.ofRows img y (2 * x))
  obtain ⟨b2, t1, t2, t3⟩ := s2.set2 (y := y) (x := 2 * x + 1) hy (by omega) (Img.ofRows img y (2 * x + 1))
  refine ⟨b2, ?_, t2, ?_⟩
  · unfold hPair
    rw [a1, Res.bind_ok, a2, Res.bind_ok, a3, Res.bind_ok, a4, Res.bind_ok]
    dsimp only at l1 l2 ⊢
    rw [l2, l1, set2_cast (j := y) (k := 2 * x) rfl (by omega) s1, Res.bind_ok, set2_cast (j := y) (k := 2 * x + 1) rfl (by omega) t1]
  · intro j k
    rw [t3, s3]
    by_cases e1 : j = y ∧ k = 2 * x + 1
    · rw [if_pos e1, if_pos (by omega), e1.1, e1.2]
    · rw [if_neg e1]
      by_cases e2 : j = y ∧ k = 2 * x
      · rw [if_pos e2, if_pos (by omega), e2.1, e2.2]
      · rw [if_neg e2, if_neg (by omega)]

theorem hLast_ok {orig res : MChan} (ow : orig.width = (w + 1) / 2) (rw' : res.width = w / 2)
    (ob : orig.buffer = tab h ((w + 1) / 2) (fun y x => avg1 w (Img.ofRows img y) x))
    {b : List (List Int)} (hb : Rect h w b) (hbe : ∀ j k, j < h → k < 2 * (w / 2) → Img.ofRows b j k = Img.ofRows img j k) :
    hLast orig res h b = .ok img := by
  unfold hLast
  rw [ow, rw']
  split
  · rename_i hlt
    have hw : w = 2 * (w / 2) + 1 := by omega
    have key := forFrom_inv (f := fun y b => (do
        let v ← at2 orig.buffer y (w / 2 : Nat)
        set2 b y (2 * ((w / 2 : Nat) : Int)) v : Res (List (List Int))))
      (fun y b => Rect h w b ∧ (∀ j k, j < h → k < 2 * (w / 2) → Img.ofRows b j k = Img.ofRows img j k) ∧ ∀ j, j < y → Img.ofRows b j (2 * (w / 2)) = Img.ofRows img j (2 * (w / 2)))
      h 0 b ⟨hb, hbe, fun j hj => by omega⟩ ?_
    · obtain ⟨b', e, r1, r2, r3⟩ := key
      rw [e]
      congr 1
      refine rect_ext r1 hR (fun j k hj hk => ?_)
      by_cases h2 : k < 2 * (w / 2)
      · exact r2 j k hj h2
      · rw [show k = 2 * (w / 2) by omega]; exact r3 j (by omega)
    · intro y s _ hy ⟨r1, r2, r3⟩
      have a1 : at2 orig.buffer (y : Int) ((w / 2 : Nat) : Int) = .ok (Img.ofRows img y (2 * (w / 2))) := by
        rw [ob, (tab_rect h ((w + 1) / 2) _).at2 (by omega) (by omega), ofRows_tab (by omega) (by omega)]
        unfold avg1
        rw [if_neg (by omega)]
      obtain ⟨b1, s1, s2, s3⟩ := r1.set2 (y := y) (x := 2 * (w / 2)) (by omega) (by omega) (Img.ofRows img y (2 * (w / 2)))
      refine ⟨b1, ?_, s2, ?_, ?_⟩
      · rw [a1, Res.bind_ok, set2_cast (j := y) (k := 2 * (w / 2)) rfl (by omega) s1]
      · intro j k hj hk
        rw [s3, if_neg (by omega)]; exact r2 j k hj hk
      · intro j hj
        rw [s3]
        split
        · rename_i hjk; rw [hjk.1]
        · exact r3 j (by omega)
  · congr 1
    exact rect_ext hb hR (fun j k hj hk => hbe j k hj (by omega))

theorem inverseH_ok {channel orig res : MChan} (cw : channel.width = w) (ch : channel.height = h) (cb : channel.buffer = [])
    (ow : orig.width = (w + 1) / 2) (oh : orig.height = h) (rw' : res.width = w / 2) (rh : res.height = h)
    (ob : orig.buffer = tab h ((w + 1) / 2) (fun y x => avg1 w (Img.ofRows img y) x)) (rb : res.buffer = tab h (w / 2) (fun y x => res1 w (Img.ofRows img y) x)) :
    inverseHorizontalSqueeze channel orig res = .ok { channel with buffer := img } := by
  unfold inverseHorizontalSqueeze
  rw [if_neg (by rw [cw, ch, ow, oh, rw', rh]; omega)]
  have ha : channel.allocate = { channel with buffer := zeroPlane h w } := by
    unfold MChan.allocate
    rw [cb, if_neg (by simp), ch, cw]
  rw [ha]
  dsimp only
  rw [ch, rw']
  have key := fill_loop (f := fun y x b => hPair orig res y x b)
    (fun y x b => Rect h w b ∧ ∀ j k, j < h → k < 2 * (w / 2) → (j < y ∨ (j = y ∧ k < 2 * x)) → Img.ofRows b j k = Img.ofRows img j k)
    h (w / 2) (zeroPlane h w) ⟨zeroPlane_rect h w, fun j k _ _ hlt => by omega⟩ ?_ ?_
  · obtain ⟨b, e, r1, r2⟩ := key
    rw [e, Res.bind_ok, hLast_ok hR hS ow rw' ob r1 (fun j k hj hk => r2 j k hj hk (by omega)), Res.bind_ok]
  · intro y x b hy hx ⟨r1, r2⟩
    obtain ⟨b', e, t1, t2⟩ := hPair_ok hS ow ob rb hy hx r1 (fun h0 => r2 y (2 * x - 1) hy (by omega) (by omega))
    refine ⟨b', e, t1, ?_⟩
    intro j k hj hk hlt
    rw [t2]
    split
    · rfl
    · exact r2 j k hj hk (by omega)
  · intro y b hy ⟨r1, r2⟩
    exact ⟨r1, fun j k hj hk hlt => r2 j k hj hk (by omega)⟩

omit hR in
theorem vPair_ok {orig res : MChan} (oh : orig.height = (h + 1) / 2)
    (ob : orig.buffer = tab ((h + 1) / 2) w (fun y x => avg1 h (fun j => Img.ofRows img j x) y)) (rb : res.buffer = tab (h / 2) w (fun y x => res1 h (fun j => Img.ofRows img j x) y))
    {y x : Nat} (hy : y < h / 2) (hx : x < w) {b : List (List Int)} (hb : Rect h w b) (hbe : 0 < y → Img.ofRows b (2 * y - 1) x = Img.ofRows img (2 * y - 1) x) :
    ∃ b', vPair orig res y x b = .ok b' ∧ Rect h w b' ∧ ∀ j k, Img.ofRows b' j k = if k = x ∧ (j = 2 * y ∨ j = 2 * y + 1) then Img.ofRows img j k else Img.ofRows b j k := by
  have hf : ∀ k, -134217728 ≤ (fun j => Img.ofRows img j x) k ∧ (fun j => Img.ofRows img j x) k ≤ 134217728 := fun k => hS.at k x
  obtain ⟨l1, l2⟩ := line_undo hf (k := y) (n := h) (by omega)
  have a1 : at2 orig.buffer (y : Int) (x : Int) = .ok (avg1 h (fun j => Img.ofRows img j x) y) := by
    rw [ob, (tab_rect ((h + 1) / 2) w _).at2 (by omega) hx, ofRows_tab (by omega) hx]
  have a2 : at2 res.buffer (y : Int) (x : Int) = .ok (res1 h (fun j => Img.ofRows img j x) y) := by
    rw [rb, (tab_rect (h / 2) w _).at2 hy hx, ofRows_tab hy hx]
  have a3 : vNext orig y x (avg1 h (fun j => Img.ofRows img j x) y) = .ok (next1 h (fun j => Img.ofRows img j x) y) := by
    unfold vNext next1
    rw [oh]
    split
    · rw [ob]
      refine at2_cast (j := y + 1) (by omega) rfl ?_
      rw [(tab_rect ((h + 1) / 2) w _).at2 (by omega) hx, ofRows_tab (by omega) hx]
    · rfl
  have a4 : vTop b y x (avg1 h (fun j => Img.ofRows img j x) y) = .ok (prev1 h (fun j => Img.ofRows img j x) y) := by
    unfold vTop prev1
    split
    · rename_i h0
      refine at2_cast (j := 2 * y - 1) (by omega) rfl ?_
      rw [hb.at2 (by omega) hx, hbe h0]
    · rfl
  obtain ⟨b1, s1, s2, s3⟩ := hb.set2 (y := 2 * y) (x := x) (by omega) hx (Img.ofRows img (2 * y) x)
  obtain ⟨b2, t1, t2, t3⟩ := s2.set2 (y := 2 * y + 1) (x := x) (by omega) hx (Img.ofRows img (2 * y + 1) x)
  refine ⟨b2, ?_, t2, ?_⟩
  · unfold vPair
    rw [a1, Res.bind_ok, a2, Res.bind_ok, a3, Res.bind_ok, a4, Res.bind_ok]
    dsimp only at l1 l2 ⊢
    rw [l2, l1, set2_cast (j := 2 * y) (k := x) (by omega) rfl s1, Res.bind_ok, set2_cast (j := 2 * y + 1) (k := x) (by omega) rfl t1]
  · intro j k
    rw [t3, s3]
    by_cases e1 : j = 2 * y + 1 ∧ k = x
    · rw [if_pos e1, if_pos (by omega), e1.1, e1.2]
    · rw [if_neg e1]
      by_cases e2 : j = 2 * y ∧ k = x
      · rw [if_pos e2, if_pos (by omega), e2.1, e2.2]
      · rw [if_neg e2, if_neg (by omega)]

theorem vLast_ok {orig res : MChan} (oh : orig.height = (h + 1) / 2) (rh : res.height = h / 2)
    (ob : orig.buffer = tab ((h + 1) / 2) w (fun y x => avg1 h (fun j => Img.ofRows img j x) y)) (hw : 0 < w ∨ h % 2 = 0)
    {b : List (List Int)} (hb : Rect h w b) (hbe : ∀ j k, j < 2 * (h / 2) → k < w → Img.ofRows b j k = Img.ofRows img j k) :
    vLast orig res b = .ok img := by
  unfold vLast
  rw [oh, rh]
  split
  · rename_i hlt
    have hh : h = 2 * (h / 2) + 1 := by omega
    obtain ⟨q1, q2⟩ := (tab_rect ((h + 1) / 2) w (fun y x => avg1 h (fun j => Img.ofRows img j x) y)).shape (by omega) (by omega)
    obtain ⟨row, hrow⟩ : ∃ row, orig.buffer[h / 2]? = some row := ⟨_, List.getElem?_eq_getElem (by rw [ob, q1]; omega)⟩
    have hlen : row.length = w := q2 row (by rw [← ob]; exact List.mem_of_getElem? hrow)
    rw [idx_of_getElem? _ _ _ hrow, Res.bind_ok, hlen]
    have key := forFrom_inv (f := fun x b => (do
        let v ← at2 orig.buffer (h / 2 : Nat) x
        set2 b (2 * ((h / 2 : Nat) : Int)) x v : Res (List (List Int))))
      (fun x b => Rect h w b ∧ (∀ j k, j < 2 * (h / 2) → k < w → Img.ofRows b j k = Img.ofRows img j k) ∧ ∀ k, k < x → Img.ofRows b (2 * (h / 2)) k = Img.ofRows img (2 * (h / 2)) k)
      w 0 b ⟨hb, hbe, fun j hj => by omega⟩ ?_
    · obtain ⟨b', e, r1, r2, r3⟩ := key
      rw [e]
      congr 1
      refine rect_ext r1 hR (fun j k hj hk => ?_)
      by_cases h2 : j < 2 * (h / 2)
      · exact r2 j k h2 hk
      · rw [show j = 2 * (h / 2) by omega]; exact r3 k (by omega)
    · intro x s _ hx ⟨r1, r2, r3⟩
      have a1 : at2 orig.buffer ((h / 2 : Nat) : Int) (x : Int) = .ok (Img.ofRows img (2 * (h / 2)) x) := by
        rw [ob, (tab_rect ((h + 1) / 2) w _).at2 (by omega) (by omega), ofRows_tab (by omega) (by omega)]
        unfold avg1
        rw [if_neg (by omega)]
      obtain ⟨b1, s1, s2, s3⟩ := r1.set2 (y := 2 * (h / 2)) (x := x) (by omega) (by omega) (Img.ofRows img (2 * (h / 2)) x)
      refine ⟨b1, ?_, s2, ?_, ?_⟩
      · rw [a1, Res.bind_ok, set2_cast (j := 2 * (h / 2)) (k := x) (by omega) rfl s1]
      · intro j k hj hk
        rw [s3, if_neg (by omega)]; exact r2 j k hj hk
      · intro k hk
        rw [s3]
        split
        · rename_i hjk; rw [hjk.2]
        · exact r3 k (by omega)
  · congr 1
    exact rect_ext hb hR (fun j k hj hk => hbe j k (by omega) hk)

theorem inverseV_ok {channel orig res : MChan} (hw : 0 < w ∨ h % 2 = 0) (cw : channel.width = w) (ch : channel.height = h) (cb : channel.buffer = [])
    (ow : orig.width = w) (oh : orig.height = (h + 1) / 2) (rw' : res.width = w) (rh : res.height = h / 2)
    (ob : orig.buffer = tab ((h + 1) / 2) w (fun y x => avg1 h (fun j => Img.ofRows img j x) y)) (rb : res.buffer = tab (h / 2) w (fun y x => res1 h (fun j => Img.ofRows img j x) y)) :
    inverseVerticalSqueeze channel orig res = .ok { channel with buffer := img } := by
  unfold inverseVerticalSqueeze
  rw [if_neg (by rw [cw, ch, ow, oh, rw', rh]; omega)]
  have ha : channel.allocate = { channel with buffer := zeroPlane h w } := by
    unfold MChan.allocate
    rw [cb, if_neg (by simp), ch, cw]
  rw [ha]
  dsimp only
  rw [cw, rh]
  have key := fill_loop (f := fun y x b => vPair orig res y x b)
    (fun y x b => Rect h w b ∧ ∀ j k, j < 2 * (h / 2) → k < w → (j < 2 * y ∨ (j < 2 * y + 2 ∧ k < x)) → Img.ofRows b j k = Img.ofRows img j k)
    (h / 2) w (zeroPlane h w) ⟨zeroPlane_rect h w, fun j k _ _ hlt => by omega⟩ ?_ ?_
  · obtain ⟨b, e, r1, r2⟩ := key
    rw [e, Res.bind_ok, vLast_ok hR hS oh rh ob hw r1 (fun j k hj hk => r2 j k hj hk (by omega)), Res.bind_ok]
  · intro y x b hy hx ⟨r1, r2⟩
    obtain ⟨b', e, t1, t2⟩ := vPair_ok hS oh ob rb hy hx r1 (fun h0 => r2 (2 * y - 1) x (by omega) hx (by omega))
    refine ⟨b', e, t1, ?_⟩
    intro j k hj hk hlt
    rw [t2]
    split
    · rfl
    · exact r2 j k hj hk (by omega)
  · intro y b hy ⟨r1, r2⟩
    exact ⟨r1, fun j k hj hk hlt => r2 j k hj hk (by omega)⟩

end

/-- Undoing the squeeze of a channel. -/
theorem unsqueeze_ok {c : MChan} (hc : c.Squeezable) {horizontal : Bool} (hf : horizontal = true ∨ 0 < c.width ∨ c.height % 2 = 0) :
    unsqueeze horizontal (squeeze1 horizontal c).1 (squeeze1 horizontal c).2 = .ok c := by
  obtain ⟨h1, h2, h3, h4⟩ := hc
  unfold unsqueeze squeeze1
  cases horizontal with
  | true =>
    simp only [if_true]
    rw [inverseH_ok (channel := MChan.new (squeezeH c).1.height ((squeezeH c).1.width + (squeezeH c).2.width) (squeezeH c).1.vshift ((squeezeH c).1.hshift - 1) false) (orig := (squeezeH c).1) (res := (squeezeH c).2) h1 h2 (by show (c.width + 1) / 2 + c.width / 2 = c.width; omega) rfl rfl rfl rfl rfl rfl rfl rfl]
    congr 1
    rcases c with ⟨⟨w, h, hs, vs, f, b⟩, p⟩
    dsimp only at h3 h4
    subst h3 h4
    unfold MChan.new squeezeH
    dsimp only
    rw [show (w + 1) / 2 + w / 2 = w by omega, show hs + 1 - 1 = hs by omega]
  | false =>
    simp only [Bool.false_eq_true, if_false]
    rw [inverseV_ok (channel := MChan.new ((squeezeV c).1.height + (squeezeV c).2.height) (squeezeV c).1.width ((squeezeV c).1.vshift - 1) (squeezeV c).1.hshift false) (orig := (squeezeV c).1) (res := (squeezeV c).2) h1 h2 (by simpa using hf) rfl (by show (c.height + 1) / 2 + c.height / 2 = c.height; omega) rfl rfl rfl rfl rfl rfl rfl]
    congr 1
    rcases c with ⟨⟨w, h, hs, vs, f, b⟩, p⟩
    dsimp only at h3 h4
    subst h3 h4
    unfold MChan.new squeezeV
    dsimp only
    rw [show (h + 1) / 2 + h / 2 = h by omega, show vs + 1 - 1 = vs by omega]

theorem undo_channels {sp : SqueezeParam} {off : Int} (pre t1 t2 : List MChan) (hb : sp.beginC = pre.length) : ∀ (todo done dres : List MChan),
    dres.length = done.length → off = ((pre.length + (done.length + todo.length) + t1.length : Nat) : Int) → (∀ c ∈ todo, c.Squeezable ∧ sp.fits c) →
    undoSqueezeChannels sp off todo.length (pre.length + done.length)
      (pre ++ done ++ todo.map (fun c => (squeeze1 sp.horizontal c).1) ++ t1 ++ dres ++ todo.map (fun c => (squeeze1 sp.horizontal c).2) ++ t2) =
      .ok (pre ++ done ++ todo ++ t1 ++ dres ++ todo.map (fun c => (squeeze1 sp.horizontal c).2) ++ t2)
  | [], done, dres, hl, ho, hc => rfl
  | c :: todo, done, dres, hl, ho, hc => by
    obtain ⟨c1, c2⟩ := hc c (by simp)
    have hu := unsqueeze_ok c1 c2
    have ih := undo_channels (off := off) pre t1 t2 hb todo (done ++ [c]) (dres ++ [(squeeze1 sp.horizontal c).2]) (by simp [hl]) (by rw [ho]; simp; omega) (fun d hd => hc d (by simp [hd]))
    unfold undoSqueezeChannels at ih ⊢
    rw [List.length_cons, forFrom]
    have g1 : idx (pre ++ done ++ (c :: todo).map (fun c => (squeeze1 sp.horizontal c).1) ++ t1 ++ dres ++ (c :: todo).map (fun c => (squeeze1 sp.horizontal c).2) ++ t2)
        ((pre.length + done.length : Nat) : Int) = .ok (squeeze1 sp.horizontal c).1 := by
      apply idx_of_getElem?
      simp only [List.append_assoc]
      rw [List.getElem?_append_right (by omega), List.getElem?_append_right (by omega), show pre.length + done.length - pre.length - done.length = 0 by omega]
      rfl
    have g2 : idx (pre ++ done ++ (c :: todo).map (fun c => (squeeze1 sp.horizontal c).1) ++ t1 ++ dres ++ (c :: todo).map (fun c => (squeeze1 sp.horizontal c).2) ++ t2)
        (off + ((pre.length + done.length : Nat) : Int) - (sp.beginC : Int)) = .ok (squeeze1 sp.horizontal c).2 := by
      have e : off + ((pre.length + done.length : Nat) : Int) - (sp.beginC : Int) = ((pre.length + done.length + (c :: todo).length + t1.length + dres.length : Nat) : Int) := by
        rw [ho, hb, hl]; simp only [List.length_cons]; omega
      rw [e]
      apply idx_of_getElem?
      rw [List.append_assoc, List.getElem?_append_right (by simp; omega)]
      simp only [List.length_append, List.length_map]
      rw [Nat.sub_self]
      rfl
    rw [g1, Res.bind_ok, g2, Res.bind_ok, hu, Res.bind_ok]
    have g3 : setAt (pre ++ done ++ (c :: todo).map (fun c => (squeeze1 sp.horizontal c).1) ++ t1 ++ dres ++ (c :: todo).map (fun c => (squeeze1 sp.horizontal c).2) ++ t2)
        ((pre.length + done.length : Nat) : Int) c = .ok (pre ++ (done ++ [c]) ++ todo.map (fun c => (squeeze1 sp.horizontal c).1) ++ t1 ++
          (dres ++ [(squeeze1 sp.horizontal c).2]) ++ todo.map (fun c => (squeeze1 sp.horizontal c).2) ++ t2) := by
      rw [setAt_ok (by simp only [List.length_append, List.length_map, List.length_cons]; omega)]
      congr 1
      simp only [List.append_assoc]
      rw [List.set_append_right _ _ (by omega), List.set_append_right _ _ (by omega), show pre.length + done.length - pre.length - done.length = 0 by omega]
      simp
    rw [g3, Res.bind_ok]
    rw [show pre.length + (done ++ [c]).length = pre.length + done.length + 1 by simp; omega] at ih
    rw [ih]
    simp

theorem remove_all (L t : List MChan) : ∀ (R : List MChan) (i : Nat), forFrom (fun _ chs => removeAt chs (L.length : Int)) R.length i (L ++ R ++ t) = .ok (L ++ t)
  | [], i => by simp [forFrom]
  | r :: R, i => by
    rw [List.length_cons, forFrom]
    have e : removeAt (L ++ r :: R ++ t) (L.length : Int) = .ok (L ++ R ++ t) := by
      unfold removeAt
      rw [if_neg (by simp only [List.length_append, List.length_cons]; omega)]
      simp
    rw [e, Res.bind_ok]
    exact remove_all L t R (i + 1)

theorem undoSqueezeStep_ok {sp : SqueezeParam} {chs : List MChan} (hl : sp.beginC + sp.numC ≤ chs.length)
    (hc : ∀ c ∈ (chs.drop sp.beginC).take sp.numC, c.Squeezable ∧ sp.fits c) : undoSqueezeStep sp (squeezeStep sp chs) = .ok chs := by
  obtain ⟨pre, sel, rest, e, h1, h2⟩ : ∃ pre sel rest, chs = pre ++ sel ++ rest ∧ pre.length = sp.beginC ∧ sel.length = sp.numC := by
    refine ⟨chs.take sp.beginC, (chs.drop sp.beginC).take sp.numC, chs.drop (sp.beginC + sp.numC), ?_, ?_, ?_⟩
    · rw [← List.drop_drop, List.append_assoc, List.take_append_drop, List.take_append_drop]
    · rw [List.length_take]; omega
    · rw [List.length_take, List.length_drop]; omega
  subst e
  have e1 : ((pre ++ sel ++ rest).drop sp.beginC).take sp.numC = sel := by
    rw [← h1, ← h2, List.append_assoc, List.drop_left, List.take_left]
  have e2 : (pre ++ sel ++ rest).drop (sp.beginC + sp.numC) = rest := by
    rw [← h1, ← h2, ← List.length_append, List.drop_left]
  have e3 : (pre ++ sel ++ rest).take sp.beginC = pre := by
    rw [← h1, List.append_assoc, List.take_left]
  rw [e1] at hc
  unfold squeezeStep
  dsimp only
  rw [e1, e2, e3]
  cases hp : sp.inPlace with
  | true =>
    simp only [if_true]
    have u := undo_channels (off := ((sp.beginC : Int) + sp.numC)) pre [] rest h1.symm sel [] [] rfl (by simp; omega) hc
    simp only [List.append_nil, List.length_nil, Nat.add_zero] at u
    unfold undoSqueezeStep squeezeOffset
    rw [hp]
    simp only [if_true]
    rw [← h2, ← h1] at u ⊢
    rw [u, Res.bind_ok]
    have r := remove_all (pre ++ sel) rest (sel.map (fun c => (squeeze1 sp.horizontal c).2)) 0
    rw [List.length_map, show (((pre ++ sel).length : Nat) : Int) = (pre.length : Int) + sel.length by simp] at r
    exact r
  | false =>
    simp only [Bool.false_eq_true, if_false]
    have u := undo_channels (off := ((pre.length + sel.length + rest.length : Nat) : Int)) pre rest [] h1.symm sel [] [] rfl (by simp) hc
    simp only [List.append_nil, List.length_nil, Nat.add_zero] at u
    unfold undoSqueezeStep squeezeOffset
    rw [hp]
    simp only [Bool.false_eq_true, if_false]
    rw [show ((pre ++ sel.map (fun c => (squeeze1 sp.horizontal c).1) ++ rest ++ sel.map (fun c => (squeeze1 sp.horizontal c).2)).length : Int) - (sp.numC : Int) =
      ((pre.length + sel.length + rest.length : Nat) : Int) by simp only [List.length_append, List.length_map]; omega]
    rw [← h2, ← h1]
    rw [u, Res.bind_ok]
    have r := remove_all (pre ++ sel ++ rest) [] (sel.map (fun c => (squeeze1 sp.horizontal c).2)) 0
    rw [List.length_map, List.append_nil, List.append_nil, show (((pre ++ sel ++ rest).length : Nat) : Int) = ((pre.length + sel.length + rest.length : Nat) : Int) by
      simp only [List.length_append]] at r
    exact r

theorem undoSqueeze_ok : ∀ (sps : List SqueezeParam) (chs : List MChan), StepsOK sps chs → undoSqueeze sps (squeezeAll sps chs) = .ok chs
  | [], chs, _ => rfl
  | sp :: sps, chs, h => by
    obtain ⟨h1, h2, h3⟩ := h
    rw [squeezeAll, undoSqueeze, undoSqueeze_ok sps _ h3, Res.bind_ok, undoSqueezeStep_ok h1 h2]

/-! ## Palette -/

theorem kDelta_table : deltaTable = kDeltaPalette := by decide

theorem kDelta_rect : Rect 72 3 kDeltaPalette := by
  unfold Rect
  rw [if_neg (by decide)]
  exact ⟨by decide, by decide⟩

theorem kDelta_small : ∀ r ∈ kDeltaPalette, ∀ v ∈ r, -144 ≤ v ∧ v ≤ 144 := by decide

theorem kDelta_at (y x : Nat) : -144 ≤ Img.ofRows kDeltaPalette y x ∧ Img.ofRows kDeltaPalette y x ≤ 144 := by
  unfold Img.ofRows
  simp only [List.getD_eq_getElem?_getD]
  cases hr : kDeltaPalette[y]? with
  | none => simp
  | some r =>
    simp only [Option.getD_some]
    cases hv : r[x]? with
    | none => simp
    | some v => exact kDelta_small r (List.mem_of_getElem? hr) v (List.mem_of_getElem? hv)

theorem deltaEntry_eq {bitDepth c : Nat} (hc : c < 3) {index : Int} (h0 : index < 0) (h1 : -2147483648 ≤ index) :
    deltaEntry bitDepth c index = .ok (deltaColour bitDepth c index) := by
  unfold deltaEntry deltaColour
  have e1 : i32 (i32 (-index) - 1) = -index - 1 := by unfold i32; omega
  dsimp only
  rw [e1, Int.tmod_eq_emod_of_nonneg (by omega)]
  have hk : 0 ≤ (-index - 1) % 143 ∧ (-index - 1) % 143 < 143 := by omega
  generalize (-index - 1) % 143 = k at hk ⊢
  obtain ⟨n, rfl⟩ := Int.eq_ofNat_of_zero_le hk.1
  rw [i32_of (x := (n : Int) + 1) (by omega)]
  have e2 : sar ((n : Int) + 1) 1 = (((n + 1) / 2 : Nat) : Int) := by unfold sar; omega
  have e3 : (((n : Int) + 1) / 2).toNat = (n + 1) / 2 := by omega
  rw [e2, e3, kDelta_rect.at2 (by omega) hc, Res.bind_ok]
  have hb := kDelta_at ((n + 1) / 2) c
  rw [kDelta_table]
  generalize Img.ofRows kDeltaPalette ((n + 1) / 2) c = e at hb ⊢
  rw [i32_of (x := -e) (by omega)]
  congr 1
  have hv : -144 ≤ (if (n : Int) % 2 = 0 then -e else e) ∧ (if (n : Int) % 2 = 0 then -e else e) ≤ 144 := by split <;> omega
  generalize (if (n : Int) % 2 = 0 then -e else e) = v at hv ⊢
  split
  · have hp : (2 : Int) ^ (min bitDepth 24 - 8) ≤ 2 ^ 16 := by
      have : (2 : Nat) ^ (min bitDepth 24 - 8) ≤ 2 ^ 16 := Nat.pow_le_pow_right (by omega) (by omega)
      exact_mod_cast this
    have hp0 : (0 : Int) < 2 ^ (min bitDepth 24 - 8) := Int.pow_pos (by omega)
    generalize (2 : Int) ^ (min bitDepth 24 - 8) = q at hp hp0 ⊢
    apply i32_of
    constructor <;> nlinarith
  · omega

theorem divide5_eq (c : Nat) : ∀ n : Int, 0 ≤ n → divide5 c n = n / 5 ^ c := by
  induction c with
  | zero => intro n _; rw [divide5, Int.pow_zero, Int.ediv_one]
  | succ c ih =>
    intro n hn
    rw [divide5, Int.tdiv_eq_ediv_of_nonneg hn, ih _ (by omega), Int.ediv_ediv_of_nonneg (by omega), Int.pow_succ, Int.mul_comm]

theorem cubeOffset_eq {bitDepth : Nat} (h3 : 3 ≤ bitDepth) (h29 : bitDepth ≤ 29) : cubeOffset bitDepth = 2 ^ (bitDepth - 3) := by
  unfold cubeOffset
  rw [show (bitDepth + 4294967296 - 3) % 4294967296 = bitDepth - 3 by omega, if_pos (by omega)]
  apply i32_of
  have h1 : (2 : Nat) ^ (bitDepth - 3) ≤ 2 ^ 26 := Nat.pow_le_pow_right (by omega) (by omega)
  have h2 : (2 : Int) ^ (bitDepth - 3) ≤ 2 ^ 26 := by exact_mod_cast h1
  have h3 : (0 : Int) < 2 ^ (bitDepth - 3) := Int.pow_pos (by omega)
  omega

theorem paletteValue_eq {c0 : List (List Int)} {numC nb bitDepth c : Nat} (hR : Rect numC nb c0) (hc : c < numC) (h3 : 3 ≤ bitDepth) (h29 : bitDepth ≤ 29)
    {index : Int} (hi : -2147483648 ≤ index) :
    paletteValue c0 nb bitDepth c index = .ok (paletteColour (Img.ofRows c0) nb bitDepth c index) := by
  unfold paletteValue paletteColour
  by_cases h0 : index < 0
  · rw [if_neg (by omega), if_neg (by omega), if_pos h0]
    split
    · rename_i h; exact deltaEntry_eq h h0 hi
    · rfl
  · rw [if_neg h0]
    by_cases h1 : index < nb
    · rw [if_pos (by omega), if_pos h1]
      exact at2_cast (j := c) (k := index.toNat) rfl (by omega) (hR.at2 hc (by omega))
    · rw [if_neg (by omega), if_pos (by omega), if_neg h1]
      have hp : (2 : Int) ^ bitDepth ≤ 2 ^ 29 := by
        have : (2 : Nat) ^ bitDepth ≤ 2 ^ 29 := Nat.pow_le_pow_right (by omega) h29
        exact_mod_cast this
      have hp0 : (0 : Int) < 2 ^ bitDepth := Int.pow_pos (by omega)
      rw [i32_of (x := 2 ^ bitDepth) (by omega), cubeOffset_eq h3 h29]
      have hq : (2 : Int) ^ (bitDepth - 3) ≤ 2 ^ 26 := by
        have : (2 : Nat) ^ (bitDepth - 3) ≤ 2 ^ 26 := Nat.pow_le_pow_right (by omega) (by omega)
        exact_mod_cast this
      have hq0 : (0 : Int) < 2 ^ (bitDepth - 3) := Int.pow_pos (by omega)
      generalize (2 : Int) ^ bitDepth = p at hp hp0 ⊢
      generalize (2 : Int) ^ (bitDepth - 3) = q at hq hq0 ⊢
      split
      · rename_i h64
        have e : sar (index - nb) (2 * c) = (index - nb) / 4 ^ c := by
          unfold sar; rw [show (2 : Int) ^ (2 * c) = 4 ^ c by rw [Int.pow_mul]; norm_num]
        have hnn : 0 ≤ (index - nb) / 4 ^ c := Int.ediv_nonneg (by omega) (by positivity)
        rw [e, Int.tmod_eq_emod_of_nonneg hnn]
        have hm : 0 ≤ (index - nb) / 4 ^ c % 4 ∧ (index - nb) / 4 ^ c % 4 < 4 := by
          generalize (index - nb) / 4 ^ c = z; omega
        generalize (index - nb) / 4 ^ c % 4 = m at hm ⊢
        have hb : 0 ≤ m * (p - 1) ∧ m * (p - 1) ≤ 3 * (2 ^ 29 - 1) := ⟨Int.mul_nonneg (by omega) (by omega), by nlinarith⟩
        rw [i32_of (x := m * (p - 1)) (by omega), Int.tdiv_eq_ediv_of_nonneg hb.1, i32_of (by omega)]
      · rename_i h64
        rw [divide5_eq c _ (by omega)]
        have hnn : 0 ≤ (index - nb - 64) / 5 ^ c := Int.ediv_nonneg (by omega) (by positivity)
        rw [Int.tmod_eq_emod_of_nonneg hnn]
        have hm : 0 ≤ (index - nb - 64) / 5 ^ c % 5 ∧ (index - nb - 64) / 5 ^ c % 5 < 5 := by
          generalize (index - nb - 64) / 5 ^ c = z; omega
        generalize (index - nb - 64) / 5 ^ c % 5 = m at hm ⊢
        have hb : 0 ≤ m * (p - 1) ∧ m * (p - 1) ≤ 4 * (2 ^ 29 - 1) := ⟨Int.mul_nonneg (by omega) (by omega), by nlinarith⟩
        rw [i32_of (x := m * (p - 1)) (by omega), Int.tdiv_eq_ediv_of_nonneg hb.1]

/-- What is needed to expand a palette: the palette channel, and the bit depth. -/
structure PaletteOK (t : TransformInfo) (pal : List (List Int)) (bitDepth : Nat) : Prop where
  pal : Rect t.numC t.nbColours pal
  depth : 3 ≤ bitDepth ∧ bitDepth ≤ 29
  pred : t.dPred ≤ 13 ∧ t.dPred ≠ 6

theorem paletteChannel_ok {t : TransformInfo} {pal : List (List Int)} {bitDepth h w c : Nat} (hP : PaletteOK t pal bitDepth) (hc : c < t.numC) {ch : MChan}
    (hw : ch.width = w) (hb : Rect h w ch.buffer) (h32 : Is32 ch.buffer) {out : List (List Int)} (ho : Rect h w out) (hob : (Img.ofRows out).Bounded)
    (he : IsExpansion t (Img.ofRows pal) bitDepth h w c (Img.ofRows ch.buffer) (Img.ofRows out)) :
    paletteChannel t pal bitDepth h w c ch = .ok { ch with buffer := out } := by
  unfold paletteChannel
  have key := fill_loop (f := fun y x b => paletteSample t pal bitDepth c ch y x b)
    (fun y x b => Rect h w b ∧ (∀ j k, j < h → k < w → (j < y ∨ (j = y ∧ k < x)) → Img.ofRows b j k = Img.ofRows out j k) ∧
      (∀ j k, j < h → k < w → ¬ (j < y ∨ (j = y ∧ k < x)) → Img.ofRows b j k = Img.ofRows ch.buffer j k))
    h w ch.buffer ⟨hb, fun j k _ _ hlt => by omega, fun j k _ _ _ => rfl⟩ ?_ ?_
  · obtain ⟨b, e, r1, r2, -⟩ := key
    rw [e, Res.bind_ok, rect_ext r1 ho (fun j k hj hk => r2 j k hj hk (by omega))]
  · intro y x b hy hx ⟨r1, r2, r3⟩
    have hix := h32.at y x
    have hv := paletteValue_eq hP.pal hc hP.depth.1 hP.depth.2 hix.1
    have heq := he y x hy hx
    obtain ⟨b1, s1, s2, s3⟩ := r1.set2 hy hx (paletteColour (Img.ofRows pal) t.nbColours bitDepth c (Img.ofRows ch.buffer y x))
    have a1 : at2 b (y : Int) (x : Int) = .ok (Img.ofRows ch.buffer y x) := by rw [r1.at2 hy hx, r3 y x hy hx (by omega)]
    have hfin : ∃ b2, addDelta (decide (Img.ofRows ch.buffer y x < t.nbDeltas)) ch t.dPred y x b1 = .ok b2 ∧ Rect h w b2 ∧
        ∀ j k, Img.ofRows b2 j k = if j = y ∧ k = x then Img.ofRows out y x else Img.ofRows b j k := by
      unfold addDelta
      by_cases hd : Img.ofRows ch.buffer y x < t.nbDeltas
      · rw [if_pos (by simpa using hd)]
        rw [if_pos hd] at heq
        obtain ⟨q1, q2⟩ := s2.shape (by omega) (by omega)
        have hA : Agree h w b1 (Img.ofRows out) y x := ⟨q1, q2, fun j k hlt hk hj => by rw [s3, if_neg (by omega)]; exact r2 j k hj hk hlt⟩
        have hp := hA.prediction hy hx hob ch.pred 0 (t.dPred : Int) (by omega) (by have := hP.pred.1; omega) (by have := hP.pred.2; omega)
        rw [Int.toNat_natCast] at hp
        obtain ⟨b2, t1, t2, t3⟩ := s2.set2 hy hx (Img.ofRows out y x)
        refine ⟨b2, ?_, t2, ?_⟩
        · have ho := hob y x
          rw [hw, hp, Res.bind_ok, s2.at2 hy hx, Res.bind_ok, s3, if_pos ⟨rfl, rfl⟩, ← heq, i32_of (by omega), t1]
        · intro j k
          rw [t3, s3]
          split <;> rfl
      · rw [if_neg (by simpa using hd)]
        rw [if_neg hd, Int.add_zero] at heq
        refine ⟨b1, rfl, s2, ?_⟩
        intro j k
        rw [s3, heq]
    obtain ⟨b2, f1, f2, f3⟩ := hfin
    refine ⟨b2, ?_, f2, ?_, ?_⟩
    · unfold paletteSample
      rw [a1, Res.bind_ok, hv, Res.bind_ok, s1, Res.bind_ok, f1]
    · intro j k hj hk hlt
      rw [f3]
      split
      · rename_i hjk; rw [hjk.1, hjk.2]
      · exact r2 j k hj hk (by omega)
    · intro j k hj hk hlt
      rw [f3, if_neg (by omega)]
      exact r3 j k hj hk (by omega)
  · intro y b hy ⟨r1, r2, r3⟩
    exact ⟨r1, fun j k hj hk hlt => r2 j k hj hk (by omega), fun j k hj hk hlt => r3 j k hj hk (by omega)⟩

theorem addElem_end {α : Type} (l : List α) (x : α) : addElem l l.length x = .ok (l ++ [x]) := by
  unfold addElem goAdd
  rw [if_neg (by dsimp only; omega)]
  simp only [Int.toNat_natCast, Nat.lt_irrefl, if_false]
  rw [Res.bind_ok]
  simp

theorem addElem_mid {α : Type} (a : List α) (z : α) (b : List α) (x : α) : addElem (a ++ z :: b) a.length x = .ok (a ++ x :: x :: b) := by
  unfold addElem goAdd
  rw [if_neg (by simp only [List.length_append, List.length_cons]; omega)]
  simp only [Int.toNat_natCast]
  rw [if_neg (by simp only [List.length_append, List.length_cons]; omega), Res.bind_ok, if_pos (by simp only [List.length_append, List.length_cons]; omega)]
  congr 1
  rw [List.take_left, List.set_append_right _ _ (Nat.le_refl _), Nat.sub_self, List.set_cons_zero,
    List.take_of_length_le (by simp), List.drop_left]
  simp

/-- The copies inserted at `j`, `j+1`, ... -/
def tags (f : MChan) (n j : Nat) : List ChanRef := (List.range n).map (fun i => (j + i, f))

theorem tags_succ (f : MChan) (n j : Nat) : tags f (n + 1) j = (j, f) :: tags f n (j + 1) := by
  unfold tags
  rw [List.range_succ_eq_map, List.map_cons, List.map_map]
  congr 1
  apply List.map_congr_left
  intro i _
  simp only [Function.comp, Nat.succ_eq_add_one]
  congr 1
  omega

theorem adds_end (first : MChan) : ∀ (n j : Nat) (A : List ChanRef), A.length = j → forFrom (addCopy first) n j A = .ok (A ++ tags first.copy n j)
  | 0, j, A, _ => by simp [forFrom, tags]
  | n + 1, j, A, h => by
    subst h
    rw [forFrom]
    unfold addCopy
    rw [addElem_end, Res.bind_ok]
    have := adds_end first n (A.length + 1) (A ++ [(A.length, first.copy)]) (by simp)
    unfold addCopy at this
    rw [this, tags_succ]
    simp

theorem adds_mid (first : MChan) : ∀ (n j : Nat) (A : List ChanRef) (z : ChanRef) (B : List ChanRef), A.length = j →
    forFrom (addCopy first) (n + 1) j (A ++ z :: B) = .ok (A ++ tags first.copy (n + 1) j ++ (j + n, first.copy) :: B)
  | 0, j, A, z, B, h => by
    subst h
    rw [forFrom]
    unfold addCopy
    rw [addElem_mid, Res.bind_ok, forFrom, tags_succ]
    simp [tags]
  | n + 1, j, A, z, B, h => by
    subst h
    rw [forFrom]
    unfold addCopy
    rw [addElem_mid, Res.bind_ok]
    have := adds_mid first n (A.length + 1) (A ++ [(A.length, first.copy)]) (A.length, first.copy) B (by simp)
    unfold addCopy at this
    rw [show A ++ (A.length, first.copy) :: (A.length, first.copy) :: B = A ++ [(A.length, first.copy)] ++ (A.length, first.copy) :: B by simp, this, tags_succ first.copy (n + 1)]
    simp [show A.length + 1 + n = A.length + (n + 1) by omega]

/-- The channels of the components when the first `c` of them are done. -/
def compAt (first : MChan) (outs : Nat → List (List Int)) (b c k : Nat) : ChanRef :=
  (if k = 0 then 0 else b + 1 + k, if k < c then expanded first outs k else if k = 0 then first else first.copy)

/-- The channels after them. -/
def tailAt (first : MChan) (outs : Nat → List (List Int)) (b n c : Nat) (tail : List ChanRef) : List ChanRef :=
  tail.map (fun e => if e.1 = b + n ∧ c = n then (b + n, expanded first outs (n - 1)) else e)

theorem tailAt_zero {first : MChan} {outs : Nat → List (List Int)} {b n c : Nat} {tail : List ChanRef} (h : c ≠ n) : tailAt first outs b n c tail = tail := by
  unfold tailAt
  rw [List.map_congr_left (g := id)]
  · simp
  · intro e _; rw [if_neg (by omega)]; rfl

theorem components_ok {t : TransformInfo} {bitDepth : Nat} {pal : List (List Int)} {first : MChan} {outs : Nat → List (List Int)} (hP : PaletteOK t pal bitDepth)
    (hb : first.Shaped) (h32 : Is32 first.buffer)
    (ho : ∀ c, c < t.numC → Rect first.height first.width (outs c) ∧ (Img.ofRows (outs c)).Bounded ∧
      IsExpansion t (Img.ofRows pal) bitDepth first.height first.width c (Img.ofRows first.buffer) (Img.ofRows (outs c)))
    (pre tail : List ChanRef) (hp : pre.length = t.beginC + 1) (hp0 : ∀ e ∈ pre, e.1 = 0) (hn : 1 ≤ t.numC)
    (ht : ∀ e ∈ tail, e.1 = 0 ∨ (e.1 = t.beginC + t.numC ∧ 2 ≤ t.numC)) :
    forFrom (paletteComponent t bitDepth pal first) t.numC 0 (pre ++ (List.range t.numC).map (compAt first outs t.beginC 0) ++ tail) =
      .ok (pre ++ (List.range t.numC).map (compAt first outs t.beginC t.numC) ++ tailAt first outs t.beginC t.numC t.numC tail) := by
  have key := forFrom_inv (f := paletteComponent t bitDepth pal first)
    (fun c l => l = pre ++ (List.range t.numC).map (compAt first outs t.beginC c) ++ tailAt first outs t.beginC t.numC c tail) t.numC 0 _ rfl ?_
  · obtain ⟨l, e, rfl⟩ := key
    rw [tailAt_zero (show (0 : Nat) ≠ t.numC by omega), Nat.zero_add] at e
    exact e
  · intro c l _ hc hl
    refine ⟨_, ?_, rfl⟩
    subst hl
    have hcn : c < t.numC := by omega
    obtain ⟨o1, o2, o3⟩ := ho c hcn
    unfold paletteComponent
    have g : idx (pre ++ (List.range t.numC).map (compAt first outs t.beginC c) ++ tailAt first outs t.beginC t.numC c tail) ((t.beginC : Int) + 1 + c) = .ok (compAt first outs t.beginC c c) := by
      have := idx_mid pre c ((List.range t.numC).map (compAt first outs t.beginC c) ++ tailAt first outs t.beginC t.numC c tail) (compAt first outs t.beginC c c)
        (by rw [List.getElem?_append_left (by simpa using hcn), List.getElem?_map, List.getElem?_range hcn]; rfl)
      rw [hp, ← List.append_assoc] at this
      rwa [show ((t.beginC + 1 : Nat) : Int) = (t.beginC : Int) + 1 by omega] at this
    rw [g, Res.bind_ok]
    have hch : paletteChannel t pal bitDepth first.height first.width c (compAt first outs t.beginC c c).2 = .ok (expanded first outs c) := by
      unfold compAt
      dsimp only
      rw [if_neg (by omega)]
      split
      · rename_i h0
        rw [paletteChannel_ok hP hcn rfl hb h32 o1 o2 o3]
        unfold expanded
        rw [if_pos h0]
      · rename_i h0
        rw [paletteChannel_ok (ch := first.copy) (w := first.width) hP hcn rfl hb h32 o1 o2 o3]
        unfold expanded MChan.copy
        rw [if_neg h0]
    rw [hch, Res.bind_ok]
    unfold writeRef
    by_cases h0 : c = 0
    · subst h0
      rw [if_pos (by simp [compAt])]
      have hset := setAt_mid pre 0 ((List.range t.numC).map (compAt first outs t.beginC 0) ++ tailAt first outs t.beginC t.numC 0 tail) (0, expanded first outs 0)
        (by simp; omega)
      rw [hp, ← List.append_assoc, show ((t.beginC + 1 : Nat) : Int) = (t.beginC : Int) + 1 by omega] at hset
      rw [hset]
      congr 1
      rw [List.append_assoc]
      congr 1
      rw [List.set_append_left _ _ (by simp; omega)]
      congr 1
      · apply List.ext_getElem?
        intro k
        rw [List.getElem?_set]
        simp only [List.length_map, List.length_range, List.getElem?_map]
        split
        · rename_i hk
          subst hk
          rw [List.getElem?_range (by omega)]
          simp [compAt]
        · rename_i hk
          by_cases hkn : k < t.numC
          · rw [List.getElem?_range hkn]
            simp only [Option.map_some, compAt]
            simp [show ¬ k < 0 + 1 by omega]
          · rw [List.getElem?_eq_none (by simpa using hkn)]; rfl
      · rw [tailAt_zero (by omega)]
        by_cases h1 : t.numC = 1
        · unfold tailAt
          rw [List.map_congr_left (g := id)]
          · simp
          · intro e he
            have := ht e he
            rw [if_neg (by omega)]; rfl
        · rw [tailAt_zero (by omega)]
    · have htag : (compAt first outs t.beginC c c).1 = t.beginC + 1 + c := by simp [compAt, h0]
      rw [htag, if_neg (by omega), List.map_append, List.map_append]
      congr 1
      congr 1
      · congr 1
        · rw [List.map_congr_left (g := id)]
          · simp
          · intro e he; rw [if_neg (by rw [hp0 e he]; omega)]; rfl
        · rw [List.map_map]
          apply List.map_congr_left
          intro k hk
          simp only [Function.comp]
          by_cases hkc : k = c
          · subst hkc
            rw [htag, if_pos rfl]
            simp [compAt, h0]
          · rw [if_neg]
            · unfold compAt
              congr 1
              by_cases hlt : k < c
              · rw [if_pos hlt, if_pos (by omega)]
              · rw [if_neg hlt, if_neg (show ¬ k < c + 1 by omega)]
            · unfold compAt
              dsimp only
              split <;> omega
      · rw [tailAt_zero (by omega)]
        unfold tailAt
        apply List.map_congr_left
        intro e he
        by_cases hl : c + 1 = t.numC
        · have ec : c = t.numC - 1 := by omega
          by_cases hte : e.1 = t.beginC + 1 + c
          · rw [if_pos hte, if_pos (by omega), show t.beginC + 1 + c = t.beginC + t.numC by omega, ec]
          · rw [if_neg hte, if_neg (by omega)]
        · have := ht e he
          rw [if_neg (by omega), if_neg (by omega)]

theorem undoPalette_core {t : TransformInfo} {bitDepth : Nat} {palch first : MChan} {outs : Nat → List (List Int)} (hP : PaletteOK t palch.buffer bitDepth)
    (hb : first.Shaped) (h32 : Is32 first.buffer)
    (ho : ∀ c, c < t.numC → Rect first.height first.width (outs c) ∧ (Img.ofRows (outs c)).Bounded ∧
      IsExpansion t (Img.ofRows palch.buffer) bitDepth first.height first.width c (Img.ofRows first.buffer) (Img.ofRows (outs c)))
    (pre post : List MChan) (tail : List ChanRef) (hp : pre.length = t.beginC) (hn : 1 ≤ t.numC)
    (ht : ∀ e ∈ tail, e.1 = 0 ∨ (e.1 = t.beginC + t.numC ∧ 2 ≤ t.numC))
    (hadd : forFrom (addCopy first) (t.numC - 1) (t.beginC + 2) ((palch :: pre ++ first :: post).map (fun c => (0, c))) =
      .ok ((palch :: pre ++ [first]).map (fun c => (0, c)) ++ tags first.copy (t.numC - 1) (t.beginC + 2) ++ tail)) :
    undoPalette t bitDepth (palch :: pre ++ first :: post) =
      .ok (pre ++ (List.range t.numC).map (expanded first outs) ++ (tailAt first outs t.beginC t.numC t.numC tail).map Prod.snd) := by
  unfold undoPalette
  have g1 := idx_mid (palch :: pre) 0 (first :: post) first rfl
  rw [List.length_cons, hp, show ((t.beginC + 1 : Nat) : Int) + (0 : Nat) = (t.beginC : Int) + 1 by omega] at g1
  rw [g1, Res.bind_ok]
  have g2 : idx (palch :: pre ++ first :: post) 0 = .ok palch := by
    have := idx_of_getElem? (palch :: pre ++ first :: post) 0 palch rfl
    simpa using this
  rw [g2, Res.bind_ok, hadd, Res.bind_ok]
  have hcomp : (palch :: pre ++ [first]).map (fun c => ((0, c) : ChanRef)) ++ tags first.copy (t.numC - 1) (t.beginC + 2) ++ tail =
      (palch :: pre).map (fun c => ((0, c) : ChanRef)) ++ (List.range t.numC).map (compAt first outs t.beginC 0) ++ tail := by
    congr 1
    rw [List.map_append, List.append_assoc]
    congr 1
    obtain ⟨n, hn'⟩ : ∃ n, t.numC = n + 1 := ⟨t.numC - 1, by omega⟩
    rw [hn', List.range_succ_eq_map]
    simp only [List.map_map, List.map_cons, List.map_nil, List.singleton_append, Nat.add_sub_cancel]
    unfold tags
    congr 1
    apply List.map_congr_left
    intro i _
    simp only [Function.comp, compAt, Nat.succ_eq_add_one]
    simp
    omega
  rw [hcomp, components_ok hP hb h32 ho _ tail (by simp [hp]) (by simp) hn ht, Res.bind_ok]
  congr 1
  simp only [List.map_append, List.map_map, List.map_cons, List.cons_append, List.drop_succ_cons, List.drop_zero]
  congr 1
  congr 1
  · rw [List.map_congr_left (g := id)]
    · simp
    · intro c _; rfl
  · apply List.map_congr_left
    intro k hk
    rw [List.mem_range] at hk
    simp [compAt, hk]

end Jxl
