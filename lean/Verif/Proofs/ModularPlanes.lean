import Verif.Model.FrameDecode
import Verif.Spec.FrameDecode
import Verif.Proofs.LFCoefficients
import Verif.Proofs.Output
import Verif.Proofs.Blocks

namespace Jxl

/-- Filling a corner of a plane. -/
theorem corner_fill {α : Type} {d : Dim} {m : List (List α)} (hm : AtLeast d m) (f : Nat → Nat → Res α) (g : Nat → Nat → α)
    (hf : ∀ y x, y < d.height → x < d.width → f y x = .ok (g y x)) :
    ∃ m', fillLoop d.height d.width f m = .ok m' ∧ Stores d g m m' ∧ ∀ h w, Table h w m → Table h w m' := by
  obtain ⟨H, W, hT, h1, h2⟩ := hm
  obtain ⟨m', e, t, s, s'⟩ := scatterTo_ok (H := H) (W := W) (h := d.height) (w := d.width) (fun y x => ((y : Int), (x : Int))) f (fun y _ => y) (fun _ x => x) g m hT
    (fun _ _ _ _ => rfl) (fun y x hy hx => ⟨by omega, by omega⟩) hf (fun y x y' x' _ _ _ _ h1 h2 => ⟨h1, h2⟩)
  refine ⟨m', e, fun y x => ?_, fun h w ht => ?_⟩
  · by_cases hc : y < d.height ∧ x < d.width
    · rw [if_pos hc, s y x hc.1 hc.2]
    · rw [if_neg hc, s' y x (fun a b ha hb hab => hc ⟨by omega, by omega⟩)]
  · by_cases h0 : H = 0
    · subst h0
      obtain ⟨tl, -⟩ := t
      have : m' = [] := List.eq_nil_of_length_eq_zero tl
      have hm0 : m = [] := List.eq_nil_of_length_eq_zero hT.1
      rw [this]; rw [hm0] at ht
      exact ht
    · refine ⟨t.1.trans (hT.1.symm.trans ht.1), fun r hr => ?_⟩
      rw [t.2 r hr]
      have : m ≠ [] := by
        intro h
        have := hT.1
        rw [h] at this
        simp at this
        omega
      obtain ⟨r0, hr0⟩ := List.exists_mem_of_ne_nil m this
      rw [← hT.2 r0 hr0, ht.2 r0 hr0]

/-- A loop whose steps each write one place of a list, all different. -/
theorem scatter_list {β : Type} {f : Nat → List β → Res (List β)} {l : List β} (t : Nat → Nat) (R : Nat → β → Prop) (n : Nat)
    (hinj : ∀ a b, a < n → b < n → t a = t b → a = b) (ht : ∀ c, c < n → t c < l.length)
    (hs : ∀ c m, c < n → m.length = l.length → m[t c]? = l[t c]? → ∃ b, f c m = .ok (m.set (t c) b) ∧ R c b) :
    ∃ l', forFrom f n 0 l = .ok l' ∧ l'.length = l.length ∧ (∀ c, c < n → ∃ b, l'[t c]? = some b ∧ R c b) ∧ ∀ i, (∀ c, c < n → t c ≠ i) → l'[i]? = l[i]? := by
  obtain ⟨l', e, h1, h2, h3⟩ := forFrom_inv (f := f) (fun k m => m.length = l.length ∧ (∀ c, c < k → ∃ b, m[t c]? = some b ∧ R c b) ∧
      ∀ i, (∀ c, c < k → t c ≠ i) → m[i]? = l[i]?) n 0 l ⟨rfl, fun c hc => by omega, fun _ _ => rfl⟩ (by
    intro k m _ hk ⟨m1, m2, m3⟩
    have hk : k < n := by omega
    obtain ⟨b, e, hb⟩ := hs k m hk m1 (m3 (t k) (fun c hc heq => by have := hinj c k (by omega) hk heq; omega))
    refine ⟨_, e, by simp [m1], fun c hc => ?_, fun i hi => ?_⟩
    · by_cases hck : c = k
      · subst hck
        exact ⟨b, by simp [m1, ht c hk], hb⟩
      · rw [List.getElem?_set_ne (fun heq => hck (hinj k c hk (by omega) heq).symm)]
        exact m2 c (by omega)
    · rw [List.getElem?_set_ne (fun heq => hi k (by omega) heq)]
      exact m3 i (fun c hc => hi c (by omega)))
  exact ⟨l', e, h1, fun c hc => h2 c (by omega), fun i hi => h3 i (fun c hc => hi c (by omega))⟩

theorem one_times {v : Int} (h : |v| < 16777216) : F32.mul (.fin 1) (F32.ofInt v) = .fin v := by
  unfold F32.ofInt
  rw [F32.round_int v h]
  show F32.round (1 * (v : ℚ)) = .fin v
  rw [one_mul, F32.round_int v h]

theorem toI32_fin {v : Int} (big : F32 → Int) (h : |v| < 16777216) : F32.toI32 big (.fin v) = v := by
  have := abs_lt.1 h
  unfold F32.toI32
  dsimp only
  have e : (if (0 : ℚ) ≤ v then ⌊(v : ℚ)⌋ else ⌈(v : ℚ)⌉) = v := by
    split
    · exact Int.floor_intCast v
    · exact Int.ceil_intCast v
  rw [e, if_pos (by omega)]

end Jxl
