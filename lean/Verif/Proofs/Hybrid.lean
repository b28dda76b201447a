import Verif.Proofs.Stream
/-!
# Hybrid integers
-/
namespace Jxl
open Spec

theorem log2_bounds (v : Nat) (hv : v ≠ 0) : 2 ^ Nat.log2 v ≤ v ∧ v < 2 ^ (Nat.log2 v + 1) :=
  ⟨Nat.log2_self_le hv, Nat.lt_log2_self⟩

theorem hybrid_spec (c : HybridConfig) (hc : c.Valid) (v : Nat) (hv : v < 2 ^ 32) :
    Reads (readHybrid c (hybridToken c v).token) (extraBits c v) (i32 v) := by
  obtain ⟨hml, hs15⟩ := hc
  obtain ⟨se, msb, lsb⟩ := c
  dsimp only at hml hs15
  unfold extraBits hybridToken readHybrid
  dsimp only
  by_cases hsplit : v < 2 ^ se
  · rw [if_pos hsplit]
    dsimp only
    rw [if_pos hsplit]
    have : i32 (v : Int) = (v : Int) := by
      have : 2 ^ se ≤ 2 ^ 15 := Nat.pow_le_pow_right (by omega) hs15
      unfold i32; omega
    rw [this]
    exact Reads.pure _
  · rw [if_neg hsplit]
    dsimp only
    have hv0 : v ≠ 0 := by have := Nat.two_pow_pos se; omega
    obtain ⟨hl1, hl2⟩ := log2_bounds v hv0
    obtain ⟨n, hn⟩ : ∃ n, n = Nat.log2 v := ⟨_, rfl⟩
    rw [← hn] at hl1 hl2 ⊢
    have hn32 : n < 32 := by
      by_cases h : n < 32
      · exact h
      · have : 2 ^ 32 ≤ 2 ^ n := Nat.pow_le_pow_right (by omega) (by omega)
        omega
    have hsn : se ≤ n := by
      by_cases h : se ≤ n
      · exact h
      · have : 2 ^ (n + 1) ≤ 2 ^ se := Nat.pow_le_pow_right (by omega) (by omega)
        omega
    obtain ⟨m, hm⟩ : ∃ m, m = v - 2 ^ n := ⟨_, rfl⟩
    rw [← hm]
    have hmn : m < 2 ^ n := by rw [Nat.pow_succ] at hl2; omega
    -- split m into hi (msb bits), mid (q bits), low (lsb bits)
    obtain ⟨q, hq⟩ : ∃ q, q = n - msb - lsb := ⟨_, rfl⟩
    have hnq : n = msb + (q + lsb) := by omega
    obtain ⟨hi, hhi⟩ : ∃ hi, hi = m / 2 ^ (n - msb) := ⟨_, rfl⟩
    obtain ⟨lo, hlo⟩ : ∃ lo, lo = m % 2 ^ lsb := ⟨_, rfl⟩
    obtain ⟨mid, hmid⟩ : ∃ mid, mid = m / 2 ^ lsb % 2 ^ q := ⟨_, rfl⟩
    have hhi' : hi = m / 2 ^ lsb / 2 ^ q := by
      rw [hhi, Nat.div_div_eq_div_mul, ← Nat.pow_add, show n - msb = lsb + q by omega]
    have hhilt : hi < 2 ^ msb := by
      rw [hhi, Nat.div_lt_iff_lt_mul (Nat.two_pow_pos _), ← Nat.pow_add, show msb + (n - msb) = n by omega]; exact hmn
    have hlolt : lo < 2 ^ lsb := by rw [hlo]; exact Nat.mod_lt _ (Nat.two_pow_pos _)
    have hmidlt : mid < 2 ^ q := by rw [hmid]; exact Nat.mod_lt _ (Nat.two_pow_pos _)
    have hmeq : m = (hi * 2 ^ q + mid) * 2 ^ lsb + lo := by
      have e1 := Nat.div_add_mod m (2 ^ lsb)
      have e2 := Nat.div_add_mod (m / 2 ^ lsb) (2 ^ q)
      rw [← hhi', ← hmid] at e2
      rw [← hlo, ← e2] at e1
      rw [← e1, Nat.mul_comm (2 ^ q), Nat.mul_comm (2 ^ lsb)]
    rw [← hhi, ← hlo, ← hq, ← hmid]
    -- the token
    obtain ⟨j, hj⟩ : ∃ j, j = n - se := ⟨_, rfl⟩
    obtain ⟨w, hw⟩ : ∃ w, w = se - msb - lsb := ⟨_, rfl⟩
    have hse : 2 ^ se = 2 ^ w * 2 ^ msb * 2 ^ lsb := by
      rw [← Nat.pow_add, ← Nat.pow_add]; congr 1; omega
    have hml2 : 2 ^ (msb + lsb) = 2 ^ msb * 2 ^ lsb := Nat.pow_add _ _ _
    rw [← hj]
    obtain ⟨tok, htok⟩ : ∃ tok, tok = 2 ^ se + j * 2 ^ (msb + lsb) + hi * 2 ^ lsb + lo := ⟨_, rfl⟩
    rw [← htok]
    rw [if_neg (by omega)]
    have htok2 : tok = ((2 ^ w + j) * 2 ^ msb + hi) * 2 ^ lsb + lo := by
      rw [htok, hse, hml2]
      simp only [Nat.add_mul, Nat.mul_assoc]
    have hlow : tok % 2 ^ lsb = lo := by
      rw [htok2, Nat.mul_comm, Nat.mul_add_mod, Nat.mod_eq_of_lt hlolt]
    have hdiv : tok / 2 ^ lsb = (2 ^ w + j) * 2 ^ msb + hi := by
      rw [htok2, Nat.mul_comm, Nat.mul_add_div (Nat.two_pow_pos _), Nat.div_eq_of_lt hlolt]; omega
    have hmsb : tok / 2 ^ lsb % 2 ^ msb = hi := by
      rw [hdiv, Nat.mul_comm, Nat.mul_add_mod, Nat.mod_eq_of_lt hhilt]
    have hnn : (tok - 2 ^ se) / 2 ^ (msb + lsb) = j := by
      have e : tok - 2 ^ se = 2 ^ (msb + lsb) * j + (hi * 2 ^ lsb + lo) := by rw [htok, Nat.mul_comm]; omega
      have hlt : hi * 2 ^ lsb + lo < 2 ^ (msb + lsb) := by
        have : (hi + 1) * 2 ^ lsb ≤ 2 ^ msb * 2 ^ lsb := Nat.mul_le_mul_right _ hhilt
        rw [Nat.add_mul] at this
        rw [hml2]; omega
      rw [e, Nat.mul_add_div (Nat.two_pow_pos _), Nat.div_eq_of_lt hlt]; omega
    have hneq : se - lsb - msb + (tok - 2 ^ se) / 2 ^ (msb + lsb) = q := by rw [hnn]; omega
    rw [hneq, if_neg (by omega), hlow, hmsb]
    rw [← List.append_nil (bitsOf q mid)]
    refine Reads.bind (reads_bitsOf q mid (by omega) hmidlt) ?_
    have hval : u32 ((u32 ((hi ||| 2 ^ msb) <<< q) ||| u32 mid) <<< lsb) ||| lo = v := by
      have hone : hi ||| 2 ^ msb = hi + 2 ^ msb := by
        have := or_shift (b := 1) hhilt
        rw [Nat.shiftLeft_eq, Nat.one_mul, Nat.mul_one] at this
        exact this
      rw [hone]
      have hveq : v = ((hi + 2 ^ msb) * 2 ^ q + mid) * 2 ^ lsb + lo := by
        have e1 : v = 2 ^ n + m := by omega
        rw [e1, hmeq, hnq, Nat.pow_add, Nat.pow_add]
        simp only [Nat.add_mul, Nat.mul_assoc]
        omega
      have hA : ((hi + 2 ^ msb) * 2 ^ q + mid) < 2 ^ 32 := by
        have : ((hi + 2 ^ msb) * 2 ^ q + mid) * 1 ≤ ((hi + 2 ^ msb) * 2 ^ q + mid) * 2 ^ lsb := Nat.mul_le_mul_left _ (Nat.two_pow_pos _)
        omega
      have h1 : u32 ((hi + 2 ^ msb) <<< q) = (hi + 2 ^ msb) <<< q := by
        rw [Nat.shiftLeft_eq]; unfold u32; omega
      have h2 : u32 mid = mid := by unfold u32; omega
      rw [h1, h2, Nat.or_comm ((hi + 2 ^ msb) <<< q) mid, or_shift hmidlt]
      have h3 : mid + 2 ^ q * (hi + 2 ^ msb) = (hi + 2 ^ msb) * 2 ^ q + mid := by rw [Nat.mul_comm]; omega
      rw [h3]
      have h4 : u32 (((hi + 2 ^ msb) * 2 ^ q + mid) <<< lsb) = ((hi + 2 ^ msb) * 2 ^ q + mid) <<< lsb := by
        rw [Nat.shiftLeft_eq]; unfold u32; omega
      rw [h4, Nat.or_comm _ lo, or_shift hlolt, hveq, Nat.mul_comm]
      omega
    rw [hval]
    exact Reads.pure _

/-- Reading one value. -/
theorem Carries.readValue {co : Coder} {st : Option Nat} {s : BR} {d : Dist} {v : Nat} {is : List Item} {e : Nat}
    (h : Carries co st s (valueItems d v ++ is) e) (hok : ∀ i ∈ valueItems d v ++ is, i.OK co) (hc : d.config.Valid) (hv : v < 2 ^ 32) :
    ∃ st' s1 s', d.readSymbol st s = (.ok (((hybridToken d.config v).token : Int), st'), s1) ∧
      readHybrid d.config (hybridToken d.config v).token s1 = (.ok (i32 v), s') ∧ Carries co st' s' is e ∧ s'.data = s.data := by
  obtain ⟨st', s1, e1, h1, d1⟩ := Carries.readSym (d := d) (is := .raw (extraBits d.config v) :: is) h hok
  obtain ⟨s', e2, h2, d2⟩ := Carries.readRaw h1 (hybrid_spec d.config hc v hv)
  exact ⟨st', s1, s', e1, e2, h2, d2.trans d1⟩

end Jxl
