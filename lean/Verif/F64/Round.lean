import Verif.F64.Basic
import Mathlib.Data.Real.Sqrt
import Mathlib.Tactic.Linarith
import Mathlib.Tactic.NormNum
import Mathlib.Tactic.Ring
import Mathlib.Tactic.FieldSimp
import Mathlib.Tactic.Positivity
import Mathlib.Tactic.GCongr
import Mathlib.Tactic.NormNum.Pow
import Mathlib.Algebra.Order.Field.Basic
/-! # What the rounding of `Verif/F64/Basic.lean` does, in terms of real numbers -/

namespace Sat.F64
open Sat

/-- `N` is the real number `r ≥ 0` rounded to 53 significant bits and to an integer (units of `2^(-1074)`). -/
structure NearNat (r : ℝ) (N : ℕ) : Prop where
  sig : Sig N
  lower : ∀ M : ℕ, Sig M → (M : ℝ) ≤ r → M ≤ N
  upper : ∀ M : ℕ, Sig M → r ≤ M → N ≤ M
  err : |(N : ℝ) - r| ≤ max (1 / 2) (r / 2 ^ 53)
  nearest : ∀ M : ℕ, Sig M → |(N : ℝ) - r| ≤ |(M : ℝ) - r|

theorem near_core (r : ℝ) (t : ℕ) (h1 : (t : ℝ) ≤ r) (h2 : r < t + 1) (N : ℕ)
    (hN : (N = t / 2 ^ expo t * 2 ^ expo t ∧ r ≤ ((t / 2 ^ expo t : ℕ) + 1 / 2 : ℝ) * 2 ^ expo t) ∨
      (N = (t / 2 ^ expo t + 1) * 2 ^ expo t ∧ ((t / 2 ^ expo t : ℕ) + 1 / 2 : ℝ) * 2 ^ expo t ≤ r)) : NearNat r N := by
  have hm53 := div_expo_lt t
  have hpe : 0 < 2 ^ expo t := Nat.pow_pos (by decide)
  have hbig : expo t = 0 ∨ (t ≠ 0 ∧ t.log2 = expo t + 52) := by
    unfold expo
    by_cases h : t.log2 ≤ 52
    · left; omega
    · right; refine ⟨?_, by omega⟩; rintro rfl; simp at h
  have hmt : t / 2 ^ expo t * 2 ^ expo t ≤ t := Nat.div_mul_le_self _ _
  have htm : t < (t / 2 ^ expo t + 1) * 2 ^ expo t := by
    have := Nat.lt_div_mul_add (a := t) hpe
    rw [Nat.add_mul, Nat.one_mul]; exact this
  generalize he : expo t = e at *
  generalize hm : t / 2 ^ e = m at *
  have hmt' : ((m : ℝ)) * 2 ^ e ≤ t := by exact_mod_cast hmt
  have htm' : ((t : ℝ)) + 1 ≤ (m + 1) * 2 ^ e := by exact_mod_cast htm
  have hpe' : (0 : ℝ) < 2 ^ e := by positivity
  have hN1 : m * 2 ^ e ≤ N := by
    rcases hN with ⟨h, -⟩ | ⟨h, -⟩ <;> rw [h]
    exact Nat.mul_le_mul_right _ (by omega)
  have low : ∀ M : ℕ, Sig M → (M : ℝ) ≤ r → M ≤ m * 2 ^ e := by
    intro M hM hMr
    have hMt : M ≤ t := by
      have : (M : ℝ) < t + 1 := lt_of_le_of_lt hMr h2
      have : M < t + 1 := by exact_mod_cast this
      omega
    rcases hbig with h0 | ⟨ht0, hl⟩
    · subst h0; simp only [pow_zero, Nat.div_one, Nat.mul_one] at *; omega
    · have h52 : 2 ^ 52 ≤ m := by
        rw [← hm, Nat.le_div_iff_mul_le hpe, ← pow_add, Nat.add_comm, ← hl]; exact Nat.log2_self_le ht0
      by_cases hM0 : M = 0
      · omega
      by_cases hlt : M.log2 < e + 52
      · have : M < 2 ^ (e + 52) := (Nat.log2_lt hM0).mp hlt
        rw [pow_add, Nat.mul_comm] at this
        exact le_trans (le_of_lt this) (Nat.mul_le_mul_right _ h52)
      · have hd : 2 ^ e ∣ M := Nat.dvd_trans (Nat.pow_dvd_pow 2 (by omega)) hM
        obtain ⟨k, rfl⟩ := hd
        rw [Nat.mul_comm] at hMt ⊢
        apply Nat.mul_le_mul_right
        rw [← hm, Nat.le_div_iff_mul_le hpe]; exact hMt
  have high : ∀ M : ℕ, Sig M → r ≤ M → (m : ℝ) * 2 ^ e < r → (m + 1) * 2 ^ e ≤ M := by
    intro M hM hrM hr
    · have htM : t ≤ M := by
        have : (t : ℝ) ≤ M := le_trans h1 hrM
        exact_mod_cast this
      have hd : 2 ^ e ∣ M := by
        rcases hbig with h0 | ⟨ht0, hl⟩
        · subst h0; simp
        · have hlog : t.log2 ≤ M.log2 := by
            rw [Nat.le_log2 (by omega)]
            exact le_trans (Nat.log2_self_le ht0) htM
          exact Nat.dvd_trans (Nat.pow_dvd_pow 2 (by omega)) hM
      obtain ⟨k, rfl⟩ := hd
      rw [Nat.mul_comm (2 ^ e)]
      apply Nat.mul_le_mul_right
      have hk : (m : ℝ) * 2 ^ e < k * 2 ^ e := by
        have : ((2 ^ e * k : ℕ) : ℝ) = k * 2 ^ e := by push_cast; ring
        rw [this] at hrM
        nlinarith
      have : (m : ℝ) < k := lt_of_mul_lt_mul_right hk hpe'.le
      have : m < k := by exact_mod_cast this
      omega
  refine ⟨?_, fun M hM hMr => le_trans (low M hM hMr) hN1, ?_, ?_, ?_⟩
  · rcases hN with ⟨h, -⟩ | ⟨h, -⟩ <;> rw [h] <;> exact sig_mul_pow _ _ (by omega)
  · intro M hM hrM
    rcases hN with ⟨h, -⟩ | ⟨h, hr⟩
    · have : (N : ℝ) ≤ M := by rw [h]; push_cast; linarith
      exact_mod_cast this
    · rw [h]; exact high M hM hrM (by nlinarith)
  · have hhalf : |(N : ℝ) - r| ≤ 2 ^ e / 2 := by
      rcases hN with ⟨h, hr⟩ | ⟨h, hr⟩
      · rw [h, abs_le]; push_cast; constructor <;> linarith
      · rw [h, abs_le]; push_cast; constructor <;> linarith
    refine le_trans hhalf ?_
    rcases hbig with h0 | ⟨ht0, hl⟩
    · subst h0; simp
    · apply le_max_of_le_right
      have h52 : 2 ^ (e + 52) ≤ t := by rw [← hl]; exact Nat.log2_self_le ht0
      have h52' : (2 : ℝ) ^ (e + 52) ≤ t := by exact_mod_cast h52
      rw [pow_add] at h52'
      rw [le_div_iff₀ (by positivity)]
      have : (2 : ℝ) ^ e / 2 * 2 ^ 53 = 2 ^ e * 2 ^ 52 := by rw [show (2 : ℝ) ^ 53 = 2 * 2 ^ 52 by norm_num]; ring
      rw [this]; linarith
  · intro M hM
    rcases hN with ⟨h, hr⟩ | ⟨h, hr⟩
    · have hNr : (N : ℝ) ≤ r := by rw [h]; push_cast; linarith
      rw [abs_of_nonpos (by linarith : (N : ℝ) - r ≤ 0)]
      rcases le_total (M : ℝ) r with hMr | hMr
      · have hle : (M : ℝ) ≤ N := by rw [h]; exact_mod_cast low M hM hMr
        rw [abs_of_nonpos (by linarith)]; linarith
      · rw [abs_of_nonneg (by linarith)]
        rcases hNr.lt_or_eq with h3 | h3
        · have : ((m + 1 : ℕ) : ℝ) * 2 ^ e ≤ M := by
            exact_mod_cast high M hM hMr (by rw [h] at h3; push_cast at h3; exact h3)
          rw [h]; push_cast at this ⊢; linarith
        · linarith
    · have hrN : r ≤ N := by rw [h]; push_cast; linarith
      rw [abs_of_nonneg (by linarith : 0 ≤ (N : ℝ) - r)]
      rcases le_total (M : ℝ) r with hMr | hMr
      · rw [abs_of_nonpos (by linarith)]
        have : (M : ℝ) ≤ m * 2 ^ e := by exact_mod_cast low M hM hMr
        rw [h]; push_cast; linarith
      · rw [abs_of_nonneg (by linarith)]
        have : ((m + 1 : ℕ) : ℝ) * 2 ^ e ≤ M := by exact_mod_cast high M hM hMr (by nlinarith)
        rw [h]; push_cast at this ⊢; linarith

/-- Rounding of quotients. -/
theorem roundN_near (p q : ℕ) (hq : 0 < q) : NearNat ((p : ℝ) / q) (roundN p q) := by
  have hq' : (0 : ℝ) < q := by exact_mod_cast hq
  have ht1 : ((p / q : ℕ) : ℝ) ≤ (p : ℝ) / q := by
    rw [le_div_iff₀ hq']; exact_mod_cast Nat.div_mul_le_self p q
  have ht2 : (p : ℝ) / q < (p / q : ℕ) + 1 := by
    rw [div_lt_iff₀ hq']
    have := Nat.lt_div_mul_add (a := p) hq
    have : p < (p / q + 1) * q := by rw [Nat.add_mul, Nat.one_mul]; exact this
    exact_mod_cast this
  apply near_core _ (p / q) ht1 ht2
  unfold roundN
  generalize he : expo (p / q) = e
  have hd : 0 < q * 2 ^ e := Nat.mul_pos hq (Nat.pow_pos (by decide))
  have hmod := Nat.div_add_mod p (q * 2 ^ e)
  rw [Nat.div_div_eq_div_mul]
  have hmodR : ((q * 2 ^ e : ℝ)) * (p / (q * 2 ^ e) : ℕ) + (p % (q * 2 ^ e) : ℕ) = p := by exact_mod_cast hmod
  have key1 : 2 * (p % (q * 2 ^ e)) ≤ q * 2 ^ e → (p : ℝ) / q ≤ ((p / (q * 2 ^ e) : ℕ) + 1 / 2 : ℝ) * 2 ^ e := by
    intro h
    have h' : 2 * ((p % (q * 2 ^ e) : ℕ) : ℝ) ≤ q * 2 ^ e := by exact_mod_cast h
    rw [div_le_iff₀ hq']; nlinarith
  have key2 : q * 2 ^ e ≤ 2 * (p % (q * 2 ^ e)) → ((p / (q * 2 ^ e) : ℕ) + 1 / 2 : ℝ) * 2 ^ e ≤ (p : ℝ) / q := by
    intro h
    have h' : (q * 2 ^ e : ℝ) ≤ 2 * ((p % (q * 2 ^ e) : ℕ) : ℝ) := by exact_mod_cast h
    rw [le_div_iff₀ hq']; nlinarith
  unfold roundQuot
  dsimp only
  split
  · rename_i h; exact Or.inl ⟨rfl, key1 (le_of_lt h)⟩
  · rename_i h0
    split
    · rename_i h; exact Or.inr ⟨rfl, key2 (le_of_lt h)⟩
    · rename_i h
      split
      · exact Or.inl ⟨rfl, key1 (by omega)⟩
      · exact Or.inr ⟨rfl, key2 (by omega)⟩

theorem isqrtAux_spec (m k r : ℕ) (h1 : r * r ≤ m) (h2 : m < (r + 2 ^ k) * (r + 2 ^ k)) :
    isqrtAux m k r * isqrtAux m k r ≤ m ∧ m < (isqrtAux m k r + 1) * (isqrtAux m k r + 1) := by
  induction k generalizing r with
  | zero => exact ⟨h1, by simpa [isqrtAux] using h2⟩
  | succ k ih =>
    rw [isqrtAux]
    split
    · rename_i h
      exact ih (r + 2 ^ k) h (by rw [Nat.add_assoc, ← Nat.two_mul, ← Nat.pow_succ']; exact h2)
    · rename_i h
      exact ih r h1 (by omega)

theorem isqrt_spec (m : ℕ) : isqrt m * isqrt m ≤ m ∧ m < (isqrt m + 1) * (isqrt m + 1) := by
  unfold isqrt
  apply isqrtAux_spec
  · simp
  · rw [Nat.zero_add, ← Nat.pow_add]
    refine Nat.lt_of_lt_of_le (Nat.lt_log2_self (n := m)) (Nat.pow_le_pow_right (by decide) ?_)
    omega

/-- Rounding of square roots. -/
theorem roundSqrt_near (m : ℕ) : NearNat (Real.sqrt m) (roundSqrt m) := by
  obtain ⟨hs1, hs2⟩ := isqrt_spec m
  have ht1 : ((isqrt m : ℕ) : ℝ) ≤ Real.sqrt m := by
    apply Real.le_sqrt_of_sq_le; rw [sq]; exact_mod_cast hs1
  have ht2 : Real.sqrt m < (isqrt m : ℕ) + 1 := by
    rw [Real.sqrt_lt' (by positivity), sq]; exact_mod_cast hs2
  apply near_core _ (isqrt m) ht1 ht2
  unfold roundSqrt
  generalize he : expo (isqrt m) = e
  have key1 : 4 * m ≤ (2 * (isqrt m / 2 ^ e) + 1) * (2 * (isqrt m / 2 ^ e) + 1) * (2 ^ e * 2 ^ e) →
      Real.sqrt m ≤ ((isqrt m / 2 ^ e : ℕ) + 1 / 2 : ℝ) * 2 ^ e := by
    intro h
    have h' : 4 * (m : ℝ) ≤ (2 * (isqrt m / 2 ^ e : ℕ) + 1) * (2 * (isqrt m / 2 ^ e : ℕ) + 1) * (2 ^ e * 2 ^ e) := by
      exact_mod_cast h
    apply Real.sqrt_le_iff.mpr
    refine ⟨by positivity, ?_⟩
    nlinarith
  have key2 : (2 * (isqrt m / 2 ^ e) + 1) * (2 * (isqrt m / 2 ^ e) + 1) * (2 ^ e * 2 ^ e) ≤ 4 * m →
      ((isqrt m / 2 ^ e : ℕ) + 1 / 2 : ℝ) * 2 ^ e ≤ Real.sqrt m := by
    intro h
    have h' : (2 * (isqrt m / 2 ^ e : ℕ) + 1) * (2 * (isqrt m / 2 ^ e : ℕ) + 1) * (2 ^ e * 2 ^ e) ≤ 4 * (m : ℝ) := by
      exact_mod_cast h
    apply Real.le_sqrt_of_sq_le
    nlinarith
  unfold roundRoot
  dsimp only
  split
  · rename_i h; exact Or.inl ⟨rfl, key1 (le_of_lt h)⟩
  · rename_i h0
    split
    · rename_i h; exact Or.inr ⟨rfl, key2 (le_of_lt h)⟩
    · rename_i h
      split
      · exact Or.inl ⟨rfl, key1 (by omega)⟩
      · exact Or.inr ⟨rfl, key2 (by omega)⟩

/-- Rounding does nothing to what is already representable. -/
theorem roundN_exact (n : ℕ) (h : Sig n) : roundN n 1 = n := by
  have hn := roundN_near n 1 (by decide)
  simp only [Nat.cast_one, div_one] at hn
  exact le_antisymm (hn.upper n h le_rfl) (hn.lower n h le_rfl)

theorem roundN_exact' (n q : ℕ) (hq : 0 < q) (h : Sig n) : roundN (n * q) q = n := by
  have hn := roundN_near (n * q) q hq
  have e : ((n * q : ℕ) : ℝ) / q = n := by
    push_cast; rw [mul_div_assoc, div_self (by exact_mod_cast hq.ne'), mul_one]
  rw [e] at hn
  exact le_antisymm (hn.upper n h le_rfl) (hn.lower n h le_rfl)

end Sat.F64
