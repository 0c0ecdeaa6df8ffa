import Verif.F64.Ops
import Mathlib.Tactic.Linarith
import Mathlib.Tactic.FieldSimp
/-! # The square root of a rounded square is not smaller than the number, unless the square underflows -/

namespace Sat.F64
open Sat

theorem unit_pow : ∃ E : ℕ, E = 1074 ∧ unitN = 2 ^ E := ⟨_, rfl, unitN_eq⟩
theorem top_pow : ∃ E : ℕ, E = 2098 ∧ topN = 2 ^ E := ⟨_, rfl, topN_eq⟩

theorem abs_fin (a : Bool) (n : ℕ) (h : Rep n) : |(F64.fin a n h).val| = (n : ℝ) / unitN := by
  rw [val_fin, abs_div, abs_of_pos unit_pos]; cases a <;> simp [sgn]

/-- a normal double has a 53-bit significand -/
theorem normal_form {n : ℕ} (h : Sig n) (hn : 2 ^ 52 ≤ n) : ∃ k e : ℕ, 2 ^ 52 ≤ k ∧ k < 2 ^ 53 ∧ n = k * 2 ^ e := by
  obtain ⟨k, hk⟩ := h
  have h0 : n ≠ 0 := by have : 0 < 2 ^ 52 := by norm_num
                        omega
  have hl : 52 ≤ n.log2 := (Nat.le_log2 h0).mpr hn
  have h1 : 2 ^ n.log2 ≤ n := Nat.log2_self_le h0
  have h2 : n < 2 ^ (n.log2 + 1) := Nat.lt_log2_self
  generalize n.log2 = L at *
  obtain ⟨e, rfl⟩ : ∃ e, L = 52 + e := ⟨L - 52, by omega⟩
  rw [show 52 + e - 52 = e by omega] at hk
  rw [show 52 + e + 1 = e + 53 by omega, Nat.pow_add] at h2
  rw [show 52 + e = e + 52 by omega, Nat.pow_add] at h1
  refine ⟨k, e, ?_, ?_, by rw [hk, Nat.mul_comm]⟩
  · rw [hk] at h1; exact Nat.le_of_mul_le_mul_left h1 (Nat.pow_pos (by decide))
  · rw [hk] at h2; exact Nat.lt_of_mul_lt_mul_left h2

/-- the gap below a significand that is not a power of two -/
theorem gap_below {k e m : ℕ} (hk : 2 ^ 52 < k) (hm : Sig m) (h : m < k * 2 ^ e) : m ≤ (k - 1) * 2 ^ e := by
  by_contra hc
  have hc := not_le.mp hc
  have h1 : 2 ^ (52 + e) ≤ m := by
    refine le_trans ?_ hc.le
    rw [Nat.pow_add]
    exact Nat.mul_le_mul_right _ (by omega)
  obtain ⟨j, hj⟩ := sig_dvd hm h1
  rw [hj, Nat.mul_comm (2 ^ e) j] at h hc
  have a := Nat.lt_of_mul_lt_mul_right h
  have b := Nat.lt_of_mul_lt_mul_right hc
  omega

theorem sqrt_sq_ge {x q : F64} (hx : x.Fin) (hbig : 1 / 2 ^ 511 ≤ |x.val|) (hs : (mul x x).Fin) (hq : q.Fin)
    (hge : (mul x x).val ≤ q.val) (hfin : (sqrt q).Fin) : |x.val| ≤ (sqrt q).val := by
  have hr := mul_rounds hx hx
  have hu := unit_pos
  obtain ⟨a, n, hn, rfl⟩ := fin_cases hx
  rw [abs_fin] at hbig ⊢
  have hsq : (F64.fin a n hn).val * (F64.fin a n hn).val = (n : ℝ) / unitN * (n / unitN) := by
    rw [← abs_fin a n hn, abs_mul_abs_self]
  rw [hsq] at hr
  generalize mul (F64.fin a n hn) (F64.fin a n hn) = s at *
  clear hsq
  obtain ⟨E, hE, hU⟩ := unit_pow
  have hUR : (unitN : ℝ) = 2 ^ E := by rw [hU, Nat.cast_pow, Nat.cast_ofNat]
  have hn2 : 2 ^ (E - 511) ≤ n := by
    have : (2 : ℝ) ^ (E - 511) ≤ n := by
      rw [hUR, le_div_iff₀ (by positivity), one_div, inv_mul_eq_div] at hbig
      rw [pow_sub₀ (2 : ℝ) (by norm_num) (by omega : 511 ≤ E), ← div_eq_mul_inv]
      exact hbig
    exact_mod_cast this
  obtain ⟨k, e, hk1, hk2, rfl⟩ := normal_form hn.2 (le_trans (Nat.pow_le_pow_right (by norm_num) (by omega)) hn2)
  have he : 511 ≤ e := by
    have : 2 ^ (E - 511) < 2 ^ (53 + e) := by
      refine lt_of_le_of_lt hn2 ?_
      rw [Nat.pow_add]; exact Nat.mul_lt_mul_of_pos_right hk2 (Nat.pow_pos (by decide))
    have := (Nat.pow_lt_pow_iff_right (by norm_num : 1 < 2)).mp this
    omega
  have hq0 : 0 ≤ s.val := hr.ge hs isRep_zero (by positivity)
  have hroot := sqrt_rounds hq (le_trans hq0 hge)
  set z : ℝ := ((k * 2 ^ e : ℕ) : ℝ) / unitN with hz
  have hz0 : 0 < z := by
    have : (0 : ℝ) < ((k * 2 ^ e : ℕ) : ℝ) := by
      have : 0 < k := by have : 0 < 2 ^ 52 := by norm_num
                         omega
      positivity
    positivity
  by_contra hlt
  have hlt : (sqrt q).val < z := not_le.mp hlt
  -- the square root lies in the lower half of the gap below z
  have hw := hroot.nearest hfin (F64.fin false (k * 2 ^ e) hn) trivial
  have hv : (F64.fin false (k * 2 ^ e) hn).val = z := by rw [val_fin]; simp [sgn, hz]
  rw [hv] at hw
  have hrz : Real.sqrt q.val < z := by
    by_contra hc
    have := hroot.ge hfin (⟨F64.fin false (k * 2 ^ e) hn, trivial, hv⟩ : IsRep z) (not_lt.mp hc)
    linarith
  have hhalf : 2 * Real.sqrt q.val ≤ (sqrt q).val + z := by
    rw [abs_of_pos (by linarith : 0 < z - Real.sqrt q.val)] at hw
    have := (abs_le.mp hw).1
    linarith
  have hsqrt := Real.sq_sqrt (le_trans hq0 hge)
  have hs0 := Real.sqrt_nonneg q.val
  rcases hk1.lt_or_eq with hk | hk
  · -- ordinary case
    have hwle : (sqrt q).val ≤ (((k - 1) * 2 ^ e : ℕ) : ℝ) / unitN := by
      have hw0 : 0 ≤ (sqrt q).val := hroot.ge hfin isRep_zero hs0
      obtain ⟨b, m, hm, hmq⟩ := fin_cases hfin
      have hm' : (sqrt q).val = (m : ℝ) / unitN := by rw [← abs_fin b m hm, ← hmq, abs_of_nonneg hw0]
      rw [hm'] at hlt ⊢
      refine div_le_div_of_nonneg_right ?_ hu.le
      have : m < k * 2 ^ e := by
        rw [hz, div_lt_div_iff_of_pos_right hu] at hlt
        exact_mod_cast hlt
      exact_mod_cast gap_below hk hm.2 this
    have herr := hr.err hs
    set d : ℝ := 2 ^ e / unitN with hd
    have hd0 : 0 < d := by positivity
    have hzd : z = k * d := by rw [hz, hd]; push_cast; ring
    have hkR1 : (2 : ℝ) ^ 52 + 1 ≤ k := by exact_mod_cast hk
    have hkR2 : (k : ℝ) + 1 ≤ 2 ^ 53 := by exact_mod_cast hk2
    have hwd : (sqrt q).val ≤ (k - 1) * d := by
      refine le_trans hwle (le_of_eq ?_)
      rw [hd]; push_cast [Nat.cast_sub (by omega : 1 ≤ k)]; ring
    -- the rounded square is close to the square
    have hmax : |s.val - z * z| ≤ z * z / 2 ^ 53 := by
      have h1 : |z * z| = z * z := abs_of_pos (by positivity)
      rw [h1] at herr
      refine le_trans herr (max_le ?_ le_rfl)
      rw [hzd, hd, hUR]
      have h2 : (2 : ℝ) ^ E = 2 ^ 511 * 2 ^ (563 : ℕ) := by rw [← pow_add, hE]
      have h3 : (2 : ℝ) ^ 511 ≤ 2 ^ e := pow_le_pow_right₀ (by norm_num) he
      rw [h2, div_le_div_iff₀ (by positivity) (by positivity)]
      have h4 : (k : ℝ) * (2 ^ e / (2 ^ 511 * 2 ^ (563 : ℕ))) = k * (2 ^ e / 2 ^ 511) / 2 ^ (563 : ℕ) := by
        field_simp
      rw [h4]
      have h5 : (1 : ℝ) ≤ 2 ^ e / 2 ^ 511 := by rw [le_div_iff₀ (by positivity)]; linarith
      have h6 : (2 : ℝ) ^ 52 ≤ k * (2 ^ e / 2 ^ 511) := by nlinarith
      generalize (k : ℝ) * (2 ^ e / 2 ^ 511) = y at *
      have h7 : (2 : ℝ) ^ 52 * 2 ^ 52 ≤ y * y := by nlinarith
      have h8 : y / 2 ^ (563 : ℕ) * (y / 2 ^ (563 : ℕ)) * (2 * (2 ^ 511 * 2 ^ (563 : ℕ))) = y * y * (2 * 2 ^ 511 / 2 ^ (563 : ℕ)) := by
        field_simp
      rw [h8]
      have h9 : (2 : ℝ) * 2 ^ 511 / 2 ^ (563 : ℕ) = 1 / 2 ^ 51 := by
        rw [div_eq_div_iff (by positivity) (by positivity), one_mul, ← pow_succ', ← pow_add]
      rw [h9]
      have h10 : (1 : ℝ) * 2 ^ 53 ≤ 2 ^ 52 * 2 ^ 52 * (1 / 2 ^ 51) := by norm_num
      exact le_trans h10 (mul_le_mul_of_nonneg_right h7 (by positivity))
    have h1 := (abs_le.mp hmax).1
    have h2 : q.val ≥ z * z - z * z / 2 ^ 53 := by linarith
    have h3 : Real.sqrt q.val ≤ (k - 1 / 2) * d := by rw [hzd] at hhalf; linarith
    have h4 : q.val ≤ ((k - 1 / 2) * d) ^ 2 := by
      rw [← hsqrt]; exact pow_le_pow_left₀ hs0 h3 2
    rw [hzd] at h2
    have h5 : (k : ℝ) * k - k * k / 2 ^ 53 ≤ (k - 1 / 2) ^ 2 := by
      have : ((k : ℝ) * k - k * k / 2 ^ 53) * (d * d) ≤ (k - 1 / 2) ^ 2 * (d * d) := by
        calc _ = (k * d) * (k * d) - (k * d) * (k * d) / 2 ^ 53 := by ring
          _ ≤ _ := h2
          _ ≤ _ := h4
          _ = _ := by ring
      exact le_of_mul_le_mul_right this (by positivity)
    have h6 : (k : ℝ) * k / 2 ^ 53 ≤ k - 1 / 2 := by
      rw [div_le_iff₀ (by positivity)]
      nlinarith
    nlinarith
  · -- a power of two: the square is exact
    have hb := hr.bound hs
    obtain ⟨T, hT, hTn⟩ := top_pow
    obtain ⟨e', rfl⟩ : ∃ e', e = 511 + e' := ⟨e - 511, by omega⟩
    have hzz : z * z = ((2 ^ (52 + 2 * e') : ℕ) : ℝ) / unitN := by
      rw [hz, ← hk, hUR]
      push_cast
      have h2 : (2 : ℝ) ^ E = 2 ^ 511 * 2 ^ 511 * 2 ^ 52 := by rw [← pow_add, ← pow_add, hE]
      rw [h2, pow_add (2 : ℝ) 511, pow_add (2 : ℝ) 52, two_mul, pow_add (2 : ℝ) e' e']
      have : (2 : ℝ) ^ 511 ≠ 0 := by positivity
      generalize (2 : ℝ) ^ 511 = g at *
      field_simp
      norm_num
    rw [abs_of_pos (by positivity), hzz, div_lt_div_iff_of_pos_right hu] at hb
    have hb' : 2 ^ (52 + 2 * e') < topN := by exact_mod_cast hb
    have hrep : IsRep (z * z) := by
      rw [hzz]
      have := isRep_nat (2 ^ (52 + 2 * e')) ⟨hb', by simpa using sig_mul_pow 1 (52 + 2 * e') (by norm_num)⟩ false
      simpa [sgn] using this
    have := (hr.exact hrep).2
    have : z * z ≤ Real.sqrt q.val ^ 2 := by rw [hsqrt, ← this]; exact hge
    nlinarith

/-! ## Non-negative doubles, infinity included -/

/-- zero, a positive double or +∞ -/
def NonNeg (x : F64) : Prop := x = .inf false ∨ (x.Fin ∧ 0 ≤ x.val)

theorem zero_val (a : Bool) : (zero a).val = 0 := by
  unfold zero; rw [val_fin]; cases a <;> simp [sgn]

theorem nonNeg_of_rounds {r : ℝ} {x : F64} (h : Rounds r x) (h0 : 0 ≤ r) : NonNeg x := by
  cases x with
  | nan => exact absurd rfl h.not_nan
  | inf a =>
    cases a
    · exact Or.inl rfl
    · have := h.lower (zero false) trivial (by rw [zero_val]; exact h0)
      cases this
  | fin a n hn => exact Or.inr ⟨trivial, h.ge trivial isRep_zero h0⟩

theorem nonNeg_sq {x : F64} (hx : x.Fin) : NonNeg (mul x x) := nonNeg_of_rounds (mul_rounds hx hx) (mul_self_nonneg _)

theorem nonNeg_add {x y : F64} (hx : NonNeg x) (hy : NonNeg y) :
    NonNeg (add x y) ∧ fle x (add x y) = true ∧ fle y (add x y) = true := by
  rcases hx with rfl | ⟨hx, hx0⟩
  · rcases hy with rfl | ⟨hy, -⟩
    · exact ⟨Or.inl rfl, rfl, rfl⟩
    · obtain ⟨b, n, hn, rfl⟩ := fin_cases hy
      exact ⟨Or.inl rfl, rfl, rfl⟩
  · rcases hy with rfl | ⟨hy, hy0⟩
    · obtain ⟨b, n, hn, rfl⟩ := fin_cases hx
      exact ⟨Or.inl rfl, rfl, rfl⟩
    · have h := add_rounds hx hy
      exact ⟨nonNeg_of_rounds h (by linarith), h.lower x hx (by linarith), h.lower y hy (by linarith)⟩

theorem isRep_pow_neg (e : ℕ) (he : e ≤ 1074) : IsRep (1 / 2 ^ e : ℝ) := by
  have := isRep_int_div 1 e (by norm_num) he
  simpa using this

theorem sqrt_fin {q : F64} (hq : q.Fin) (h0 : 0 ≤ q.val) : (sqrt q).Fin ∧ 0 ≤ (sqrt q).val := by
  have h := sqrt_rounds hq h0
  have hs := Real.sqrt_nonneg q.val
  rcases le_total q.val 1 with h1 | h1
  · have := h.between isRep_zero isRep_one hs (by rw [Real.sqrt_le_left (by norm_num)]; linarith)
    exact ⟨this.1, this.2.1⟩
  · have := h.between isRep_zero (isRep_val hq) hs (by rw [Real.sqrt_le_left (by linarith)]; nlinarith)
    exact ⟨this.1, this.2.1⟩

theorem fin_of_fle {x y : F64} (hx : NonNeg x) (hy : y.Fin) (h : fle x y = true) : x.Fin ∧ x.val ≤ y.val := by
  rcases hx with rfl | ⟨hx, -⟩
  · obtain ⟨b, n, hn, rfl⟩ := fin_cases hy
    cases h
  · exact ⟨hx, (fle_fin hx hy).mp h⟩

end Sat.F64
