import Verif.F64.Real
import Mathlib.Algebra.Order.Floor.Semifield
/-! # The exact operations on doubles: remainder, floor, conversion to an integer -/

namespace Sat.F64
open Sat

theorem ofQ_one (a : Bool) (n : ℕ) (h : Rep n) : ofQ a n 1 = .fin a n h := by
  unfold ofQ mk
  simp only [roundN_exact n h.2]
  rw [dif_pos h.1]

/-- a significand of at least `2^53` units is a multiple of a power of two -/
theorem sig_dvd {n e : ℕ} (h : Sig n) (hn : 2 ^ (52 + e) ≤ n) : 2 ^ e ∣ n := by
  have h0 : n ≠ 0 := by have : 0 < 2 ^ (52 + e) := Nat.pow_pos (by decide); omega
  have : 52 + e ≤ n.log2 := (Nat.le_log2 h0).mpr hn
  exact Nat.dvd_trans (Nat.pow_dvd_pow 2 (by omega)) h

theorem rep_mod {m n : ℕ} (hm : Rep m) (hn : Rep n) (h0 : n ≠ 0) : Rep (m % n) := by
  by_cases hlt : m < n
  · rw [Nat.mod_eq_of_lt hlt]; exact hm
  · have hlog : n.log2 ≤ m.log2 := by
      rw [Nat.le_log2 (by omega)]
      exact le_trans (Nat.log2_self_le h0) (not_lt.mp hlt)
    have hd : 2 ^ (n.log2 - 52) ∣ m % n :=
      (Nat.dvd_mod_iff hn.2).mpr (Nat.dvd_trans (Nat.pow_dvd_pow 2 (by omega)) hm.2)
    obtain ⟨k, hk⟩ := hd
    have hlt' : m % n < n := Nat.mod_lt _ (Nat.pos_of_ne_zero h0)
    refine ⟨lt_trans hlt' hn.1, ?_⟩
    rw [hk, Nat.mul_comm]
    apply sig_mul_pow
    have h1 : 2 ^ (n.log2 - 52) * k < 2 ^ (n.log2 + 1) := by rw [← hk]; exact lt_trans hlt' Nat.lt_log2_self
    have h2 : 2 ^ (n.log2 + 1) ≤ 2 ^ (n.log2 - 52) * 2 ^ 53 := by
      rw [← Nat.pow_add]; exact Nat.pow_le_pow_right (by decide) (by omega)
    exact le_of_lt (Nat.lt_of_mul_lt_mul_left (lt_of_lt_of_le h1 h2))

theorem truncR_neg (x : ℝ) : truncR (-x) = -truncR x := by
  unfold truncR
  rcases lt_trichotomy x 0 with h | h | h
  · rw [if_pos (by linarith), if_neg (by linarith), Int.floor_neg]
  · subst h; simp
  · rw [if_neg (by linarith), if_pos h.le, Int.ceil_neg]

theorem truncR_nat (m n : ℕ) : truncR ((m : ℝ) / n) = (m / n : ℕ) := by
  unfold truncR
  rw [if_pos (by positivity), ← Nat.floor_div_eq_div (K := ℝ) m n, Int.natCast_floor_eq_floor (by positivity)]

/-- `%` is exact. -/
theorem rem_val {x y : F64} (hx : x.Fin) (hy : y.Fin) (h0 : y.val ≠ 0) : (rem x y).Fin ∧ (rem x y).val = remR x.val y.val := by
  obtain ⟨a, m, hm, rfl⟩ := fin_cases hx
  obtain ⟨b, n, hn, rfl⟩ := fin_cases hy
  have hn0 : n ≠ 0 := by rintro rfl; apply h0; rw [val_fin]; simp [sgn]
  have e : rem (.fin a m hm) (.fin b n hn) = .fin a (m % n) (rep_mod hm hn hn0) := by
    show (if n = 0 then F64.nan else ofQ a (m % n) 1) = _
    rw [if_neg hn0, ofQ_one a _ (rep_mod hm hn hn0)]
  rw [e]
  refine ⟨trivial, ?_⟩
  rw [val_fin, val_fin, val_fin]
  unfold remR
  rw [div_div_div_cancel_right₀ unit_pos.ne']
  have hmod : ((m % n : ℕ) : ℝ) = m - n * (m / n : ℕ) := by
    have := Nat.div_add_mod m n
    have : ((n * (m / n) + m % n : ℕ) : ℝ) = m := by exact_mod_cast this
    push_cast at this
    linarith
  have hu := unit_pos.ne'
  generalize (unitN : ℝ) = u at hu ⊢
  have ht : truncR ((sgn a m : ℝ) / (sgn b n : ℝ)) = if (a ^^ b) then -((m / n : ℕ) : ℤ) else ((m / n : ℕ) : ℤ) := by
    rw [← truncR_nat]
    cases a <;> cases b <;> simp [sgn, neg_div, div_neg, truncR_neg]
  rw [ht]
  field_simp
  cases a <;> cases b <;> simp only [sgn, Bool.false_eq_true, if_true, if_false, Bool.xor_false, Bool.xor_true, Bool.not_true,
    Bool.not_false, Int.cast_neg, Int.cast_natCast, hmod] <;> ring

/-- a double of magnitude at least `2^52` is an integer -/
theorem big_is_int {x : F64} (hx : x.Fin) (h : (2 : ℝ) ^ 52 ≤ |x.val|) : ∃ i : ℤ, x.val = i := by
  obtain ⟨a, n, hn, rfl⟩ := fin_cases hx
  have hu := unit_pos
  have hv : |(F64.fin a n hn).val| = (n : ℝ) / unitN := by
    rw [val_fin, abs_div, abs_of_pos hu]; cases a <;> simp [sgn]
  rw [hv, le_div_iff₀ hu] at h
  have hn' : 2 ^ 52 * unitN ≤ n := by exact_mod_cast h
  have hdvd : unitN ∣ n := by
    obtain ⟨e, he⟩ : ∃ e, unitN = 2 ^ e := ⟨_, unitN_eq⟩
    rw [he, ← Nat.pow_add] at hn'
    rw [he]
    exact sig_dvd hn.2 hn'
  obtain ⟨k, hk⟩ := hdvd
  refine ⟨sgn a k, ?_⟩
  rw [val_fin, div_eq_iff hu.ne']
  have hkR : (n : ℝ) = unitN * k := by rw [hk, Nat.cast_mul]
  cases a <;> simp [sgn, hkR, mul_comm]

theorem isRep_floor {x : F64} (hx : x.Fin) : IsRep (⌊x.val⌋ : ℝ) := by
  by_cases h : (2 : ℝ) ^ 52 ≤ |x.val|
  · obtain ⟨i, hi⟩ := big_is_int hx h
    rw [hi, Int.floor_intCast, ← hi]
    exact isRep_val hx
  · apply isRep_int
    have h1 := Int.floor_le x.val
    have h2 := Int.lt_floor_add_one x.val
    have h3 := abs_lt.mp (not_le.mp h)
    have : |(⌊x.val⌋ : ℝ)| ≤ 2 ^ 53 := by
      rw [abs_le]
      have : (2 : ℝ) ^ 53 = 2 * 2 ^ 52 := by norm_num
      constructor <;> [nlinarith [show (1 : ℝ) ≤ 2 ^ 52 by norm_num]; linarith [show (0 : ℝ) < 2 ^ 52 by norm_num]]
    exact_mod_cast this

theorem floor_pos (n : ℕ) (hn : Rep n) : floor (.fin false n hn) = ofQ false (n / unitN * unitN) 1 := by
  simp only [floor, Bool.false_eq_true, if_false]

theorem floor_neg (n : ℕ) (hn : Rep n) : floor (.fin true n hn) = ofQ true ((n + (unitN - 1)) / unitN * unitN) 1 := by
  simp only [floor, if_true]

/-- `floor` is exact. -/
theorem floor_val {x : F64} (hx : x.Fin) : (floor x).Fin ∧ (floor x).val = ⌊x.val⌋ := by
  have hrep := isRep_floor hx
  obtain ⟨a, n, hn, rfl⟩ := fin_cases hx
  have hr : Rounds (⌊(F64.fin a n hn).val⌋ : ℝ) (floor (.fin a n hn)) := by
    have hU := unitN_pos
    have hu := unit_pos
    cases a
    · have := ofQ_rounds false (n / unitN * unitN) 1 (by decide)
      have e : (if false = true then -(((n / unitN * unitN : ℕ) : ℝ) / (1 : ℕ)) else ((n / unitN * unitN : ℕ) : ℝ) / (1 : ℕ)) / unitN =
          (⌊(F64.fin false n hn).val⌋ : ℝ) := by
        rw [val_fin]
        simp only [Bool.false_eq_true, if_false, sgn, Int.cast_natCast, Nat.cast_one, div_one]
        have : ⌊((n : ℝ) / unitN)⌋ = ((n / unitN : ℕ) : ℤ) := by
          rw [← Nat.floor_div_eq_div (K := ℝ) n unitN, Int.natCast_floor_eq_floor (by positivity)]
        rw [this, Nat.cast_mul, mul_div_assoc, div_self hu.ne', mul_one, Int.cast_natCast]
      rw [e] at this
      rw [floor_pos]
      exact this
    · have := ofQ_rounds true ((n + (unitN - 1)) / unitN * unitN) 1 (by decide)
      have e : (if true = true then -((((n + (unitN - 1)) / unitN * unitN : ℕ) : ℝ) / (1 : ℕ)) else (((n + (unitN - 1)) / unitN * unitN : ℕ) : ℝ) / (1 : ℕ)) / unitN =
          (⌊(F64.fin true n hn).val⌋ : ℝ) := by
        rw [val_fin]
        simp only [if_true, sgn, Int.cast_neg, Int.cast_natCast, Nat.cast_one, div_one]
        have : ⌊(-(n : ℝ) / unitN)⌋ = -(((n + (unitN - 1)) / unitN : ℕ) : ℤ) := by
          rw [Int.floor_eq_iff]
          have hq := Nat.div_add_mod (n + (unitN - 1)) unitN
          have hm := Nat.mod_lt (n + (unitN - 1)) hU
          generalize (n + (unitN - 1)) / unitN = q at *
          generalize (n + (unitN - 1)) % unitN = r at *
          have h1 : n ≤ unitN * q := by omega
          have h2 : unitN * q < n + unitN := by omega
          have h1' : (n : ℝ) ≤ unitN * q := by exact_mod_cast h1
          have h2' : (unitN : ℝ) * q < n + unitN := by exact_mod_cast h2
          push_cast
          constructor
          · rw [le_div_iff₀ hu]; linarith
          · rw [div_lt_iff₀ hu]; linarith
        rw [this, Nat.cast_mul, neg_div, mul_div_assoc, div_self hu.ne', mul_one]; push_cast; rfl
      rw [e] at this
      rw [floor_neg]
      exact this
  exact hr.exact hrep

/-- the saturating cast -/
theorem toU64_val {x : F64} (hx : x.Fin) : toU64 x = toU64R x.val := by
  obtain ⟨a, n, hn, rfl⟩ := fin_cases hx
  show (if a = true then 0 else min (n / unitN) (2 ^ 64 - 1)) = _
  unfold toU64R
  rw [val_fin]
  cases a
  · simp only [Bool.false_eq_true, if_false, sgn, Int.cast_natCast]
    rw [Nat.floor_div_eq_div]
  · simp only [if_true, sgn, Int.cast_neg, Int.cast_natCast]
    rw [Nat.floor_of_nonpos]
    · simp
    · have hu := unit_pos
      apply div_nonpos_of_nonpos_of_nonneg
      · have : (0 : ℝ) ≤ n := Nat.cast_nonneg n
        linarith
      · exact hu.le

/-! ## NaN in, NaN out -/

@[simp] theorem add_nan (x : F64) : add x .nan = .nan := by cases x <;> rfl
@[simp] theorem nan_add (x : F64) : add .nan x = .nan := by cases x <;> rfl
@[simp] theorem sub_nan (x : F64) : sub x .nan = .nan := by cases x <;> rfl
@[simp] theorem nan_sub (x : F64) : sub .nan x = .nan := by cases x <;> rfl
@[simp] theorem mul_nan (x : F64) : mul x .nan = .nan := by cases x <;> rfl
@[simp] theorem nan_mul (x : F64) : mul .nan x = .nan := by cases x <;> rfl
@[simp] theorem div_nan (x : F64) : div x .nan = .nan := by cases x <;> rfl
@[simp] theorem nan_div (x : F64) : div .nan x = .nan := by cases x <;> rfl
@[simp] theorem rem_nan (x : F64) : rem x .nan = .nan := by cases x <;> rfl
@[simp] theorem nan_rem (x : F64) : rem .nan x = .nan := by cases x <;> rfl
@[simp] theorem neg_nan : neg .nan = .nan := rfl
@[simp] theorem abs_nan : F64.abs .nan = .nan := rfl
@[simp] theorem sqrt_nan : sqrt .nan = .nan := rfl
@[simp] theorem floor_nan : floor .nan = .nan := rfl
@[simp] theorem flt_nan (x : F64) : flt x .nan = false := by cases x <;> rfl
@[simp] theorem nan_flt (x : F64) : flt .nan x = false := by cases x <;> rfl
@[simp] theorem fle_nan (x : F64) : fle x .nan = false := by cases x <;> rfl
@[simp] theorem nan_fle (x : F64) : fle .nan x = false := by cases x <;> rfl
@[simp] theorem feq_nan (x : F64) : feq x .nan = false := by cases x <;> rfl
@[simp] theorem nan_feq (x : F64) : feq .nan x = false := by cases x <;> rfl

end Sat.F64
