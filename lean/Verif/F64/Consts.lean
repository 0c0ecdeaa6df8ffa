import Verif.F64.SqrtSq
import Verif.Model.Constants
import Mathlib.Analysis.Real.Pi.Bounds
/-! # Literals and constants as doubles; doubles on a grid -/

namespace Sat
open F64

section ops
variable [Libm] (x y : F64)
@[simp] theorem f64_add : x + y = F64.add x y := rfl
@[simp] theorem f64_sub : x - y = F64.sub x y := rfl
@[simp] theorem f64_mul : x * y = F64.mul x y := rfl
@[simp] theorem f64_div : x / y = F64.div x y := rfl
@[simp] theorem f64_neg : -x = F64.neg x := rfl
@[simp] theorem f64_rem : Arith.rem x y = F64.rem x y := rfl
@[simp] theorem f64_abs : Arith.abs x = F64.abs x := rfl
@[simp] theorem f64_sqrt : Arith.sqrt x = F64.sqrt x := rfl
@[simp] theorem f64_floor : Arith.floor x = F64.floor x := rfl
@[simp] theorem f64_sin : Arith.sin x = Libm.sin x := rfl
@[simp] theorem f64_cos : Arith.cos x = Libm.cos x := rfl
@[simp] theorem f64_asin : Arith.asin x = Libm.asin x := rfl
@[simp] theorem f64_atan2 : Arith.atan2 x y = Libm.atan2 x y := rfl
@[simp] theorem f64_powf : Arith.powf x y = Libm.powf x y := rfl
@[simp] theorem f64_flt : Arith.flt x y = F64.flt x y := rfl
@[simp] theorem f64_fle : Arith.fle x y = F64.fle x y := rfl
@[simp] theorem f64_feq : Arith.feq x y = F64.feq x y := rfl
@[simp] theorem f64_ofInt (i : ℤ) : (Arith.ofInt i : F64) = F64.ofInt i := rfl
@[simp] theorem f64_toU64 : Arith.toU64 x = F64.toU64 x := rfl
@[simp] theorem f64_pi : (Arith.pi : F64) = F64.pi := rfl
@[simp] theorem f64_fracPi2 : (Arith.fracPi2 : F64) = F64.fracPi2 := rfl
@[simp] theorem f64_sci (m : ℕ) (s : Bool) (k : ℕ) : (OfScientific.ofScientific m s k : F64) = F64.sci m s k := rfl
end ops

namespace F64

/-- a literal that denotes an integer is that integer -/
theorem sci_int {m : ℕ} {s : Bool} {k : ℕ} (i : ℤ) (h : (OfScientific.ofScientific m s k : ℝ) = i) (hi : |i| ≤ 2 ^ 53) :
    (sci m s k).Fin ∧ (sci m s k).val = i := by
  have := sci_rounds m s k
  rw [h] at this
  exact this.exact (isRep_int i hi)

/-- a literal that denotes a dyadic number is that number -/
theorem sci_dyadic {m : ℕ} {s : Bool} {k : ℕ} (i : ℤ) (e : ℕ) (h : (OfScientific.ofScientific m s k : ℝ) = i / 2 ^ e)
    (hi : |i| ≤ 2 ^ 53) (he : e ≤ 1074) : (sci m s k).Fin ∧ (sci m s k).val = i / 2 ^ e := by
  have := sci_rounds m s k
  rw [h] at this
  exact this.exact (isRep_int_div i e hi he)

theorem Rounds.pow {r : ℝ} {x : F64} (h : Rounds r x) {e : ℕ} (he : e ≤ 970) (hr : |r| ≤ 2 ^ e) : x.Fin ∧ |x.val| ≤ 2 ^ e := by
  have hrep : IsRep ((2 : ℝ) ^ e) := by simpa using isRep_int_pow 1 e (by norm_num) he
  have := abs_le.mp hr
  have := h.between (isRep_neg hrep) hrep this.1 this.2
  exact ⟨this.1, abs_le.mpr this.2⟩

/-- Large doubles are multiples of a power of two. -/
theorem on_grid {x : F64} (hx : x.Fin) {j : ℕ} (hj : j ≤ 1074) (h : (2 : ℝ) ^ 52 / 2 ^ j ≤ |x.val|) : ∃ i : ℤ, x.val = i / 2 ^ j := by
  obtain ⟨a, n, hn, rfl⟩ := fin_cases hx
  have hu := unit_pos
  obtain ⟨E, hE, hU⟩ := unit_pow
  have hUR : (unitN : ℝ) = 2 ^ (E - j) * 2 ^ j := by
    rw [hU, Nat.cast_pow, Nat.cast_ofNat, ← pow_add]; congr 1; omega
  rw [abs_fin, hUR, div_le_div_iff₀ (by positivity) (by positivity), ← mul_assoc,
    mul_le_mul_iff_left₀ (by positivity)] at h
  have hn' : 2 ^ (52 + (E - j)) ≤ n := by rw [Nat.pow_add]; exact_mod_cast h
  obtain ⟨k, hk⟩ := sig_dvd hn.2 hn'
  refine ⟨sgn a k, ?_⟩
  have hkR : (n : ℝ) = 2 ^ (E - j) * k := by rw [hk]; push_cast; ring
  rw [val_fin, hUR]
  have h1 : (2 : ℝ) ^ (E - j) ≠ 0 := by positivity
  have h2 : (2 : ℝ) ^ j ≠ 0 := by positivity
  cases a <;> simp only [sgn, Bool.false_eq_true, if_false, if_true, Int.cast_neg, Int.cast_natCast, hkR] <;> field_simp

/-- absolute error of one rounding, for results up to `B` -/
theorem Rounds.err_le {r : ℝ} {x : F64} (h : Rounds r x) (hx : x.Fin) {B : ℝ} (hB : 1 / 2 ^ 100 ≤ B) (hr : |r| ≤ B) :
    |x.val - r| ≤ B / 2 ^ 53 := by
  refine le_trans (h.err hx) (max_le ?_ (div_le_div_of_nonneg_right hr (by positivity)))
  have hu := unit_pos
  obtain ⟨E, hE, hU⟩ := unit_pow
  have h1 : (2 : ℝ) ^ 153 ≤ unitN := by
    rw [hU, Nat.cast_pow, Nat.cast_ofNat]; exact pow_le_pow_right₀ (by norm_num) (by omega)
  have h2 : (1 : ℝ) / (2 * unitN) ≤ 1 / 2 ^ 100 / 2 ^ 53 := by
    rw [div_div, ← pow_add]
    exact one_div_le_one_div_of_le (by positivity) (by rw [show 100 + 53 = 153 from rfl]; linarith)
  exact le_trans h2 (div_le_div_of_nonneg_right hB (by positivity))

theorem rep_unit : Rep unitN := by
  refine ⟨?_, ?_⟩
  · obtain ⟨E, hE, hU⟩ := unit_pow
    obtain ⟨T, hT, hTn⟩ := top_pow
    rw [hU, hTn]; exact Nat.pow_lt_pow_right (by norm_num) (by omega)
  · obtain ⟨E, hE, hU⟩ := unit_pow
    rw [hU]; simpa using sig_mul_pow 1 E (by norm_num)

/-- the fractional part of a non-negative double is a double -/
theorem isRep_frac {x : F64} (hx : x.Fin) (h0 : 0 ≤ x.val) : IsRep (x.val - ⌊x.val⌋) := by
  obtain ⟨a, n, hn, rfl⟩ := fin_cases hx
  have hu := unit_pos
  have hv : (F64.fin a n hn).val = (n : ℝ) / unitN := by rw [← abs_of_nonneg h0, abs_fin]
  have hf : ⌊((n : ℝ) / unitN)⌋ = ((n / unitN : ℕ) : ℤ) := by
    rw [← Nat.floor_div_eq_div (K := ℝ) n unitN, Int.natCast_floor_eq_floor (by positivity)]
  have h := isRep_nat (n % unitN) (rep_mod hn rep_unit unitN_pos.ne') false
  rw [hv, hf]
  have e : (n : ℝ) / unitN - (((n / unitN : ℕ) : ℤ) : ℝ) = ((sgn false (n % unitN) : ℤ) : ℝ) / unitN := by
    have hm : ((unitN * (n / unitN) + n % unitN : ℕ) : ℝ) = n := by exact_mod_cast Nat.div_add_mod n unitN
    rw [eq_div_iff hu.ne', sub_mul, div_mul_cancel₀ _ hu.ne']
    simp only [sgn, Bool.false_eq_true, if_false, Int.cast_natCast]
    push_cast at hm
    linarith
  rw [e]; exact h

/-- a double below 1 is at most 1 - 2^-53 -/
theorem lt_one_le {x : F64} (hx : x.Fin) (h : x.val < 1) : x.val ≤ 1 - 1 / 2 ^ 53 := by
  by_cases h2 : 1 / 2 ≤ x.val
  · obtain ⟨i, hi⟩ := on_grid hx (j := 53) (by norm_num) (by rw [abs_of_nonneg (by linarith)]; norm_num; linarith)
    rw [hi] at h ⊢
    rw [div_lt_one (by positivity)] at h
    have : i < 2 ^ 53 := by exact_mod_cast h
    have : i ≤ 2 ^ 53 - 1 := by omega
    have : (i : ℝ) ≤ 2 ^ 53 - 1 := by exact_mod_cast this
    rw [div_le_iff₀ (by positivity)]
    norm_num at this ⊢
    linarith
  · refine le_trans (not_le.mp h2).le ?_
    norm_num

/-- Scaling a fraction by 24 or 60 never rounds up to 24 or 60. -/
theorem scale_lt {g c : F64} (hg : g.Fin) (hc : c.Fin) (h0 : 0 ≤ g.val) (h1 : g.val < 1) {K e : ℝ} (hK : c.val = K) (hK0 : 0 < K)
    (he : 0 < e) (hrep : IsRep (K - e)) (hsmall : e < 2 * (K / 2 ^ 53)) :
    (mul g c).Fin ∧ 0 ≤ (mul g c).val ∧ (mul g c).val < K := by
  have hr := mul_rounds hg hc
  rw [hK] at hr
  have hKr : IsRep K := hK ▸ isRep_val hc
  obtain ⟨f, b1, b2⟩ := hr.between isRep_zero hKr (by positivity) (by nlinarith)
  refine ⟨f, b1, ?_⟩
  by_contra hge
  have heq : (mul g c).val = K := le_antisymm b2 (not_lt.mp hge)
  obtain ⟨m, hm, hmv⟩ := hrep
  have hn := hr.nearest f m hm
  rw [heq, hmv] at hn
  have hg1 := lt_one_le hg h1
  have hd : K / 2 ^ 53 ≤ K - g.val * K := by
    have : K * g.val ≤ K * (1 - 1 / 2 ^ 53) := mul_le_mul_of_nonneg_left hg1 hK0.le
    have e1 : K * (1 - 1 / 2 ^ 53) = K - K / 2 ^ 53 := by ring
    linarith
  have hpos : 0 < K / 2 ^ 53 := by positivity
  rw [abs_of_nonneg (by linarith : 0 ≤ K - g.val * K)] at hn
  have : |K - e - g.val * K| < K - g.val * K := by
    rw [abs_lt]; constructor <;> linarith
  linarith

/-- An integer quotient rounded to a double has the right integer part. -/
theorem floor_quot {x y : F64} (hx : x.Fin) (hy : y.Fin) (a b : ℕ) (ha : x.val = a) (hb : y.val = b) (hb0 : 0 < b) (hb1 : b ≤ 1024)
    (ha1 : a ≤ 2 ^ 40) : (F64.floor (div x y)).Fin ∧ (F64.floor (div x y)).val = ((a / b : ℕ) : ℝ) := by
  have hbR : (0 : ℝ) < b := by exact_mod_cast hb0
  have hr := div_rounds hx hy (by rw [hb]; exact hbR.ne')
  rw [ha, hb] at hr
  have hq := Nat.div_add_mod a b
  have hlt := Nat.mod_lt a hb0
  have hq1 : a / b ≤ 2 ^ 40 := le_trans (Nat.div_le_self _ _) ha1
  have r1 : IsRep (((a / b : ℕ) : ℝ)) := by
    have := isRep_int ((a / b : ℕ) : ℤ) (by rw [abs_of_nonneg (by positivity)]; exact_mod_cast le_trans hq1 (by norm_num))
    rwa [Int.cast_natCast] at this
  have r2 : IsRep ((((a / b : ℕ) + 1) * 1024 - 1 : ℝ) / 1024) := by
    have := isRep_int_div ((((a / b : ℕ) : ℤ) + 1) * 1024 - 1) 10 (by
      rw [abs_of_nonneg (by have : (0 : ℤ) ≤ ((a / b : ℕ) : ℤ) := by positivity
                            omega)]
      have : ((a / b : ℕ) : ℤ) ≤ 2 ^ 40 := by exact_mod_cast hq1
      norm_num at this ⊢
      omega) (by norm_num)
    push_cast at this
    norm_num at this ⊢
    exact this
  have hqR : (b : ℝ) * ((a / b : ℕ) : ℝ) + ((a % b : ℕ) : ℝ) = a := by exact_mod_cast hq
  have hmR : ((a % b : ℕ) : ℝ) + 1 ≤ b := by exact_mod_cast hlt
  have hm0 : (0 : ℝ) ≤ ((a % b : ℕ) : ℝ) := by positivity
  have hbR2 : (b : ℝ) ≤ 1024 := by exact_mod_cast hb1
  obtain ⟨f, g1, g2⟩ := hr.between r1 r2 (by rw [le_div_iff₀ hbR]; linarith) (by
    rw [div_le_div_iff₀ hbR (by norm_num)]
    generalize ((a / b : ℕ) : ℝ) = q at *
    generalize ((a % b : ℕ) : ℝ) = r at *
    nlinarith)
  have hf := floor_val f
  refine ⟨hf.1, ?_⟩
  rw [hf.2]
  have : ⌊(div x y).val⌋ = ((a / b : ℕ) : ℤ) := by
    rw [Int.floor_eq_iff]
    refine ⟨by rw [Int.cast_natCast]; exact g1, lt_of_le_of_lt g2 ?_⟩
    rw [div_lt_iff₀ (by norm_num)]
    simp only [Int.cast_natCast]
    linarith
  rw [this, Int.cast_natCast]

/-! ## Overflow analysis -/

/-- finite and of magnitude at most `2^e` -/
def Bd (x : F64) (e : ℕ) : Prop := x.Fin ∧ |x.val| ≤ 2 ^ e

theorem Bd.mono {x : F64} {a b : ℕ} (h : Bd x a) (hab : a ≤ b) : Bd x b :=
  ⟨h.1, le_trans h.2 (pow_le_pow_right₀ (by norm_num) hab)⟩

theorem Bd.mul {x y : F64} {a b : ℕ} (hx : Bd x a) (hy : Bd y b) (h : a + b ≤ 970) : Bd (F64.mul x y) (a + b) := by
  refine (mul_rounds hx.1 hy.1).pow h ?_
  rw [abs_mul, pow_add]
  exact mul_le_mul hx.2 hy.2 (abs_nonneg _) (by positivity)

theorem Bd.add {x y : F64} {a : ℕ} (hx : Bd x a) (hy : Bd y a) (h : a + 1 ≤ 970) : Bd (F64.add x y) (a + 1) := by
  refine (add_rounds hx.1 hy.1).pow h ?_
  have := abs_add_le x.val y.val
  rw [pow_succ]; linarith [hx.2, hy.2]

theorem Bd.sub {x y : F64} {a : ℕ} (hx : Bd x a) (hy : Bd y a) (h : a + 1 ≤ 970) : Bd (F64.sub x y) (a + 1) := by
  refine (sub_rounds hx.1 hy.1).pow h ?_
  have := abs_sub x.val y.val
  rw [pow_succ]; linarith [hx.2, hy.2]

theorem Bd.div {x y : F64} {a : ℕ} (hx : Bd x a) (hy : y.Fin) (h1 : 1 ≤ |y.val|) (h : a ≤ 970) : Bd (F64.div x y) a := by
  have h0 : y.val ≠ 0 := by rintro h; rw [h] at h1; norm_num at h1
  refine (div_rounds hx.1 hy h0).pow h ?_
  rw [abs_div, div_le_iff₀ (by linarith)]
  nlinarith [hx.2, abs_nonneg x.val, show (0 : ℝ) < 2 ^ a by positivity]

theorem Bd.neg {x : F64} {a : ℕ} (hx : Bd x a) : Bd (F64.neg x) a := by
  have := neg_val hx.1
  exact ⟨this.1, by rw [this.2, abs_neg]; exact hx.2⟩

theorem bd_sci (m : ℕ) (s : Bool) (k : ℕ) (e : ℕ) (he : e ≤ 970) (h : |(OfScientific.ofScientific m s k : ℝ)| ≤ 2 ^ e) :
    Bd (sci m s k) e := (sci_rounds m s k).pow he h

theorem pi_val : F64.pi.Fin ∧ F64.pi.val = 884279719003555 / 2 ^ 48 := by
  have h := ofQ_rounds false (884279719003555 * unitN) (2 ^ 48) (by norm_num)
  have e : (if false = true then -(((884279719003555 * unitN : ℕ) : ℝ) / ((2 ^ 48 : ℕ) : ℝ)) else
      ((884279719003555 * unitN : ℕ) : ℝ) / ((2 ^ 48 : ℕ) : ℝ)) / unitN = ((884279719003555 : ℤ) : ℝ) / 2 ^ 48 := by
    have hu := unit_pos.ne'
    rw [if_neg (by decide), Nat.cast_mul]
    generalize (unitN : ℝ) = u at *
    push_cast
    field_simp
    norm_num
  rw [e] at h
  have h := h.exact (isRep_int_div _ 48 (by norm_num) (by norm_num))
  rw [Int.cast_ofNat] at h
  unfold F64.pi
  exact h

theorem fracPi2_val : F64.fracPi2.Fin ∧ F64.fracPi2.val = 884279719003555 / 2 ^ 49 := by
  have h := ofQ_rounds false (884279719003555 * unitN) (2 ^ 49) (by norm_num)
  have e : (if false = true then -(((884279719003555 * unitN : ℕ) : ℝ) / ((2 ^ 49 : ℕ) : ℝ)) else
      ((884279719003555 * unitN : ℕ) : ℝ) / ((2 ^ 49 : ℕ) : ℝ)) / unitN = ((884279719003555 : ℤ) : ℝ) / 2 ^ 49 := by
    have hu := unit_pos.ne'
    rw [if_neg (by decide), Nat.cast_mul]
    generalize (unitN : ℝ) = u at *
    push_cast
    field_simp
    norm_num
  rw [e] at h
  have h := h.exact (isRep_int_div _ 49 (by norm_num) (by norm_num))
  rw [Int.cast_ofNat] at h
  unfold F64.fracPi2
  exact h

theorem lit_two : (sci 20 true 1).Fin ∧ (sci 20 true 1).val = 2 := by
  simpa using sci_int (m := 20) (s := true) (k := 1) 2 (by norm_num) (by norm_num)

theorem lit_zero : (sci 0 true 1).Fin ∧ (sci 0 true 1).val = 0 := by
  simpa using sci_int (m := 0) (s := true) (k := 1) 0 (by norm_num) (by norm_num)

theorem lit_one : (sci 10 true 1).Fin ∧ (sci 10 true 1).val = 1 := by
  simpa using sci_int (m := 10) (s := true) (k := 1) 1 (by norm_num) (by norm_num)

theorem two_pi_val [Libm] : (TWO_PI : F64).Fin ∧ (TWO_PI : F64).val = 884279719003555 / 2 ^ 47 := by
  show (mul F64.pi (sci 20 true 1)).Fin ∧ (mul F64.pi (sci 20 true 1)).val = _
  have h := mul_rounds pi_val.1 lit_two.1
  rw [pi_val.2, lit_two.2] at h
  have e : (884279719003555 / 2 ^ 48 * 2 : ℝ) = ((884279719003555 : ℤ) : ℝ) / 2 ^ 47 := by norm_num
  rw [e] at h
  have h := h.exact (isRep_int_div _ 47 (by norm_num) (by norm_num))
  rw [Int.cast_ofNat] at h
  exact h

/-- the double nearest to π is smaller than π -/
theorem pi_lt : F64.pi.val < Real.pi := by
  rw [pi_val.2]
  have := Real.pi_gt_d20
  refine lt_trans ?_ this
  norm_num

theorem two_pi_lt [Libm] : (TWO_PI : F64).val < 2 * Real.pi := by
  have := pi_lt
  rw [pi_val.2] at this
  rw [two_pi_val.2]
  have e : (884279719003555 / 2 ^ 47 : ℝ) = 2 * (884279719003555 / 2 ^ 48) := by norm_num
  rw [e]; linarith

end F64
end Sat
