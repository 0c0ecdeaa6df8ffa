import Verif.F64.LibmSpec
/-!
# A calculus of rounding errors

`Q x r M δ`: the double `x` is finite and within `δ` of the real number `r`, which is at most `M` in magnitude.  One lemma per
operation; magnitudes and errors are combined by the obvious formulas, so a computation in doubles is compared with the same
computation in real numbers operation by operation.

`QA` is the same for angles: equality is modulo whole turns, and the magnitude is that of the double.
-/

namespace Sat
open F64
namespace F64

structure Q (x : F64) (r M δ : ℝ) : Prop where
  fin : x.Fin
  err : |x.val - r| ≤ δ
  mag : |r| ≤ M

/-- a rounding with absolute error -/
theorem Rounds.near {r B : ℝ} {x : F64} (h : Rounds r x) (hr : |r| ≤ B) (hB : B ≤ 2 ^ 100) :
    x.Fin ∧ |x.val - r| ≤ B / 2 ^ 53 + 1 / 2 ^ 153 := by
  have hB0 : 0 ≤ B := le_trans (abs_nonneg _) hr
  have hf := (h.pow (e := 100) (by norm_num) (hr.trans hB)).1
  refine ⟨hf, (h.err_le hf (B := B + 1 / 2 ^ 100) (by linarith) (hr.trans (by norm_num))).trans ?_⟩
  rw [add_div]
  norm_num

variable {x y : F64} {a b A B δ ε : ℝ}

theorem Q.exact (h : x.Fin) (hA : |x.val| ≤ A) : Q x x.val A 0 := ⟨h, by simp, hA⟩

theorem Q.mono (h : Q x a A δ) {A' δ' : ℝ} (h1 : A ≤ A') (h2 : δ ≤ δ') : Q x a A' δ' := ⟨h.fin, h.err.trans h2, h.mag.trans h1⟩

/-- a better bound of the real number -/
theorem Q.bound (h : Q x a A δ) {A' : ℝ} (h1 : |a| ≤ A') : Q x a A' δ := ⟨h.fin, h.err, h1⟩

theorem Q.to (h : Q x a A δ) {a' : ℝ} (e : a = a') : Q x a' A δ := e ▸ h

theorem Q.nonneg_err (h : Q x a A δ) : 0 ≤ δ := (abs_nonneg _).trans h.err
theorem Q.nonneg_mag (h : Q x a A δ) : 0 ≤ A := (abs_nonneg _).trans h.mag

theorem Q.val_le (h : Q x a A δ) : |x.val| ≤ A + δ := by
  have h1 : |x.val| = |a + (x.val - a)| := by congr 1; ring
  rw [h1]
  exact (abs_add_le _ _).trans (add_le_add h.mag h.err)

section
variable [Libm]

theorem Q.add (hx : Q x a A δ) (hy : Q y b B ε) (h : A + B + δ + ε ≤ 2 ^ 100 := by norm_num) :
    Q (x + y) (a + b) (A + B) (δ + ε + ((A + B + δ + ε) / 2 ^ 53 + 1 / 2 ^ 153)) := by
  show Q (F64.add x y) _ _ _
  have hr := add_rounds hx.fin hy.fin
  have hv : |x.val + y.val| ≤ A + B + δ + ε := by
    refine (abs_add_le _ _).trans ?_; linarith [hx.val_le, hy.val_le]
  obtain ⟨hf, he⟩ := hr.near hv h
  refine ⟨hf, ?_, (abs_add_le _ _).trans (add_le_add hx.mag hy.mag)⟩
  have e : (F64.add x y).val - (a + b) = ((F64.add x y).val - (x.val + y.val)) + ((x.val - a) + (y.val - b)) := by ring
  rw [e]
  refine (abs_add_le _ _).trans ?_
  have := abs_add_le (x.val - a) (y.val - b)
  linarith [hx.err, hy.err]

theorem Q.neg (hx : Q x a A δ) : Q (-x) (-a) A δ := by
  show Q (F64.neg x) _ _ _
  obtain ⟨h1, h2⟩ := neg_val hx.fin
  refine ⟨h1, ?_, by rw [abs_neg]; exact hx.mag⟩
  rw [h2, show -x.val - -a = -(x.val - a) by ring, abs_neg]; exact hx.err

theorem Q.abs (hx : Q x a A δ) : Q (Arith.abs x) |a| A δ := by
  show Q (F64.abs x) _ _ _
  obtain ⟨h1, h2⟩ := abs_val hx.fin
  refine ⟨h1, ?_, by rw [abs_abs]; exact hx.mag⟩
  rw [h2]; exact (abs_abs_sub_abs_le _ _).trans hx.err

theorem Q.sub (hx : Q x a A δ) (hy : Q y b B ε) (h : A + B + δ + ε ≤ 2 ^ 100 := by norm_num) :
    Q (x - y) (a - b) (A + B) (δ + ε + ((A + B + δ + ε) / 2 ^ 53 + 1 / 2 ^ 153)) := by
  show Q (F64.sub x y) _ _ _
  have hr := sub_rounds hx.fin hy.fin
  have hv : |x.val - y.val| ≤ A + B + δ + ε := by
    refine (abs_sub _ _).trans ?_; linarith [hx.val_le, hy.val_le]
  obtain ⟨hf, he⟩ := hr.near hv h
  refine ⟨hf, ?_, (abs_sub _ _).trans (add_le_add hx.mag hy.mag)⟩
  have e : (F64.sub x y).val - (a - b) = ((F64.sub x y).val - (x.val - y.val)) + ((x.val - a) - (y.val - b)) := by ring
  rw [e]
  refine (abs_add_le _ _).trans ?_
  have := abs_sub (x.val - a) (y.val - b)
  linarith [hx.err, hy.err]

/-- sum and difference whose magnitude `C` is known by other means -/
theorem Q.add' (hx : Q x a A δ) (hy : Q y b B ε) (C : ℝ) (hC : |a + b| ≤ C) (h : C + δ + ε ≤ 2 ^ 100 := by norm_num) :
    Q (x + y) (a + b) C (δ + ε + ((C + δ + ε) / 2 ^ 53 + 1 / 2 ^ 153)) := by
  show Q (F64.add x y) _ _ _
  have e0 : x.val + y.val = (a + b) + ((x.val - a) + (y.val - b)) := by ring
  have h0 := (abs_add_le (x.val - a) (y.val - b)).trans (add_le_add hx.err hy.err)
  have hv : |x.val + y.val| ≤ C + δ + ε := by
    rw [e0]; exact (abs_add_le _ _).trans (by linarith)
  obtain ⟨hf, he⟩ := (add_rounds hx.fin hy.fin).near hv h
  refine ⟨hf, ?_, hC⟩
  have e : (F64.add x y).val - (a + b) = ((F64.add x y).val - (x.val + y.val)) + ((x.val - a) + (y.val - b)) := by ring
  rw [e]
  refine (abs_add_le _ _).trans ?_
  linarith

theorem Q.sub' (hx : Q x a A δ) (hy : Q y b B ε) (C : ℝ) (hC : |a - b| ≤ C) (h : C + δ + ε ≤ 2 ^ 100 := by norm_num) :
    Q (x - y) (a - b) C (δ + ε + ((C + δ + ε) / 2 ^ 53 + 1 / 2 ^ 153)) := by
  show Q (F64.sub x y) _ _ _
  have e0 : x.val - y.val = (a - b) + ((x.val - a) - (y.val - b)) := by ring
  have h0 := (abs_sub (x.val - a) (y.val - b)).trans (add_le_add hx.err hy.err)
  have hv : |x.val - y.val| ≤ C + δ + ε := by
    rw [e0]; exact (abs_add_le _ _).trans (by linarith)
  obtain ⟨hf, he⟩ := (sub_rounds hx.fin hy.fin).near hv h
  refine ⟨hf, ?_, hC⟩
  have e : (F64.sub x y).val - (a - b) = ((F64.sub x y).val - (x.val - y.val)) + ((x.val - a) - (y.val - b)) := by ring
  rw [e]
  refine (abs_add_le _ _).trans ?_
  linarith

omit [Libm] in
theorem mul_err {p q a b A B δ ε : ℝ} (h1 : |p - a| ≤ δ) (h2 : |q - b| ≤ ε) (ha : |a| ≤ A) (hb : |b| ≤ B) :
    |p * q - a * b| ≤ δ * B + ε * A + δ * ε := by
  have e : p * q - a * b = (p - a) * b + (q - b) * a + (p - a) * (q - b) := by ring
  have hδ := (abs_nonneg _).trans h1
  have hε := (abs_nonneg _).trans h2
  rw [e]
  refine (abs_add_le _ _).trans (add_le_add ((abs_add_le _ _).trans (add_le_add ?_ ?_)) ?_) <;> rw [abs_mul]
  · exact mul_le_mul h1 hb (abs_nonneg _) hδ
  · exact mul_le_mul h2 ha (abs_nonneg _) hε
  · exact mul_le_mul h1 h2 (abs_nonneg _) hδ

theorem Q.mul (hx : Q x a A δ) (hy : Q y b B ε) (h : (A + δ) * (B + ε) ≤ 2 ^ 100 := by norm_num) :
    Q (x * y) (a * b) (A * B) (δ * B + ε * A + δ * ε + ((A + δ) * (B + ε) / 2 ^ 53 + 1 / 2 ^ 153)) := by
  show Q (F64.mul x y) _ _ _
  have hr := mul_rounds hx.fin hy.fin
  have hv : |x.val * y.val| ≤ (A + δ) * (B + ε) := by
    rw [abs_mul]
    exact mul_le_mul hx.val_le hy.val_le (abs_nonneg _) (by linarith [hx.nonneg_err, hx.nonneg_mag])
  obtain ⟨hf, he⟩ := hr.near hv h
  refine ⟨hf, ?_, ?_⟩
  · have e : (F64.mul x y).val - a * b = ((F64.mul x y).val - x.val * y.val) + (x.val * y.val - a * b) := by ring
    rw [e]
    refine (abs_add_le _ _).trans ?_
    have := mul_err hx.err hy.err hx.mag hy.mag
    linarith
  · rw [abs_mul]; exact mul_le_mul hx.mag hy.mag (abs_nonneg _) hx.nonneg_mag

/-- a product whose magnitude `C` and error `η` before rounding are known by other means -/
theorem Q.mul' (hx : x.Fin) (hy : y.Fin) {r C η : ℝ} (hr : |x.val * y.val - r| ≤ η) (hC : |r| ≤ C) (h : C + η ≤ 2 ^ 100 := by norm_num) :
    Q (x * y) r C (η + ((C + η) / 2 ^ 53 + 1 / 2 ^ 153)) := by
  show Q (F64.mul x y) _ _ _
  have hv : |x.val * y.val| ≤ C + η := by
    have e : x.val * y.val = r + (x.val * y.val - r) := by ring
    rw [e]; exact (abs_add_le _ _).trans (add_le_add hC hr)
  obtain ⟨hf, he⟩ := (mul_rounds hx hy).near hv h
  refine ⟨hf, ?_, hC⟩
  have e : (F64.mul x y).val - r = ((F64.mul x y).val - x.val * y.val) + (x.val * y.val - r) := by ring
  rw [e]
  refine (abs_add_le _ _).trans ?_
  linarith

omit [Libm] in
theorem div_err {p q a b B δ ε m : ℝ} (h1 : |p - a| ≤ δ) (h2 : |q - b| ≤ ε) (hb : m ≤ |b|) (hε : ε < m)
    (hB : |a / b| ≤ B) : |p / q - a / b| ≤ (δ + B * ε) / (m - ε) ∧ m - ε ≤ |q| := by
  have hq : m - ε ≤ |q| := by
    have h3 : |b| ≤ |q| + |q - b| := by
      have e : b = q - (q - b) := by ring
      calc |b| = |q - (q - b)| := by rw [← e]
        _ ≤ _ := abs_sub _ _
    linarith
  refine ⟨?_, hq⟩
  have hδ := (abs_nonneg _).trans h1
  have hε0 := (abs_nonneg _).trans h2
  have hB0 := (abs_nonneg _).trans hB
  have hmε : 0 < m - ε := by linarith
  have hb0 : b ≠ 0 := by rintro rfl; rw [abs_zero] at hb; linarith
  have hq0 : q ≠ 0 := by rintro rfl; rw [abs_zero] at hq; linarith
  have e : p / q - a / b = ((p - a) - a / b * (q - b)) / q := by field_simp; ring
  have h4 : |(p - a) - a / b * (q - b)| ≤ δ + B * ε := by
    refine (abs_sub _ _).trans (add_le_add h1 ?_)
    rw [abs_mul]; exact mul_le_mul hB h2 (abs_nonneg _) hB0
  rw [e, abs_div]
  exact div_le_div₀ (by positivity) h4 hmε hq

/-- quotient: `m` bounds the divisor from below, `C` the quotient from above -/
theorem Q.div (hx : Q x a A δ) (hy : Q y b B ε) (m C : ℝ) (hb : m ≤ |b|) (hC : |a / b| ≤ C)
    (hε : ε < m := by norm_num) (h : C + (δ + C * ε) / (m - ε) ≤ 2 ^ 100 := by norm_num) :
    Q (x / y) (a / b) C ((δ + C * ε) / (m - ε) + ((C + (δ + C * ε) / (m - ε)) / 2 ^ 53 + 1 / 2 ^ 153)) := by
  show Q (F64.div x y) _ _ _
  obtain ⟨h1, h2⟩ := div_err hx.err hy.err hb hε hC
  have hy0 : y.val ≠ 0 := by intro h0; rw [h0, abs_zero] at h2; linarith
  have hv : |x.val / y.val| ≤ C + (δ + C * ε) / (m - ε) := by
    have e : x.val / y.val = a / b + (x.val / y.val - a / b) := by ring
    rw [e]; exact (abs_add_le _ _).trans (add_le_add hC h1)
  obtain ⟨hf, he⟩ := (div_rounds hx.fin hy.fin hy0).near hv h
  refine ⟨hf, ?_, hC⟩
  have e : (F64.div x y).val - a / b = ((F64.div x y).val - x.val / y.val) + (x.val / y.val - a / b) := by ring
  rw [e]
  refine (abs_add_le _ _).trans ?_
  linarith

omit [Libm] in
/-- the usual way to bound a quotient -/
theorem quot_le {a b A m C : ℝ} (ha : |a| ≤ A) (hb : m ≤ |b|) (hm : 0 < m) (hC : A ≤ C * m) : |a / b| ≤ C := by
  have hb0 : 0 < |b| := lt_of_lt_of_le hm hb
  have hA := (abs_nonneg _).trans ha
  have hC0 : 0 ≤ C := by
    by_contra hc
    nlinarith [not_le.mp hc]
  rw [abs_div, div_le_iff₀ hb0]
  nlinarith

/-- square root, away from zero: `m` is a lower bound of the root -/
theorem Q.sqrt (hx : Q x a A δ) (m C : ℝ) (ha : m ^ 2 ≤ a) (hC : A ≤ C ^ 2) (hm : 0 < m := by norm_num) (hC0 : 0 < C := by norm_num)
    (hδ : δ ≤ m ^ 2 := by norm_num) (h : C + δ / m ≤ 2 ^ 100 := by norm_num) :
    Q (Arith.sqrt x) (Real.sqrt a) C (δ / m + ((C + δ / m) / 2 ^ 53 + 1 / 2 ^ 153)) := by
  show Q (F64.sqrt x) _ _ _
  have herr := abs_le.mp hx.err
  have hx0 : 0 ≤ x.val := by nlinarith
  have ha0 : 0 ≤ a := le_trans (sq_nonneg m) ha
  have hsa : m ≤ Real.sqrt a := Real.le_sqrt_of_sq_le ha
  have hsC : Real.sqrt a ≤ C := Real.sqrt_le_iff.mpr ⟨hC0.le, (le_abs_self a).trans (hx.mag.trans hC)⟩
  have hd : |Real.sqrt x.val - Real.sqrt a| ≤ δ / m := by
    rw [le_div_iff₀ hm]
    have e : (Real.sqrt x.val - Real.sqrt a) * (Real.sqrt x.val + Real.sqrt a) = x.val - a := by
      have h1 := Real.sq_sqrt hx0
      have h2 := Real.sq_sqrt ha0
      nlinarith
    have hp : m ≤ Real.sqrt x.val + Real.sqrt a := by linarith [Real.sqrt_nonneg x.val]
    calc |Real.sqrt x.val - Real.sqrt a| * m ≤ |Real.sqrt x.val - Real.sqrt a| * (Real.sqrt x.val + Real.sqrt a) :=
          mul_le_mul_of_nonneg_left hp (abs_nonneg _)
      _ = |x.val - a| := by rw [← e, abs_mul, abs_of_pos (lt_of_lt_of_le hm hp)]
      _ ≤ δ := hx.err
  have hv : |Real.sqrt x.val| ≤ C + δ / m := by
    rw [abs_of_nonneg (Real.sqrt_nonneg _)]
    have := (abs_le.mp hd).2
    linarith
  obtain ⟨hf, he⟩ := (sqrt_rounds hx.fin hx0).near hv h
  refine ⟨hf, ?_, by rw [abs_of_nonneg (Real.sqrt_nonneg _)]; exact hsC⟩
  have e : (F64.sqrt x).val - Real.sqrt a = ((F64.sqrt x).val - Real.sqrt x.val) + (Real.sqrt x.val - Real.sqrt a) := by ring
  rw [e]
  refine (abs_add_le _ _).trans ?_
  linarith

/-- literals -/
theorem Q.sci (m : ℕ) (s : Bool) (k : ℕ) (C : ℝ) (hC : |(OfScientific.ofScientific m s k : ℝ)| ≤ C) (h : C ≤ 2 ^ 100 := by norm_num) :
    Q (OfScientific.ofScientific m s k : F64) (OfScientific.ofScientific m s k : ℝ) C (C / 2 ^ 53 + 1 / 2 ^ 153) := by
  show Q (F64.sci m s k) _ _ _
  obtain ⟨h1, h2⟩ := (sci_rounds m s k).near hC h
  exact ⟨h1, h2, hC⟩

/-- literals that are integers -/
theorem Q.int (m : ℕ) (s : Bool) (k : ℕ) (i : ℤ) (h : (OfScientific.ofScientific m s k : ℝ) = i) (hi : |i| ≤ 2 ^ 53 := by norm_num) :
    Q (OfScientific.ofScientific m s k : F64) (OfScientific.ofScientific m s k : ℝ) |(i : ℝ)| 0 := by
  show Q (F64.sci m s k) _ _ _
  obtain ⟨h1, h2⟩ := sci_int i h hi
  exact ⟨h1, by rw [h2, h]; simp, by rw [h]⟩

/-- literals that are dyadic -/
theorem Q.dyadic (m : ℕ) (s : Bool) (k : ℕ) (i : ℤ) (e : ℕ) (C : ℝ) (h : (OfScientific.ofScientific m s k : ℝ) = i / 2 ^ e)
    (hC : |(OfScientific.ofScientific m s k : ℝ)| ≤ C) (hi : |i| ≤ 2 ^ 53 := by norm_num) (he : e ≤ 1074 := by norm_num) :
    Q (OfScientific.ofScientific m s k : F64) (OfScientific.ofScientific m s k : ℝ) C 0 := by
  show Q (F64.sci m s k) _ _ _
  obtain ⟨h1, h2⟩ := sci_dyadic i e h hi he
  exact ⟨h1, by rw [h2, h]; simp, hC⟩

/-! ## Angles -/

structure QA (x : F64) (r M δ : ℝ) : Prop where
  fin : x.Fin
  mag : |x.val| ≤ M
  err : ∃ k : ℤ, |x.val - (r + k * (2 * Real.pi))| ≤ δ

omit [Libm] in
theorem Q.angle (h : Q x a A δ) : QA x a (A + δ) δ := ⟨h.fin, h.val_le, 0, by simpa using h.err⟩

omit [Libm] in
theorem QA.mono (h : QA x a A δ) {A' δ' : ℝ} (h1 : A ≤ A') (h2 : δ ≤ δ') : QA x a A' δ' := by
  obtain ⟨k, hk⟩ := h.err
  exact ⟨h.fin, h.mag.trans h1, k, hk.trans h2⟩

omit [Libm] in
/-- an angle may be replaced by the same one, counted differently -/
theorem QA.turn (h : QA x a A δ) {b : ℝ} (hb : ∃ k : ℤ, b = a + k * (2 * Real.pi)) : QA x b A δ := by
  obtain ⟨k, hk⟩ := h.err
  obtain ⟨j, hj⟩ := hb
  refine ⟨h.fin, h.mag, k - j, ?_⟩
  have e : b + ((k - j : ℤ) : ℝ) * (2 * Real.pi) = a + k * (2 * Real.pi) := by rw [hj]; push_cast; ring
  rw [e]; exact hk

omit [Libm] in
theorem QA.nonneg_err (h : QA x a A δ) : 0 ≤ δ := by obtain ⟨k, hk⟩ := h.err; exact (abs_nonneg _).trans hk
omit [Libm] in
theorem QA.nonneg_mag (h : QA x a A δ) : 0 ≤ A := (abs_nonneg _).trans h.mag

theorem QA.add (hx : QA x a A δ) (hy : QA y b B ε) (h : A + B ≤ 2 ^ 100 := by norm_num) :
    QA (x + y) (a + b) (A + B + ((A + B) / 2 ^ 53 + 1 / 2 ^ 153)) (δ + ε + ((A + B) / 2 ^ 53 + 1 / 2 ^ 153)) := by
  show QA (F64.add x y) _ _ _
  obtain ⟨k, hk⟩ := hx.err
  obtain ⟨j, hj⟩ := hy.err
  have hv : |x.val + y.val| ≤ A + B := (abs_add_le _ _).trans (add_le_add hx.mag hy.mag)
  obtain ⟨hf, he⟩ := (add_rounds hx.fin hy.fin).near hv h
  refine ⟨hf, ?_, k + j, ?_⟩
  · have e : (F64.add x y).val = (x.val + y.val) + ((F64.add x y).val - (x.val + y.val)) := by ring
    rw [e]; exact (abs_add_le _ _).trans (add_le_add hv he)
  · have e : (F64.add x y).val - (a + b + ((k + j : ℤ) : ℝ) * (2 * Real.pi)) =
        ((F64.add x y).val - (x.val + y.val)) + ((x.val - (a + k * (2 * Real.pi))) + (y.val - (b + j * (2 * Real.pi)))) := by
      push_cast; ring
    rw [e]
    refine (abs_add_le _ _).trans ?_
    have := abs_add_le (x.val - (a + k * (2 * Real.pi))) (y.val - (b + j * (2 * Real.pi)))
    linarith

theorem QA.sub (hx : QA x a A δ) (hy : QA y b B ε) (h : A + B ≤ 2 ^ 100 := by norm_num) :
    QA (x - y) (a - b) (A + B + ((A + B) / 2 ^ 53 + 1 / 2 ^ 153)) (δ + ε + ((A + B) / 2 ^ 53 + 1 / 2 ^ 153)) := by
  show QA (F64.sub x y) _ _ _
  obtain ⟨k, hk⟩ := hx.err
  obtain ⟨j, hj⟩ := hy.err
  have hv : |x.val - y.val| ≤ A + B := (abs_sub _ _).trans (add_le_add hx.mag hy.mag)
  obtain ⟨hf, he⟩ := (sub_rounds hx.fin hy.fin).near hv h
  refine ⟨hf, ?_, k - j, ?_⟩
  · have e : (F64.sub x y).val = (x.val - y.val) + ((F64.sub x y).val - (x.val - y.val)) := by ring
    rw [e]; exact (abs_add_le _ _).trans (add_le_add hv he)
  · have e : (F64.sub x y).val - (a - b + ((k - j : ℤ) : ℝ) * (2 * Real.pi)) =
        ((F64.sub x y).val - (x.val - y.val)) + ((x.val - (a + k * (2 * Real.pi))) - (y.val - (b + j * (2 * Real.pi)))) := by
      push_cast; ring
    rw [e]
    refine (abs_add_le _ _).trans ?_
    have := abs_sub (x.val - (a + k * (2 * Real.pi))) (y.val - (b + j * (2 * Real.pi)))
    linarith

/-- how far the double 2π is from 2π -/
theorem two_pi_err : |(TWO_PI : F64).val - 2 * Real.pi| ≤ 1 / 2 ^ 51 := by
  rw [two_pi_val.2]
  have h1 := Real.pi_gt_d20
  have h2 := Real.pi_lt_d20
  rw [abs_le]
  constructor <;> norm_num at * <;> linarith

/-- one turn is no turn -/
theorem QA.two_pi : QA (TWO_PI : F64) 0 6.3 (1 / 2 ^ 51) := by
  refine ⟨two_pi_val.1, by rw [two_pi_val.2, abs_of_pos (by norm_num)]; norm_num, 1, ?_⟩
  have e : (TWO_PI : F64).val - (0 + ((1 : ℤ) : ℝ) * (2 * Real.pi)) = (TWO_PI : F64).val - 2 * Real.pi := by push_cast; ring
  rw [e]; exact two_pi_err

/-- reduction to one turn -/
theorem QA.rem (hx : QA x a A δ) : QA (Arith.rem x TWO_PI) (remR a (2 * Real.pi)) 6.3 (δ + (A / 6 + 1) / 2 ^ 51) := by
  show QA (F64.rem x TWO_PI) _ _ _
  have ht := two_pi_val
  have tp : (0 : ℝ) < (TWO_PI : F64).val := by rw [ht.2]; positivity
  have tp6 : (6 : ℝ) ≤ (TWO_PI : F64).val := by rw [ht.2]; norm_num
  have tp7 : (TWO_PI : F64).val ≤ 6.3 := by rw [ht.2]; norm_num
  obtain ⟨hf, hv⟩ := rem_val hx.fin ht.1 tp.ne'
  have hlt := remR_lt tp x.val
  obtain ⟨k, hk⟩ := hx.err
  obtain ⟨j, hj⟩ := remR_congr x.val (TWO_PI : F64).val
  obtain ⟨i, hi⟩ := remR_congr a (2 * Real.pi)
  refine ⟨hf, by rw [hv]; exact hlt.le.trans tp7, k - j + i, ?_⟩
  have hjb : |(j : ℝ)| ≤ A / 6 + 1 := by
    have h1 : (j : ℝ) * (TWO_PI : F64).val = x.val - remR x.val (TWO_PI : F64).val := by rw [hj]; ring
    have h2 : |(j : ℝ)| * (TWO_PI : F64).val ≤ A + (TWO_PI : F64).val := by
      have h3 : |(j : ℝ) * (TWO_PI : F64).val| ≤ A + (TWO_PI : F64).val := by
        rw [h1]; exact (abs_sub _ _).trans (add_le_add hx.mag hlt.le)
      rwa [abs_mul, abs_of_pos tp] at h3
    have hA := hx.nonneg_mag
    have h4 : |(j : ℝ)| * (TWO_PI : F64).val ≤ (A / 6 + 1) * (TWO_PI : F64).val := by nlinarith
    exact le_of_mul_le_mul_right h4 tp
  have e : (F64.rem x TWO_PI).val - (remR a (2 * Real.pi) + ((k - j + i : ℤ) : ℝ) * (2 * Real.pi)) =
      (x.val - (a + k * (2 * Real.pi))) - j * ((TWO_PI : F64).val - 2 * Real.pi) := by
    rw [hv, hj, hi]; push_cast; ring
  rw [e]
  refine (abs_sub _ _).trans (add_le_add hk ?_)
  rw [abs_mul, div_eq_mul_one_div]
  exact mul_le_mul hjb two_pi_err (abs_nonneg _) (by linarith [hx.nonneg_mag])

theorem QA.sin (hL : Libm.Faithful) (hx : QA x a A δ) : Q (Arith.sin x) (Real.sin a) 1 (δ + 1 / 2 ^ 48) := by
  show Q (Libm.sin x) _ _ _
  obtain ⟨h1, -, h3⟩ := hL.sin_fin x hx.fin
  obtain ⟨k, hk⟩ := hx.err
  refine ⟨h1, ?_, Real.abs_sin_le_one a⟩
  have e : Real.sin a = Real.sin (a + k * (2 * Real.pi)) := (Real.sin_add_int_mul_two_pi a k).symm
  have h4 : |Real.sin x.val - Real.sin (a + k * (2 * Real.pi))| ≤ |x.val - (a + k * (2 * Real.pi))| := by
    exact Real.abs_sin_sub_sin_le _ _
  have e2 : (Libm.sin x).val - Real.sin a = ((Libm.sin x).val - Real.sin x.val) + (Real.sin x.val - Real.sin (a + k * (2 * Real.pi))) := by
    rw [← e]; ring
  rw [e2]
  refine (abs_add_le _ _).trans ?_
  linarith

theorem QA.cos (hL : Libm.Faithful) (hx : QA x a A δ) : Q (Arith.cos x) (Real.cos a) 1 (δ + 1 / 2 ^ 48) := by
  show Q (Libm.cos x) _ _ _
  obtain ⟨h1, -, h3⟩ := hL.cos_fin x hx.fin
  obtain ⟨k, hk⟩ := hx.err
  refine ⟨h1, ?_, Real.abs_cos_le_one a⟩
  have e : Real.cos a = Real.cos (a + k * (2 * Real.pi)) := (Real.cos_add_int_mul_two_pi a k).symm
  have h4 : |Real.cos x.val - Real.cos (a + k * (2 * Real.pi))| ≤ |x.val - (a + k * (2 * Real.pi))| := by
    exact Real.abs_cos_sub_cos_le _ _
  have e2 : (Libm.cos x).val - Real.cos a = ((Libm.cos x).val - Real.cos x.val) + (Real.cos x.val - Real.cos (a + k * (2 * Real.pi))) := by
    rw [← e]; ring
  rw [e2]
  refine (abs_add_le _ _).trans ?_
  linarith

end
end F64
end Sat
