import Verif.F64.ApproxFn
/-!
# Error calculus relative to a scale

`QS x r σ M ε η`: the double `x` is finite and within `ε * σ + η` of the real number `r`, where `σ` (a real number, at most `M`) bounds `|r|`.
With `σ = |r|` this is a relative error; with larger `σ` it describes sums in which terms may cancel.  `η` only collects underflows.
-/

namespace Sat.F64

/-- close up to a fraction of a scale -/
structure QS (x : F64) (r σ M ε η : ℝ) : Prop where
  fin : x.Fin
  mag : |r| ≤ σ
  top : σ ≤ M
  err : |x.val - r| ≤ ε * σ + η
  eps : 0 ≤ ε
  eta : 0 ≤ η

variable [Libm] {x y : F64} {a b σ τ M N ε ε' η η' : ℝ}

omit [Libm] in
theorem QS.scale_nonneg (h : QS x a σ M ε η) : 0 ≤ σ := (abs_nonneg _).trans h.mag

omit [Libm] in
theorem QS.mono (h : QS x a σ M ε η) {M₁ ε₁ η₁ : ℝ} (h1 : M ≤ M₁) (h2 : ε ≤ ε₁) (h3 : η ≤ η₁) : QS x a σ M₁ ε₁ η₁ :=
  ⟨h.fin, h.mag, h.top.trans h1, h.err.trans (add_le_add (mul_le_mul_of_nonneg_right h2 h.scale_nonneg) h3), h.eps.trans h2, h.eta.trans h3⟩

omit [Libm] in
/-- a larger scale -/
theorem QS.widen (h : QS x a σ M ε η) {σ' M' : ℝ} (h1 : σ ≤ σ') (h2 : σ' ≤ M') : QS x a σ' M' ε η :=
  ⟨h.fin, h.mag.trans h1, h2, h.err.trans (add_le_add (mul_le_mul_of_nonneg_left h1 h.eps) le_rfl), h.eps, h.eta⟩

omit [Libm] in
/-- a better bound of the scale -/
theorem QS.cap (h : QS x a σ M ε η) {M' : ℝ} (h1 : σ ≤ M') : QS x a σ M' ε η := ⟨h.fin, h.mag, h1, h.err, h.eps, h.eta⟩

omit [Libm] in
theorem QS.to (h : QS x a σ M ε η) {a' σ' : ℝ} (e : a = a') (e' : σ = σ') : QS x a' σ' M ε η := by subst e; subst e'; exact h

omit [Libm] in
theorem Q.qs {A δ : ℝ} (h : Q x a A δ) {σ M m : ℝ} (h1 : |a| ≤ σ) (h2 : σ ≤ M) (hm : m ≤ σ) (hm0 : 0 < m := by norm_num) : QS x a σ M (δ / m) 0 := by
  refine ⟨h.fin, h1, h2, ?_, div_nonneg h.nonneg_err hm0.le, le_rfl⟩
  refine h.err.trans ?_
  rw [add_zero, div_mul_eq_mul_div, le_div_iff₀ hm0]
  exact mul_le_mul_of_nonneg_left hm h.nonneg_err

omit [Libm] in
theorem QS.q (h : QS x a σ M ε η) {C : ℝ} (hC : σ ≤ C) : Q x a C (ε * C + η) :=
  ⟨h.fin, h.err.trans (add_le_add (mul_le_mul_of_nonneg_left hC h.eps) le_rfl), h.mag.trans hC⟩

omit [Libm] in
theorem QS.self (hx : x.Fin) (h : |x.val| ≤ M) : QS x x.val |x.val| M 0 0 := ⟨hx, le_rfl, h, by simp, le_rfl, le_rfl⟩

theorem QS.mul (hx : QS x a σ M ε η) (hy : QS y b τ N ε' η')
    (h : M * N * (1 + (ε + ε' + ε * ε')) + (η * N * (1 + ε') + η' * M * (1 + ε) + η * η') ≤ 2 ^ 100 := by norm_num) :
    QS (x * y) (a * b) (σ * τ) (M * N) (ε + ε' + ε * ε' + (1 + (ε + ε' + ε * ε')) / 2 ^ 53)
      ((η * N * (1 + ε') + η' * M * (1 + ε) + η * η') * (1 + 1 / 2 ^ 53) + 1 / 2 ^ 153) := by
  have s0 := hx.scale_nonneg
  have t0 := hy.scale_nonneg
  have M0 : 0 ≤ M := s0.trans hx.top
  have N0 : 0 ≤ N := t0.trans hy.top
  have e0 := hx.eps; have e1 := hy.eps; have n0 := hx.eta; have n1 := hy.eta
  set E := ε + ε' + ε * ε' with hE
  set H := η * N * (1 + ε') + η' * M * (1 + ε) + η * η' with hH
  have E0 : 0 ≤ E := by positivity
  have H0 : 0 ≤ H := by positivity
  have k1 : |x.val * y.val - a * b| ≤ E * (σ * τ) + H := by
    have e : x.val * y.val - a * b = (x.val - a) * b + a * (y.val - b) + (x.val - a) * (y.val - b) := by ring
    rw [e]
    refine (abs_add_le _ _).trans ((add_le_add (abs_add_le _ _) le_rfl).trans ?_)
    rw [abs_mul, abs_mul, abs_mul]
    have p1 : |x.val - a| * |b| ≤ (ε * σ + η) * τ := mul_le_mul hx.err hy.mag (abs_nonneg _) (by positivity)
    have p2 : |a| * |y.val - b| ≤ σ * (ε' * τ + η') := mul_le_mul hx.mag hy.err (abs_nonneg _) s0
    have p3 : |x.val - a| * |y.val - b| ≤ (ε * σ + η) * (ε' * τ + η') := mul_le_mul hx.err hy.err (abs_nonneg _) (by positivity)
    have q1 : η * τ * (1 + ε') ≤ η * N * (1 + ε') := by gcongr; exact hy.top
    have q2 : η' * σ * (1 + ε) ≤ η' * M * (1 + ε) := by gcongr; exact hx.top
    calc _ ≤ (ε * σ + η) * τ + σ * (ε' * τ + η') + (ε * σ + η) * (ε' * τ + η') := by linarith
      _ = E * (σ * τ) + (η * τ * (1 + ε') + η' * σ * (1 + ε) + η * η') := by rw [hE]; ring
      _ ≤ _ := by rw [hH]; linarith
  have st0 : 0 ≤ σ * τ := mul_nonneg s0 t0
  have stM : σ * τ ≤ M * N := mul_le_mul hx.top hy.top t0 M0
  have ab : |a * b| ≤ σ * τ := by rw [abs_mul]; exact mul_le_mul hx.mag hy.mag (abs_nonneg _) s0
  have k2 : |x.val * y.val| ≤ σ * τ * (1 + E) + H := by
    have e : x.val * y.val = a * b + (x.val * y.val - a * b) := by ring
    rw [e]; refine (abs_add_le _ _).trans ?_
    linarith
  have k3 : σ * τ * (1 + E) + H ≤ 2 ^ 100 := le_trans (add_le_add (mul_le_mul_of_nonneg_right stM (by positivity)) le_rfl) h
  obtain ⟨f1, f2⟩ := (mul_rounds hx.fin hy.fin).near k2 k3
  refine ⟨f1, ab, stM, ?_, by positivity, by positivity⟩
  have e : (x * y).val - a * b = ((x * y).val - x.val * y.val) + (x.val * y.val - a * b) := by ring
  rw [e]; refine (abs_add_le _ _).trans ?_
  have f2' : |(x * y).val - x.val * y.val| ≤ (σ * τ * (1 + E) + H) / 2 ^ 53 + 1 / 2 ^ 153 := f2
  have : (E + (1 + E) / 2 ^ 53) * (σ * τ) + (H * (1 + 1 / 2 ^ 53) + 1 / 2 ^ 153) = (σ * τ * (1 + E) + H) / 2 ^ 53 + 1 / 2 ^ 153 + (E * (σ * τ) + H) := by ring
  linarith

theorem QS.neg (hx : QS x a σ M ε η) : QS (-x) (-a) σ M ε η := by
  obtain ⟨h1, h2⟩ := neg_val hx.fin
  refine ⟨h1, by rw [abs_neg]; exact hx.mag, hx.top, ?_, hx.eps, hx.eta⟩
  have h2' : (-x).val = -x.val := h2
  rw [h2', show -x.val - -a = -(x.val - a) by ring, abs_neg]; exact hx.err

omit [Libm] in
/-- common part of sum and difference -/
theorem QS.sum_aux {z : F64} {p c : ℝ} (hr : Rounds p z) (hp : |p - c| ≤ ε * σ + η) (hc : |c| ≤ σ) (hM : σ ≤ M) (e0 : 0 ≤ ε) (n0 : 0 ≤ η)
    (h : M * (1 + ε) + η ≤ 2 ^ 100) : QS z c σ M (ε + (1 + ε) / 2 ^ 53) (η * (1 + 1 / 2 ^ 53) + 1 / 2 ^ 153) := by
  have s0 : 0 ≤ σ := (abs_nonneg _).trans hc
  have k2 : |p| ≤ σ * (1 + ε) + η := by
    have e : p = c + (p - c) := by ring
    rw [e]; refine (abs_add_le _ _).trans ?_
    linarith
  have k3 : σ * (1 + ε) + η ≤ 2 ^ 100 := le_trans (add_le_add (mul_le_mul_of_nonneg_right hM (by positivity)) le_rfl) h
  obtain ⟨f1, f2⟩ := hr.near k2 k3
  refine ⟨f1, hc, hM, ?_, by positivity, by positivity⟩
  have e : z.val - c = (z.val - p) + (p - c) := by ring
  rw [e]; refine (abs_add_le _ _).trans ?_
  have : (ε + (1 + ε) / 2 ^ 53) * σ + (η * (1 + 1 / 2 ^ 53) + 1 / 2 ^ 153) = (σ * (1 + ε) + η) / 2 ^ 53 + 1 / 2 ^ 153 + (ε * σ + η) := by ring
  linarith

theorem QS.add (hx : QS x a σ M ε η) (hy : QS y b τ N ε η') (h : (M + N) * (1 + ε) + (η + η') ≤ 2 ^ 100 := by norm_num) :
    QS (x + y) (a + b) (σ + τ) (M + N) (ε + (1 + ε) / 2 ^ 53) ((η + η') * (1 + 1 / 2 ^ 53) + 1 / 2 ^ 153) := by
  refine QS.sum_aux (add_rounds hx.fin hy.fin) ?_ ((abs_add_le _ _).trans (add_le_add hx.mag hy.mag)) (add_le_add hx.top hy.top) hx.eps (add_nonneg hx.eta hy.eta) h
  have e : x.val + y.val - (a + b) = (x.val - a) + (y.val - b) := by ring
  rw [e]; refine (abs_add_le _ _).trans ?_
  have := hx.err; have := hy.err
  linarith

theorem QS.sub (hx : QS x a σ M ε η) (hy : QS y b τ N ε η') (h : (M + N) * (1 + ε) + (η + η') ≤ 2 ^ 100 := by norm_num) :
    QS (x - y) (a - b) (σ + τ) (M + N) (ε + (1 + ε) / 2 ^ 53) ((η + η') * (1 + 1 / 2 ^ 53) + 1 / 2 ^ 153) := by
  refine QS.sum_aux (sub_rounds hx.fin hy.fin) ?_ ((abs_sub _ _).trans (add_le_add hx.mag hy.mag)) (add_le_add hx.top hy.top) hx.eps (add_nonneg hx.eta hy.eta) h
  have e : x.val - y.val - (a - b) = (x.val - a) - (y.val - b) := by ring
  rw [e]; refine (abs_sub _ _).trans ?_
  have := hx.err; have := hy.err
  linarith

/-- quotient by a number known up to a relative error -/
theorem QS.div (hx : QS x a σ M ε η) (hy : QS y b |b| N ε' 0) (m : ℝ) (hb : m ≤ |b|) (hm : 0 < m := by norm_num) (hε : ε' ≤ 1 / 2 := by norm_num)
    (h : M / m * (1 + 2 * (ε + ε')) + 2 * η / m ≤ 2 ^ 100 := by norm_num) :
    QS (x / y) (a / b) (σ / |b|) (M / m) ((ε + ε') / (1 - ε') + (1 + (ε + ε') / (1 - ε')) / 2 ^ 53) (2 * η / m * (1 + 1 / 2 ^ 53) + 1 / 2 ^ 153) := by
  have s0 := hx.scale_nonneg
  have e0 := hx.eps; have e1 := hy.eps; have n0 := hx.eta
  have b0 : 0 < |b| := lt_of_lt_of_le hm hb
  have hye := hy.err
  rw [add_zero] at hye
  have hy1 : (1 - ε') * |b| ≤ |y.val| := by
    have := abs_sub_abs_le_abs_sub b y.val
    rw [abs_sub_comm] at this
    linarith
  have d0 : 0 < 1 - ε' := by linarith
  have y0 : 0 < |y.val| := lt_of_lt_of_le (mul_pos d0 b0) hy1
  have yne : y.val ≠ 0 := abs_pos.mp y0
  have bne : b ≠ 0 := abs_pos.mp b0
  set E := (ε + ε') / (1 - ε') with hE
  have E0 : 0 ≤ E := by positivity
  have E2 : E ≤ 2 * (ε + ε') := by
    rw [hE, div_le_iff₀ d0]; nlinarith
  set H := 2 * η / m with hH
  have H0 : 0 ≤ H := by positivity
  have k1 : |x.val / y.val - a / b| ≤ E * (σ / |b|) + H := by
    have e : x.val / y.val - a / b = ((x.val - a) * b - a * (y.val - b)) / (y.val * b) := by field_simp; ring
    rw [e, abs_div, abs_mul y.val b]
    have n1 : |(x.val - a) * b - a * (y.val - b)| ≤ (ε * σ + η) * |b| + σ * (ε' * |b|) := by
      refine (abs_sub _ _).trans ?_
      rw [abs_mul, abs_mul]
      exact add_le_add (mul_le_mul_of_nonneg_right hx.err (abs_nonneg _)) (mul_le_mul hx.mag hye (abs_nonneg _) s0)
    have n2 : (1 - ε') * |b| * |b| ≤ |y.val| * |b| := mul_le_mul_of_nonneg_right hy1 b0.le
    refine (div_le_div₀ (by positivity) n1 (by positivity) n2).trans ?_
    have e2 : ((ε * σ + η) * |b| + σ * (ε' * |b|)) / ((1 - ε') * |b| * |b|) = E * (σ / |b|) + η / ((1 - ε') * |b|) := by
      rw [hE]; field_simp; try ring
    rw [e2]
    refine add_le_add le_rfl ?_
    rw [hH, div_le_div_iff₀ (by positivity) hm]
    have n3 : m ≤ 2 * ((1 - ε') * |b|) := by nlinarith
    nlinarith
  have st0 : 0 ≤ σ / |b| := by positivity
  have stM : σ / |b| ≤ M / m := div_le_div₀ (s0.trans hx.top) hx.top hm hb
  have ab : |a / b| ≤ σ / |b| := by rw [abs_div]; exact div_le_div_of_nonneg_right hx.mag b0.le
  have k2 : |x.val / y.val| ≤ σ / |b| * (1 + E) + H := by
    have e : x.val / y.val = a / b + (x.val / y.val - a / b) := by ring
    rw [e]; refine (abs_add_le _ _).trans ?_
    linarith
  have k3 : σ / |b| * (1 + E) + H ≤ 2 ^ 100 := by
    refine le_trans (add_le_add (mul_le_mul stM (add_le_add le_rfl E2) (by positivity) (st0.trans stM)) le_rfl) h
  obtain ⟨f1, f2⟩ := (div_rounds hx.fin hy.fin yne).near k2 k3
  refine ⟨f1, ab, stM, ?_, by positivity, by positivity⟩
  have e : (x / y).val - a / b = ((x / y).val - x.val / y.val) + (x.val / y.val - a / b) := by ring
  rw [e]; refine (abs_add_le _ _).trans ?_
  have f2' : |(x / y).val - x.val / y.val| ≤ (σ / |b| * (1 + E) + H) / 2 ^ 53 + 1 / 2 ^ 153 := f2
  have : (E + (1 + E) / 2 ^ 53) * (σ / |b|) + (H * (1 + 1 / 2 ^ 53) + 1 / 2 ^ 153) = (σ / |b| * (1 + E) + H) / 2 ^ 53 + 1 / 2 ^ 153 + (E * (σ / |b|) + H) := by ring
  linarith

/-! ## The case of a relative error -/

theorem QS.rmul (hx : QS x a |a| M ε η) (hy : QS y b |b| N ε' η')
    (h : M * N * (1 + (ε + ε' + ε * ε')) + (η * N * (1 + ε') + η' * M * (1 + ε) + η * η') ≤ 2 ^ 100 := by norm_num) :
    QS (x * y) (a * b) |a * b| (M * N) (ε + ε' + ε * ε' + (1 + (ε + ε' + ε * ε')) / 2 ^ 53)
      ((η * N * (1 + ε') + η' * M * (1 + ε) + η * η') * (1 + 1 / 2 ^ 53) + 1 / 2 ^ 153) := by
  rw [abs_mul]; exact hx.mul hy h

theorem QS.rneg (hx : QS x a |a| M ε η) : QS (-x) (-a) |(-a)| M ε η := by rw [abs_neg]; exact hx.neg

theorem QS.radd (hx : QS x a |a| M ε η) (hy : QS y b |b| N ε η') (ha : 0 ≤ a) (hb : 0 ≤ b) (h : (M + N) * (1 + ε) + (η + η') ≤ 2 ^ 100 := by norm_num) :
    QS (x + y) (a + b) |a + b| (M + N) (ε + (1 + ε) / 2 ^ 53) ((η + η') * (1 + 1 / 2 ^ 53) + 1 / 2 ^ 153) := by
  rw [abs_of_nonneg (add_nonneg ha hb), ← abs_of_nonneg ha, ← abs_of_nonneg hb, abs_of_nonneg ha, abs_of_nonneg hb]
  have := hx.add hy h
  rwa [abs_of_nonneg ha, abs_of_nonneg hb] at this

omit [Libm] in
/-- an absolute error turned into a relative one -/
theorem QS.absorb (hx : QS x a σ M ε η) (m : ℝ) (hm : m ≤ σ) (hm0 : 0 < m := by norm_num) : QS x a σ M (ε + η / m) 0 := by
  have hη := hx.eta
  have he := hx.eps
  refine ⟨hx.fin, hx.mag, hx.top, hx.err.trans ?_, by positivity, le_rfl⟩
  have : η ≤ η / m * σ := by rw [div_mul_eq_mul_div, le_div_iff₀ hm0]; exact mul_le_mul_of_nonneg_left hm hη
  linarith

theorem QS.rdiv (hx : QS x a |a| M ε η) (hy : QS y b |b| N ε' 0) (m : ℝ) (hb : m ≤ |b|) (hm : 0 < m := by norm_num) (hε : ε' ≤ 1 / 2 := by norm_num)
    (h : M / m * (1 + 2 * (ε + ε')) + 2 * η / m ≤ 2 ^ 100 := by norm_num) :
    QS (x / y) (a / b) |a / b| (M / m) ((ε + ε') / (1 - ε') + (1 + (ε + ε') / (1 - ε')) / 2 ^ 53) (2 * η / m * (1 + 1 / 2 ^ 53) + 1 / 2 ^ 153) := by
  rw [abs_div]; exact hx.div hy m hb hm hε h

omit [Libm] in
theorem rpow_sub_le' {x a y c m δ ε L Z : ℝ} (h : |x - a| ≤ δ) (ha : m ≤ a) (hδ : δ < m) (hy : |y - c| ≤ ε)
    (hL : |Real.log x| ≤ L) (hZ : ε * L + |c| * (δ / (m - δ)) ≤ Z) (hZ1 : Z ≤ 1) : |x ^ y - a ^ c| ≤ a ^ c * (Z + Z * Z) := by
  obtain ⟨h1, h2⟩ := abs_le.mp h
  have h0 := (abs_nonneg _).trans h
  have ha0 : 0 < a := by linarith
  have hx0 : 0 < x := by linarith
  have hl := log_sub_le h ha hδ
  set z := Real.log x * y - Real.log a * c with hz
  have e : x ^ y = a ^ c * Real.exp z := by
    rw [Real.rpow_def_of_pos hx0, Real.rpow_def_of_pos ha0, ← Real.exp_add, hz]; congr 1; ring
  have hzb : |z| ≤ Z := by
    have e2 : z = (y - c) * Real.log x + c * (Real.log x - Real.log a) := by rw [hz]; ring
    rw [e2]
    refine ((abs_add_le _ _).trans (add_le_add ?_ ?_)).trans hZ <;> rw [abs_mul]
    · exact mul_le_mul hy hL (abs_nonneg _) ((abs_nonneg _).trans hy)
    · exact mul_le_mul_of_nonneg_left hl (abs_nonneg _)
  have hp : 0 < a ^ c := Real.rpow_pos_of_pos ha0 c
  rw [e, ← mul_sub_one, abs_mul, abs_of_pos hp]
  refine mul_le_mul_of_nonneg_left ?_ hp.le
  have e3 := Real.abs_exp_sub_one_sub_id_le (hzb.trans hZ1)
  have e4 : Real.exp z - 1 = (Real.exp z - 1 - z) + z := by ring
  rw [e4]
  refine (abs_add_le _ _).trans ?_
  have e5 : z ^ 2 ≤ Z * Z := by rw [← sq_abs, sq]; exact mul_le_mul hzb hzb (abs_nonneg _) ((abs_nonneg _).trans hzb)
  linarith

theorem QS.powf (hL : Libm.Faithful) {B δ : ℝ} (hx : QS x a |a| M ε 0) (hy : Q y b B δ) (n : ℕ) (C Z lo : ℝ) (ha : 0 < a) (hC : a ^ b ≤ C) (hlo : lo ≤ a ^ b)
    (hε : ε ≤ 1 / 2) (hn1 : 1 / 2 ^ n ≤ a / 2) (hn2 : a * 2 ≤ 2 ^ n)
    (hZ : δ * n + B * (ε / (1 - ε)) ≤ Z) (hZ1 : Z ≤ 1 / 4) (hlo0 : 1 / 2 ^ 100 ≤ lo) (hC0 : C ≤ 2 ^ 100) :
    QS (Arith.powf x y) (a ^ b) |a ^ b| C (Z + Z * Z + (1 + (Z + Z * Z)) / 2 ^ 48) 0 := by
  have he := hx.eps
  have q : Q x a a (ε * a) := by
    have := hx.q le_rfl
    rwa [abs_of_pos ha, add_zero] at this
  have hab : 0 < a ^ b := Real.rpow_pos_of_pos ha b
  have h1 : ε * a / (a - ε * a) = ε / (1 - ε) := by
    rw [show a - ε * a = (1 - ε) * a by ring, mul_div_mul_right _ _ ha.ne']
  have hB := hy.nonneg_mag
  have hd := hy.nonneg_err
  have hE0 : 0 ≤ ε / (1 - ε) := div_nonneg he (by linarith)
  have hZ0 : 0 ≤ Z := le_trans (by positivity) hZ
  obtain ⟨e1, e2⟩ := abs_le.mp q.err
  have hxm : 1 / 2 ^ n ≤ x.val := by nlinarith
  have hxM : x.val ≤ 2 ^ n := by nlinarith
  have hx0 : 0 < x.val := lt_of_lt_of_le (by positivity) hxm
  have hr := rpow_sub_le' (Z := Z) q.err le_rfl (by nlinarith) hy.err (log_bound n hxm hxM)
    (le_trans (add_le_add le_rfl (mul_le_mul_of_nonneg_right hy.mag (by rw [h1]; exact hE0))) (by rw [h1]; exact hZ)) (by linarith)
  obtain ⟨r1, r2⟩ := abs_le.mp hr
  have hZZ : Z + Z * Z ≤ 1 / 2 := by nlinarith
  have p1 : 1 / 2 ^ 900 ≤ x.val ^ y.val := by
    have : a ^ b / 2 ≤ x.val ^ y.val := by nlinarith
    refine le_trans ?_ this
    have h3 : (1 : ℝ) / 2 ^ 101 ≤ a ^ b / 2 := by
      have := hlo0.trans hlo
      rw [pow_succ, ← div_div]; linarith
    refine le_trans ?_ h3
    exact one_div_le_one_div_of_le (by positivity) (pow_le_pow_right₀ (by norm_num) (by norm_num))
  have p2 : x.val ^ y.val ≤ a ^ b * (1 + (Z + Z * Z)) := by linarith
  have p3 : x.val ^ y.val ≤ 2 ^ 900 := by
    refine p2.trans ?_
    have h4 : a ^ b * (1 + (Z + Z * Z)) ≤ 2 ^ 100 * 2 := mul_le_mul (hC.trans hC0) (by linarith) (by positivity) (by positivity)
    refine h4.trans ?_
    rw [← pow_succ]
    exact pow_le_pow_right₀ (by norm_num) (by norm_num)
  obtain ⟨f1, f2⟩ := hL.powf_pos x y hx.fin hy.fin hx0 p1 p3
  refine ⟨f1, le_rfl, by rw [abs_of_pos hab]; exact hC, ?_, by positivity, le_rfl⟩
  rw [abs_of_pos hab, add_zero]
  have e : (Arith.powf x y).val - a ^ b = ((Libm.powf x y).val - x.val ^ y.val) + (x.val ^ y.val - a ^ b) := by
    show (Libm.powf x y).val - a ^ b = _; ring
  rw [e]
  refine (abs_add_le _ _).trans ?_
  have h5 : x.val ^ y.val / 2 ^ 48 ≤ a ^ b * (1 + (Z + Z * Z)) / 2 ^ 48 := div_le_div_of_nonneg_right p2 (by positivity)
  have : (Z + Z * Z + (1 + (Z + Z * Z)) / 2 ^ 48) * a ^ b = a ^ b * (1 + (Z + Z * Z)) / 2 ^ 48 + a ^ b * (Z + Z * Z) := by ring
  linarith

theorem QS.radd' (hx : QS x a |a| M ε η) (hy : QS y b |b| N ε η') (hs : |a| + |b| = |a + b|) (h : (M + N) * (1 + ε) + (η + η') ≤ 2 ^ 100 := by norm_num) :
    QS (x + y) (a + b) |a + b| (M + N) (ε + (1 + ε) / 2 ^ 53) ((η + η') * (1 + 1 / 2 ^ 53) + 1 / 2 ^ 153) := by
  rw [← hs]; exact hx.add hy h

/-- product when both errors are proportional to a number `u ≥ 1` -/
theorem QS.umul {u k l : ℝ} (hx : QS x a |a| M (k * u) η) (hy : QS y b |b| N (l * u) η') (hu : 1 ≤ u) (h1 : k * u ≤ 1 / 10 ^ 11) (h2 : l * u ≤ 1 / 10 ^ 11)
    (h : M * N + (η * N + η' * M + η * η') ≤ 2 ^ 99 := by norm_num) (hM : 0 ≤ M := by norm_num) (hN : 0 ≤ N := by norm_num) :
    QS (x * y) (a * b) |a * b| (M * N) ((k + l * (1 + 1 / 10 ^ 11) + 12 / 10 ^ 17) * u) ((η * N + η' * M + η * η') * (1 + 1 / 10 ^ 10) + 1 / 2 ^ 153) := by
  have e0 := hx.eps; have e1 := hy.eps; have n0 := hx.eta; have n1 := hy.eta
  set E := k * u with hE
  set E' := l * u with hE'
  have p1 : E * E' ≤ E' * (1 / 10 ^ 11) := by nlinarith
  have s1 : E + E' + E * E' ≤ 3 / 10 ^ 11 := by norm_num at *; linarith
  have a1 : η * N * (1 + E') + η' * M * (1 + E) + η * η' ≤ (η * N + η' * M + η * η') * (1 + 1 / 10 ^ 11) := by
    have := mul_le_mul_of_nonneg_left h2 (mul_nonneg n0 hN)
    have := mul_le_mul_of_nonneg_left h1 (mul_nonneg n1 hM)
    have : 0 ≤ η * η' := mul_nonneg n0 n1
    norm_num at *; linarith
  have H0 : 0 ≤ η * N + η' * M + η * η' := by positivity
  have MN : 0 ≤ M * N := mul_nonneg hM hN
  refine (hx.rmul hy ?_).mono le_rfl ?_ ?_
  · have := mul_le_mul_of_nonneg_left s1 MN
    norm_num at *; linarith
  · have : (k + l * (1 + 1 / 10 ^ 11) + 12 / 10 ^ 17) * u = E + E' + E' * (1 / 10 ^ 11) + 12 / 10 ^ 17 * u := by rw [hE, hE']; ring
    rw [this]
    norm_num at *; linarith
  · have := mul_le_mul_of_nonneg_right a1 (show (0:ℝ) ≤ 1 + 1 / 2 ^ 53 by norm_num)
    norm_num at *; linarith

end Sat.F64
