import Verif.Spec.Resonance
import Verif.Props.DeepEndToEnd
/-!
# Resonance coefficients: C59, C60, C63

Exact arithmetic.
-/

namespace Sat
open Spec.Res

/-- sine and cosine as used by Kaula's functions -/
theorem kaula_values (i : ℝ) :
    let s := Real.sin i
    let c := Real.cos i
    kaulaF 2 2 0 i = 3 / 4 * (1 + c) ^ 2 ∧ kaulaF 2 2 1 i = 3 / 2 * s ^ 2 ∧
    kaulaF 3 2 1 i = 15 / 8 * s * (1 - 2 * c - 3 * c ^ 2) ∧ kaulaF 3 2 2 i = -15 / 8 * s * (1 + 2 * c - 3 * c ^ 2) ∧
    kaulaF 4 4 1 i = 105 / 4 * s ^ 2 * (1 + c) ^ 2 ∧ kaulaF 4 4 2 i = 315 / 8 * s ^ 4 ∧
    kaulaF 5 2 2 i = 315 / 32 * s * (s ^ 2 * (1 - 2 * c - 5 * c ^ 2) + (-2 + 4 * c + 6 * c ^ 2) / 3) ∧
    kaulaF 5 2 3 i = s * (315 / 64 * s ^ 2 * (-2 - 4 * c + 10 * c ^ 2) + 105 / 16 * (1 + 2 * c - 3 * c ^ 2)) ∧
    kaulaF 5 4 2 i = 945 / 32 * s * (2 - 8 * c + c ^ 2 * (-12 + 8 * c + 10 * c ^ 2)) ∧
    kaulaF 5 4 3 i = 945 / 32 * s * (-2 - 8 * c + c ^ 2 * (12 + 8 * c - 10 * c ^ 2)) ∧
    kaulaF 3 1 1 i = 15 / 16 * s ^ 2 * (1 + 3 * c) - 3 / 4 * (1 + c) ∧ kaulaF 3 3 0 i = 15 / 8 * (1 + c) ^ 3 := by
  intro s c
  have h : s ^ 2 = 1 - c ^ 2 := by have := Real.sin_sq_add_cos_sq i; simp only [s, c]; linarith
  simp only [kaulaF, Finset.sum_range_succ, Finset.sum_range_zero, Nat.choose]
  norm_num [Finset.sum_range_succ, Nat.factorial, Nat.choose]
  have hs : Real.sin i = s := rfl
  have hc : Real.cos i = c := rfl
  rw [hs, hc]
  clear_value s c
  refine ⟨by ring, ?_, by ring, by ring, ?_, ?_, by ring, by ring, by ring, by ring, by ring, by ring⟩
  · linear_combination (-3 / 2) * h
  · linear_combination (-105 / 4 * (1 + c) ^ 2) * h
  · linear_combination (-315 / 8 * (s ^ 2 + 1 - c ^ 2)) * h

/-- **C59.** The inclination functions used for half-day resonance are Kaula's: eight exactly, the two of degree 5 and order 2 within
`10⁻⁶` (their decimal constants are rounded). -/
theorem C59_inclination_functions (i : ℝ) :
    let f := fCoef (Real.sin i) (Real.cos i)
    f.f220 = kaulaF 2 2 0 i ∧ f.f221 = kaulaF 2 2 1 i ∧ f.f321 = kaulaF 3 2 1 i ∧ f.f322 = kaulaF 3 2 2 i ∧
    f.f441 = kaulaF 4 4 1 i ∧ f.f442 = kaulaF 4 4 2 i ∧ f.f542 = kaulaF 5 4 2 i ∧ f.f543 = kaulaF 5 4 3 i ∧
    |f.f522 - kaulaF 5 2 2 i| ≤ 1 / 10 ^ 6 ∧ |f.f523 - kaulaF 5 2 3 i| ≤ 1 / 10 ^ 6 := by
  intro f
  obtain ⟨k1, k2, k3, k4, k5, k6, k7, k8, k9, k10, -, -⟩ := kaula_values i
  rw [k1, k2, k3, k4, k5, k6, k7, k8, k9, k10]
  have hsc := Real.sin_sq_add_cos_sq i
  have hs := Real.neg_one_le_sin i
  have hs' := Real.sin_le_one i
  have hc := Real.neg_one_le_cos i
  have hc' := Real.cos_le_one i
  simp only [f, fCoef]
  generalize Real.sin i = s at *
  generalize Real.cos i = c at *
  refine ⟨by norm_num1; ring, by norm_num1; ring, by norm_num1; ring, by norm_num1; ring, by norm_num1; ring, by norm_num1; ring,
    by norm_num1; ring, by norm_num1; ring, ?_, ?_⟩
  · have e : (9.84375 * s * ((s * s * (1.0 - (2.0 * c) - (5.0 * (c * c)))) + (0.33333333 * (-2.0 + (4.0 * c) + (6.0 * (c * c))))))
        - 315 / 32 * s * (s ^ 2 * (1 - 2 * c - 5 * c ^ 2) + (-2 + 4 * c + 6 * c ^ 2) / 3)
        = s * ((-2 + 4 * c + 6 * c ^ 2) * (-(315 / 32) / (3 * 10 ^ 8))) := by norm_num1; ring
    rw [e, abs_mul]
    have h1 : |s| ≤ 1 := abs_le.mpr ⟨hs, hs'⟩
    have h2 : |(-2 + 4 * c + 6 * c ^ 2) * (-(315 / 32) / (3 * 10 ^ 8))| ≤ 1 / 10 ^ 6 := by
      rw [abs_mul]
      have h3 : |-2 + 4 * c + 6 * c ^ 2| ≤ 8 := by rw [abs_le]; constructor <;> nlinarith
      have h4 : |(-(315 / 32) / (3 * 10 ^ 8) : ℝ)| = 315 / 32 / (3 * 10 ^ 8) := by rw [abs_of_neg] <;> norm_num
      rw [h4]; nlinarith
    calc _ ≤ 1 * (1 / 10 ^ 6 : ℝ) := mul_le_mul h1 h2 (abs_nonneg _) (by norm_num)
      _ = _ := by ring
  · have e : s * ((4.92187512 * (s * s) * ((-2.0 - (4.0 * c)) + (10.0 * (c * c)))) + (6.56250012 * ((1.0 + (2.0 * c)) - (3.0 * (c * c)))))
        - s * (315 / 64 * s ^ 2 * (-2 - 4 * c + 10 * c ^ 2) + 105 / 16 * (1 + 2 * c - 3 * c ^ 2))
        = s * ((s ^ 2 * (-2 - 4 * c + 10 * c ^ 2) + (1 + 2 * c - 3 * c ^ 2)) * (12 / 10 ^ 8)) := by norm_num1; ring
    rw [e, abs_mul]
    have h1 : |s| ≤ 1 := abs_le.mpr ⟨hs, hs'⟩
    have h2 : |(s ^ 2 * (-2 - 4 * c + 10 * c ^ 2) + (1 + 2 * c - 3 * c ^ 2)) * (12 / 10 ^ 8)| ≤ 1 / 10 ^ 6 := by
      rw [abs_mul, abs_of_pos (show (0 : ℝ) < 12 / 10 ^ 8 by norm_num)]
      have h3 : |s ^ 2 * (-2 - 4 * c + 10 * c ^ 2) + (1 + 2 * c - 3 * c ^ 2)| ≤ 8 := by
        have e2 : s ^ 2 * (-2 - 4 * c + 10 * c ^ 2) + (1 + 2 * c - 3 * c ^ 2)
            = 2 * c * (2 * c ^ 2 - 1) + (-1 + 9 * c ^ 2 - 10 * c ^ 4) := by
          linear_combination (-2 - 4 * c + 10 * c ^ 2) * hsc
        have w : 0 ≤ c ^ 2 ∧ c ^ 2 ≤ 1 := ⟨sq_nonneg c, by nlinarith⟩
        have h5 : |2 * c * (2 * c ^ 2 - 1)| ≤ 2 := by
          rw [abs_mul, abs_mul]
          have a1 : |c| ≤ 1 := abs_le.mpr ⟨hc, hc'⟩
          have a2 : |2 * c ^ 2 - 1| ≤ 1 := abs_le.mpr ⟨by linarith [w.1], by linarith [w.2]⟩
          rw [abs_of_pos (show (0 : ℝ) < 2 by norm_num)]
          linarith [mul_le_mul a1 a2 (abs_nonneg _) (by norm_num : (0:ℝ) ≤ 1)]
        rw [e2]
        have h6 : |-1 + 9 * c ^ 2 - 10 * c ^ 4| ≤ 6 := by
          have e4 : c ^ 4 = (c ^ 2) ^ 2 := by ring
          rw [e4]
          generalize c ^ 2 = y at w
          rw [abs_le]; constructor
          · linarith [mul_nonneg (sub_nonneg.mpr w.2) w.1, w.1, sq_nonneg y, show (1 - y) * y = y - y ^ 2 by ring]
          · linarith [sq_nonneg (y - 9 / 20), show (y - 9 / 20) ^ 2 = y ^ 2 - 9 / 10 * y + 81 / 400 by ring]
        exact (abs_add_le _ _).trans (by linarith)
      linarith
    calc _ ≤ 1 * (1 / 10 ^ 6 : ℝ) := mul_le_mul h1 h2 (abs_nonneg _) (by norm_num)
      _ = _ := by ring

/-! ## C60 -/

open Filter Topology in
/-- One-sided limit of a branch that is a polynomial on the right of `x`. -/
theorem limit_right {f g : ℝ → ℝ} {x : ℝ} (hg : Continuous g) {ε : ℝ} (hε : 0 < ε) (h : ∀ e, x < e → e < x + ε → f e = g e) :
    Tendsto f (𝓝[>] x) (𝓝 (g x)) := by
  refine Tendsto.congr' ?_ (hg.continuousAt.tendsto.mono_left nhdsWithin_le_nhds)
  filter_upwards [Ioo_mem_nhdsGT (show x < x + ε by linarith)] with e he
  exact (h e he.1 he.2).symm

open Filter Topology in
theorem limit_left {f g : ℝ → ℝ} {x : ℝ} (hg : Continuous g) {ε : ℝ} (hε : 0 < ε) (h : ∀ e, x - ε < e → e < x → f e = g e) :
    Tendsto f (𝓝[<] x) (𝓝 (g x)) := by
  refine Tendsto.congr' ?_ (hg.continuousAt.tendsto.mono_left nhdsWithin_le_nhds)
  filter_upwards [Ioo_mem_nhdsLT (show x - ε < x by linarith)] with e he
  exact (h e he.1 he.2).symm

/-- The eccentricity functions of `gCoef` are the tabulated ones. -/
theorem gCoef_table (e : ℝ) : gCoef e (e * e) = ⟨G201 e, G211 e, G310 e, G322 e, G410 e, G422 e, G520 e, G521 e, G532 e, G533 e⟩ := by
  unfold gCoef
  simp only [real_fle, real_flt, decide_eq_true_eq]
  congr 1
  · unfold G201; norm_num1; ring
  · unfold G211; split <;> (norm_num1; ring)
  · unfold G310; split <;> (norm_num1; ring)
  · unfold G322; split <;> (norm_num1; ring)
  · unfold G410; split <;> (norm_num1; ring)
  · unfold G422; split <;> (norm_num1; ring)
  · unfold G520
    split
    · norm_num1; ring
    · by_cases h : e ≤ 0.715
      · rw [if_pos h, if_neg (not_lt.mpr h)]; norm_num1; ring
      · rw [if_neg h, if_pos (not_le.mp h)]; norm_num1; ring
  · unfold G521; split <;> (norm_num1; ring)
  · unfold G532; split <;> (norm_num1; ring)
  · unfold G533; split <;> (norm_num1; ring)

/-- The two one-sided limits of `f` at `x` exist and differ by at most the fraction `r` of the left one. -/
def JoinsWithin (f : ℝ → ℝ) (x r : ℝ) : Prop :=
  ∃ a b, Filter.Tendsto f (nhdsWithin x (Set.Iio x)) (nhds a) ∧ Filter.Tendsto f (nhdsWithin x (Set.Ioi x)) (nhds b) ∧ |b - a| ≤ r * |a|

theorem joins {f g k : ℝ → ℝ} {x r ε : ℝ} (hg : Continuous g) (hk : Continuous k) (hε : 0 < ε) (h1 : ∀ e, e < x → f e = g e)
    (h2 : ∀ e, x < e → e < x + ε → f e = k e) (h : |k x - g x| ≤ r * |g x|) : JoinsWithin f x r :=
  ⟨g x, k x, limit_left hg one_pos (fun e _ => h1 e), limit_right hk hε h2, h⟩

theorem joins' {f g k : ℝ → ℝ} {x r ε : ℝ} (hg : Continuous g) (hk : Continuous k) (hε : 0 < ε) (h1 : ∀ e, x - ε < e → e < x → f e = g e)
    (h2 : ∀ e, x < e → f e = k e) (h : |k x - g x| ≤ r * |g x|) : JoinsWithin f x r :=
  ⟨g x, k x, limit_left hg hε h1, limit_right hk one_pos (fun e h _ => h2 e h), h⟩

/-- **C60.** The pieces of the eccentricity functions of half-day resonance join: at 0.65 within 0.21 %, at 0.7 and 0.715 within 1.9 %.
(They do not join exactly.) -/
theorem C60_eccentricity_functions_join :
    JoinsWithin (fun e => (gCoef e (e * e)).g211) 0.65 0.0021 ∧ JoinsWithin (fun e => (gCoef e (e * e)).g310) 0.65 0.0021 ∧
    JoinsWithin (fun e => (gCoef e (e * e)).g322) 0.65 0.0021 ∧ JoinsWithin (fun e => (gCoef e (e * e)).g410) 0.65 0.0021 ∧
    JoinsWithin (fun e => (gCoef e (e * e)).g422) 0.65 0.0021 ∧ JoinsWithin (fun e => (gCoef e (e * e)).g520) 0.65 0.0021 ∧
    JoinsWithin (fun e => (gCoef e (e * e)).g520) 0.715 0.019 ∧ JoinsWithin (fun e => (gCoef e (e * e)).g533) 0.7 0.019 ∧
    JoinsWithin (fun e => (gCoef e (e * e)).g521) 0.7 0.019 ∧ JoinsWithin (fun e => (gCoef e (e * e)).g532) 0.7 0.019 := by
  simp only [gCoef_table]
  refine ⟨?_, ?_, ?_, ?_, ?_, ?_, ?_, ?_, ?_, ?_⟩
  · refine joins (g := fun e => 3.616 - 13.247 * e + 16.29 * e ^ 2)
      (k := fun e => -72.099 + 331.819 * e - 508.738 * e ^ 2 + 266.724 * e ^ 3) (by fun_prop) (by fun_prop) one_pos ?_ ?_ ?_
    · intro e h; rw [G211, if_pos h.le]
    · intro e h _; rw [G211, if_neg (not_le.mpr h)]
    · norm_num [abs_of_pos, abs_of_neg]
  · refine joins (g := fun e => -19.302 + 117.39 * e - 228.419 * e ^ 2 + 156.591 * e ^ 3)
      (k := fun e => -346.844 + 1582.851 * e - 2415.925 * e ^ 2 + 1246.113 * e ^ 3) (by fun_prop) (by fun_prop) one_pos ?_ ?_ ?_
    · intro e h; rw [G310, if_pos h.le]
    · intro e h _; rw [G310, if_neg (not_le.mpr h)]
    · norm_num [abs_of_pos, abs_of_neg]
  · refine joins (g := fun e => -18.9068 + 109.7927 * e - 214.6334 * e ^ 2 + 146.5816 * e ^ 3)
      (k := fun e => -342.585 + 1554.908 * e - 2366.899 * e ^ 2 + 1215.972 * e ^ 3) (by fun_prop) (by fun_prop) one_pos ?_ ?_ ?_
    · intro e h; rw [G322, if_pos h.le]
    · intro e h _; rw [G322, if_neg (not_le.mpr h)]
    · norm_num [abs_of_pos, abs_of_neg]
  · refine joins (g := fun e => -41.122 + 242.694 * e - 471.094 * e ^ 2 + 313.953 * e ^ 3)
      (k := fun e => -1052.797 + 4758.686 * e - 7193.992 * e ^ 2 + 3651.957 * e ^ 3) (by fun_prop) (by fun_prop) one_pos ?_ ?_ ?_
    · intro e h; rw [G410, if_pos h.le]
    · intro e h _; rw [G410, if_neg (not_le.mpr h)]
    · norm_num [abs_of_pos, abs_of_neg]
  · refine joins (g := fun e => -146.407 + 841.88 * e - 1629.014 * e ^ 2 + 1083.435 * e ^ 3)
      (k := fun e => -3581.69 + 16178.11 * e - 24462.77 * e ^ 2 + 12422.52 * e ^ 3) (by fun_prop) (by fun_prop) one_pos ?_ ?_ ?_
    · intro e h; rw [G422, if_pos h.le]
    · intro e h _; rw [G422, if_neg (not_le.mpr h)]
    · norm_num [abs_of_pos, abs_of_neg]
  · refine joins (g := fun e => -532.114 + 3017.977 * e - 5740.032 * e ^ 2 + 3708.276 * e ^ 3)
      (k := fun e => 1464.74 - 4664.75 * e + 3763.64 * e ^ 2) (ε := 0.065) (by fun_prop) (by fun_prop) (by norm_num) ?_ ?_ ?_
    · intro e h; rw [G520, if_pos h.le]
    · intro e h h'; rw [G520, if_neg (not_le.mpr h), if_pos (by norm_num at h' ⊢; linarith)]
    · norm_num [abs_of_pos, abs_of_neg]
  · refine joins' (g := fun e => 1464.74 - 4664.75 * e + 3763.64 * e ^ 2)
      (k := fun e => -5149.66 + 29936.92 * e - 54087.36 * e ^ 2 + 31324.56 * e ^ 3) (ε := 0.065) (by fun_prop) (by fun_prop) (by norm_num) ?_ ?_ ?_
    · intro e h' h; rw [G520, if_neg (by norm_num at h' ⊢; linarith), if_pos h.le]
    · intro e h; rw [G520, if_neg (by norm_num at h ⊢; linarith), if_neg (not_le.mpr h)]
    · norm_num [abs_of_pos, abs_of_neg]
  · refine joins (g := fun e => -919.2277 + 4988.61 * e - 9064.77 * e ^ 2 + 5542.21 * e ^ 3)
      (k := fun e => -37995.78 + 161616.52 * e - 229838.2 * e ^ 2 + 109377.94 * e ^ 3) (by fun_prop) (by fun_prop) one_pos ?_ ?_ ?_
    · intro e h; rw [G533, if_pos h]
    · intro e h _; rw [G533, if_neg (not_lt.mpr h.le)]
    · norm_num [abs_of_pos, abs_of_neg]
  · refine joins (g := fun e => -822.71072 + 4568.6173 * e - 8491.4146 * e ^ 2 + 5337.524 * e ^ 3)
      (k := fun e => -51752.104 + 218913.95 * e - 309468.16 * e ^ 2 + 146349.42 * e ^ 3) (by fun_prop) (by fun_prop) one_pos ?_ ?_ ?_
    · intro e h; rw [G521, if_pos h]
    · intro e h _; rw [G521, if_neg (not_lt.mpr h.le)]
    · norm_num [abs_of_pos, abs_of_neg]
  · refine joins (g := fun e => -853.666 + 4690.25 * e - 8624.77 * e ^ 2 + 5341.4 * e ^ 3)
      (k := fun e => -40023.88 + 170470.89 * e - 242699.48 * e ^ 2 + 115605.82 * e ^ 3) (by fun_prop) (by fun_prop) one_pos ?_ ?_ ?_
    · intro e h; rw [G532, if_pos h]
    · intro e h _; rw [G532, if_neg (not_lt.mpr h.le)]
    · norm_num [abs_of_pos, abs_of_neg]

/-! ## C63 -/
open Spec Spec.R3 Spec.SDP

theorem aonv_inv {n : ℝ} (hn : 0 < n) : (n / ke) ^ (2 / 3 : ℝ) = 1 / (ke / n) ^ (2 / 3 : ℝ) := by
  have hk : 0 < ke := by unfold ke; norm_num
  rw [one_div, ← Real.inv_rpow (div_pos hk hn).le, inv_div]

/-- the sidereal time used by `dsinit` -/
noncomputable def thetaOf (b : DsinitOptions ℝ) : ℝ := Arith.rem (b.gsto + (b.tc * 4.37526908801129966e-3)) TWO_PI

/-- `n / ke` to the power 2/3, as `dsinit` computes it -/
noncomputable def aonvOf (b : DsinitOptions ℝ) : ℝ := Arith.powf (b.nm / XKE) X2O3

theorem dsinit_half (b : DsinitOptions ℝ) (k : Resonance ℝ) (hw : HalfDayWindow b.nm b.em) :
    (dsinit b k).res = { halfDay b (secularRates b) (thetaOf b) (aonvOf b) k with
      xli := (halfDay b (secularRates b) (thetaOf b) (aonvOf b) k).xlamo, xni := b.no, atime := 0.0 } := by
  have h2 := (C51_class b k).2.1 hw
  have hi : (dsinit b k).irez = resonanceClass b.nm b.em := by
    unfold dsinit; dsimp only; split <;> rfl
  rw [hi] at h2
  have c20 : ((2:ℝ) ==. 0.0) = false := by simp [real_lits]
  have c22 : ((2:ℝ) ==. 2.0) = true := by simp [real_lits]
  have c21 : ((2:ℝ) ==. 1.0) = false := by simp [real_lits]
  unfold dsinit
  dsimp only
  rw [h2]
  simp only [c20, c22, c21, if_true, Bool.false_eq_true, if_false]
  rfl

theorem dsinit_sync (b : DsinitOptions ℝ) (k : Resonance ℝ) (hw : DayWindow b.nm) :
    (dsinit b k).res = { synchronous b (secularRates b) (thetaOf b) (aonvOf b) k with
      xli := (synchronous b (secularRates b) (thetaOf b) (aonvOf b) k).xlamo, xni := b.no, atime := 0.0 } := by
  have h2 := (C51_class b k).1 hw
  have hi : (dsinit b k).irez = resonanceClass b.nm b.em := by
    unfold dsinit; dsimp only; split <;> rfl
  rw [hi] at h2
  have c20 : ((1:ℝ) ==. 0.0) = false := by simp [real_lits]
  have c22 : ((1:ℝ) ==. 2.0) = false := by simp [real_lits]
  have c21 : ((1:ℝ) ==. 1.0) = true := by simp [real_lits]
  unfold dsinit
  dsimp only
  rw [h2]
  simp only [c20, c22, c21, if_true, Bool.false_eq_true, if_false]
  rfl

/-- **C63.** Half-day resonance. -/
theorem C63_half_day (s s' : Satrec ℝ) (o : SGP4InitOptions ℝ) (r : Except SGP4Error (SGP4Result ℝ))
    (h : sgp4init s o = some (s', r)) (he : 0 ≤ o.xecco ∧ o.xecco < 1) (hD : s'.method = .D) :
    let q : Orbit :=
      { n := recoveredMotion o.xno o.xecco o.xinclo, e := o.xecco, inc := o.xinclo, argp := o.xargpo, anom := o.xmo, bstar := o.xbstar }
    let T := targetAt q o.xnodeo
    let m := moon (o.epoch + 18261.5)
    HalfDayWindow q.n q.e →
    s'.irez = 2 ∧ s'.atime = 0 ∧ s'.xni = q.n ∧ s'.xli = s'.xlamo ∧
    SameAngle s'.xlamo (o.xmo + 2 * o.xnodeo - 2 * s'.gsto) ∧
    s'.xfact = q.rateAnomaly + (T.rateM sun + T.rateM m) + 2 * (q.rateNode + (T.rateΩ sun + T.rateΩ m) - earthRate) - q.n ∧
    s'.d2201 = D q.n q.a 2 2 root22 (kaulaF 2 2 0 q.inc) (G201 q.e) ∧
    s'.d2211 = D q.n q.a 2 2 root22 (kaulaF 2 2 1 q.inc) (G211 q.e) ∧
    s'.d3210 = D q.n q.a 3 2 root32 (kaulaF 3 2 1 q.inc) (G310 q.e) ∧
    s'.d3222 = D q.n q.a 3 2 root32 (kaulaF 3 2 2 q.inc) (G322 q.e) ∧
    s'.d4410 = D q.n q.a 4 4 root44 (kaulaF 4 4 1 q.inc) (G410 q.e) ∧
    s'.d4422 = D q.n q.a 4 4 root44 (kaulaF 4 4 2 q.inc) (G422 q.e) ∧
    s'.d5421 = D q.n q.a 5 4 root54 (kaulaF 5 4 2 q.inc) (G521 q.e) ∧
    s'.d5433 = D q.n q.a 5 4 root54 (kaulaF 5 4 3 q.inc) (G533 q.e) ∧
    ∃ F522 F523, |F522 - kaulaF 5 2 2 q.inc| ≤ 1 / 10 ^ 6 ∧ |F523 - kaulaF 5 2 3 q.inc| ≤ 1 / 10 ^ 6 ∧
      s'.d5220 = D q.n q.a 5 2 root52 F522 (G520 q.e) ∧ s'.d5232 = D q.n q.a 5 2 root52 F523 (G532 q.e) := by
  intro q T m hw
  have hs := stored_deep h (guard_real he) hD
  have hno := C56_recovered_motion s s' o r h he
  rw [hno] at hs
  obtain ⟨-, -, rM, rN, -⟩ := C61_lunar_solar_rates s s' o r h he hD
  obtain ⟨m1, -, m3⟩ := C56_secular_rates s s' o r h he
  have hq : orbitOf s' o = q := by unfold orbitOf; rw [hno]
  rw [hq] at m1 m3
  set b := dsinitArgs o (recoveredMotion o.xno o.xecco o.xinclo) s'.gsto s'.mdot s'.argpdot s'.nodedot with hb
  have g : ∀ f : SatDeep ℝ → ℝ, f s'.toSatDeep =
      f (storeDsinit (storeDscom s' (dscom (dscomArgs o (recoveredMotion o.xno o.xecco o.xinclo)))) (dsinit b zeroRes)).toSatDeep :=
    fun f => congrArg f hs
  have hbn : b.nm = q.n := rfl
  have hbe : b.em = q.e := rfl
  have hcl := (C51_class b zeroRes).2.1 hw
  have hres := dsinit_half b zeroRes hw
  have hn : 0 < q.n := lt_of_lt_of_le (by norm_num) hw.1
  have hth : SameAngle (thetaOf b) s'.gsto := by
    unfold thetaOf
    simp only [real_rem, real_TWO_PI]
    refine sameAngle_trans (sameAngle_rem _) ⟨0, ?_⟩
    show s'.gsto + (0.0 : ℝ) * _ = _
    norm_num
  have hao : aonvOf b = 1 / q.a := by
    have e : aonvOf b = (q.n / ke) ^ (2 / 3 : ℝ) := by
      unfold aonvOf; rw [hbn, real_powf, show (X2O3 : ℝ) = 2 / 3 by unfold X2O3; norm_num]; rfl
    rw [e, aonv_inv hn]; rfl
  have sM : (secularRates b).dmdt = s'.dmdt := by
    rw [g (·.dmdt)]; show _ = (dsinit b zeroRes).rates.dmdt; unfold dsinit; dsimp only; split <;> rfl
  have sN : (secularRates b).dnodt = s'.dnodt := by
    rw [g (·.dnodt)]; show _ = (dsinit b zeroRes).rates.dnodt; unfold dsinit; dsimp only; split <;> rfl
  obtain ⟨f1, f2, f3, f4, f5, f6, f7, f8, f9, f10⟩ := C59_inclination_functions q.inc
  have gt := gCoef_table q.e
  have hbf : fCoef b.sinim b.cosim = fCoef (Real.sin q.inc) (Real.cos q.inc) := rfl
  have hbg : gCoef b.ecco b.eccsq = gCoef q.e (q.e * q.e) := rfl
  have lits : (3.0 : ℝ) = 3 ∧ (2.0 : ℝ) = 2 := by norm_num
  have e22 : (1.7891679e-6 : ℝ) = root22 := by unfold root22; norm_num
  have e32 : (3.7393792e-7 : ℝ) = root32 := by unfold root32; norm_num
  have e44 : (7.3636953e-9 : ℝ) = root44 := by unfold root44; norm_num
  have e52 : (1.1428639e-7 : ℝ) = root52 := by unfold root52; norm_num
  have e54 : (2.1765803e-9 : ℝ) = root54 := by unfold root54; norm_num
  refine ⟨?_, ?_, ?_, ?_, ?_, ?_, ?_, ?_, ?_, ?_, ?_, ?_, ?_, ?_, (fCoef (Real.sin q.inc) (Real.cos q.inc)).f522,
    (fCoef (Real.sin q.inc) (Real.cos q.inc)).f523, f9, f10, ?_, ?_⟩
  · rw [g (·.irez)]; exact hcl
  · rw [g (·.atime)]; show (dsinit b zeroRes).res.atime = 0; rw [hres]; show (0.0 : ℝ) = 0; norm_num
  · rw [g (·.xni)]; show (dsinit b zeroRes).res.xni = _; rw [hres]; rfl
  · rw [g (·.xli), g (·.xlamo)]; show (dsinit b zeroRes).res.xli = (dsinit b zeroRes).res.xlamo; rw [hres]
  · rw [g (·.xlamo)]; show SameAngle (dsinit b zeroRes).res.xlamo _; rw [hres]
    show SameAngle (remR ((o.xmo + o.xnodeo + o.xnodeo) - (thetaOf b + thetaOf b)) TWO_PI) _
    rw [real_TWO_PI]
    refine sameAngle_trans (sameAngle_rem _) ?_
    have e : o.xmo + 2 * o.xnodeo - 2 * s'.gsto = (o.xmo + o.xnodeo + o.xnodeo) - (s'.gsto + s'.gsto) := by ring
    rw [e]
    exact sameAngle_sub (sameAngle_refl _) (sameAngle_add hth hth)
  · rw [g (·.xfact)]; show (dsinit b zeroRes).res.xfact = _; rw [hres]
    show (s'.mdot + (secularRates b).dmdt + (2.0 * ((s'.nodedot + (secularRates b).dnodt) - 4.37526908801129966e-3))) - q.n = _
    rw [sM, sN, rM, rN, m1, m3, lits.2]
    have : (4.37526908801129966e-3 : ℝ) = earthRate := by unfold earthRate; norm_num
    rw [this]; rfl
  · rw [g (·.d2201)]; show (dsinit b zeroRes).res.d2201 = _; rw [hres]
    show 3.0 * (q.n * q.n) * (aonvOf b * aonvOf b) * 1.7891679e-6 * (fCoef b.sinim b.cosim).f220 * (gCoef b.ecco b.eccsq).g201 = _
    rw [hbf, hbg, f1, gt, hao, e22, lits.1]
    unfold D; push_cast; ring
  · rw [g (·.d2211)]; show (dsinit b zeroRes).res.d2211 = _; rw [hres]
    show 3.0 * (q.n * q.n) * (aonvOf b * aonvOf b) * 1.7891679e-6 * (fCoef b.sinim b.cosim).f221 * (gCoef b.ecco b.eccsq).g211 = _
    rw [hbf, hbg, f2, gt, hao, e22, lits.1]
    unfold D; push_cast; ring
  · rw [g (·.d3210)]; show (dsinit b zeroRes).res.d3210 = _; rw [hres]
    show 3.0 * (q.n * q.n) * (aonvOf b * aonvOf b) * aonvOf b * 3.7393792e-7 * (fCoef b.sinim b.cosim).f321 * (gCoef b.ecco b.eccsq).g310 = _
    rw [hbf, hbg, f3, gt, hao, e32, lits.1]
    unfold D; push_cast; ring
  · rw [g (·.d3222)]; show (dsinit b zeroRes).res.d3222 = _; rw [hres]
    show 3.0 * (q.n * q.n) * (aonvOf b * aonvOf b) * aonvOf b * 3.7393792e-7 * (fCoef b.sinim b.cosim).f322 * (gCoef b.ecco b.eccsq).g322 = _
    rw [hbf, hbg, f4, gt, hao, e32, lits.1]
    unfold D; push_cast; ring
  · rw [g (·.d4410)]; show (dsinit b zeroRes).res.d4410 = _; rw [hres]
    show 2.0 * (3.0 * (q.n * q.n) * (aonvOf b * aonvOf b) * aonvOf b * aonvOf b) * 7.3636953e-9 * (fCoef b.sinim b.cosim).f441
      * (gCoef b.ecco b.eccsq).g410 = _
    rw [hbf, hbg, f5, gt, hao, e44, lits.1, lits.2]
    unfold D; push_cast; ring
  · rw [g (·.d4422)]; show (dsinit b zeroRes).res.d4422 = _; rw [hres]
    show 2.0 * (3.0 * (q.n * q.n) * (aonvOf b * aonvOf b) * aonvOf b * aonvOf b) * 7.3636953e-9 * (fCoef b.sinim b.cosim).f442
      * (gCoef b.ecco b.eccsq).g422 = _
    rw [hbf, hbg, f6, gt, hao, e44, lits.1, lits.2]
    unfold D; push_cast; ring
  · rw [g (·.d5421)]; show (dsinit b zeroRes).res.d5421 = _; rw [hres]
    show 2.0 * (3.0 * (q.n * q.n) * (aonvOf b * aonvOf b) * aonvOf b * aonvOf b * aonvOf b) * 2.1765803e-9 * (fCoef b.sinim b.cosim).f542
      * (gCoef b.ecco b.eccsq).g521 = _
    rw [hbf, hbg, f7, gt, hao, e54, lits.1, lits.2]
    unfold D; push_cast; ring
  · rw [g (·.d5433)]; show (dsinit b zeroRes).res.d5433 = _; rw [hres]
    show 2.0 * (3.0 * (q.n * q.n) * (aonvOf b * aonvOf b) * aonvOf b * aonvOf b * aonvOf b) * 2.1765803e-9 * (fCoef b.sinim b.cosim).f543
      * (gCoef b.ecco b.eccsq).g533 = _
    rw [hbf, hbg, f8, gt, hao, e54, lits.1, lits.2]
    unfold D; push_cast; ring
  · rw [g (·.d5220)]; show (dsinit b zeroRes).res.d5220 = _; rw [hres]
    show 3.0 * (q.n * q.n) * (aonvOf b * aonvOf b) * aonvOf b * aonvOf b * aonvOf b * 1.1428639e-7 * (fCoef b.sinim b.cosim).f522
      * (gCoef b.ecco b.eccsq).g520 = _
    rw [hbf, hbg, gt, hao, e52, lits.1]
    unfold D; push_cast; ring
  · rw [g (·.d5232)]; show (dsinit b zeroRes).res.d5232 = _; rw [hres]
    show 3.0 * (q.n * q.n) * (aonvOf b * aonvOf b) * aonvOf b * aonvOf b * aonvOf b * 1.1428639e-7 * (fCoef b.sinim b.cosim).f523
      * (gCoef b.ecco b.eccsq).g532 = _
    rw [hbf, hbg, gt, hao, e52, lits.1]
    unfold D; push_cast; ring

/-- **C63.** One-day resonance. -/
theorem C63_one_day (s s' : Satrec ℝ) (o : SGP4InitOptions ℝ) (r : Except SGP4Error (SGP4Result ℝ))
    (h : sgp4init s o = some (s', r)) (he : 0 ≤ o.xecco ∧ o.xecco < 1) (hD : s'.method = .D) :
    let q : Orbit :=
      { n := recoveredMotion o.xno o.xecco o.xinclo, e := o.xecco, inc := o.xinclo, argp := o.xargpo, anom := o.xmo, bstar := o.xbstar }
    let T := targetAt q o.xnodeo
    let m := moon (o.epoch + 18261.5)
    DayWindow q.n →
    s'.irez = 1 ∧ s'.atime = 0 ∧ s'.xni = q.n ∧ s'.xli = s'.xlamo ∧
    SameAngle s'.xlamo (o.xmo + o.xnodeo + o.xargpo - s'.gsto) ∧
    s'.xfact = q.rateAnomaly + q.ratePerigee + q.rateNode + (T.rateM sun + T.rateM m) + (T.rateω sun + T.rateω m)
      + (T.rateΩ sun + T.rateΩ m) - q.n - earthRate ∧
    s'.del1 = δ q.n q.a 3 1 q31 (kaulaF 3 1 1 q.inc) (G310s q.e) ∧
    s'.del2 = δ q.n q.a 2 2 q22 (kaulaF 2 2 0 q.inc) (G200 q.e) ∧
    s'.del3 = δ q.n q.a 3 3 q33 (kaulaF 3 3 0 q.inc) (G300 q.e) := by
  intro q T m hw
  have hs := stored_deep h (guard_real he) hD
  have hno := C56_recovered_motion s s' o r h he
  rw [hno] at hs
  obtain ⟨-, -, rM, rN, rW⟩ := C61_lunar_solar_rates s s' o r h he hD
  obtain ⟨m1, m2, m3⟩ := C56_secular_rates s s' o r h he
  have hq : orbitOf s' o = q := by unfold orbitOf; rw [hno]
  rw [hq] at m1 m2 m3
  set b := dsinitArgs o (recoveredMotion o.xno o.xecco o.xinclo) s'.gsto s'.mdot s'.argpdot s'.nodedot with hb
  have g : ∀ f : SatDeep ℝ → ℝ, f s'.toSatDeep =
      f (storeDsinit (storeDscom s' (dscom (dscomArgs o (recoveredMotion o.xno o.xecco o.xinclo)))) (dsinit b zeroRes)).toSatDeep :=
    fun f => congrArg f hs
  have hbn : b.nm = q.n := rfl
  have hcl := (C51_class b zeroRes).1 hw
  have hres := dsinit_sync b zeroRes hw
  have hn : 0 < q.n := lt_trans (by norm_num) hw.1
  have hth : SameAngle (thetaOf b) s'.gsto := by
    unfold thetaOf
    simp only [real_rem, real_TWO_PI]
    refine sameAngle_trans (sameAngle_rem _) ⟨0, ?_⟩
    show s'.gsto + (0.0 : ℝ) * _ = _
    norm_num
  have hao : aonvOf b = 1 / q.a := by
    have e : aonvOf b = (q.n / ke) ^ (2 / 3 : ℝ) := by
      unfold aonvOf; rw [hbn, real_powf, show (X2O3 : ℝ) = 2 / 3 by unfold X2O3; norm_num]; rfl
    rw [e, aonv_inv hn]; rfl
  have sM : (secularRates b).dmdt = s'.dmdt := by
    rw [g (·.dmdt)]; show _ = (dsinit b zeroRes).rates.dmdt; unfold dsinit; dsimp only; split <;> rfl
  have sN : (secularRates b).dnodt = s'.dnodt := by
    rw [g (·.dnodt)]; show _ = (dsinit b zeroRes).rates.dnodt; unfold dsinit; dsimp only; split <;> rfl
  have sW : (secularRates b).domdt = s'.domdt := by
    rw [g (·.domdt)]; show _ = (dsinit b zeroRes).rates.domdt; unfold dsinit; dsimp only; split <;> rfl
  obtain ⟨k1, -, -, -, -, -, -, -, -, -, k11, k12⟩ := kaula_values q.inc
  have hbe : b.emsq = q.e ^ 2 := by
    show powi2 o.xecco = o.xecco ^ 2
    rw [real_powi2]
  have hbs : b.sinim = Real.sin q.inc := rfl
  have hbc : b.cosim = Real.cos q.inc := rfl
  refine ⟨?_, ?_, ?_, ?_, ?_, ?_, ?_, ?_, ?_⟩
  · rw [g (·.irez)]; exact hcl
  · rw [g (·.atime)]; show (dsinit b zeroRes).res.atime = 0; rw [hres]; show (0.0 : ℝ) = 0; norm_num
  · rw [g (·.xni)]; show (dsinit b zeroRes).res.xni = _; rw [hres]; rfl
  · rw [g (·.xli), g (·.xlamo)]; show (dsinit b zeroRes).res.xli = (dsinit b zeroRes).res.xlamo; rw [hres]
  · rw [g (·.xlamo)]; show SameAngle (dsinit b zeroRes).res.xlamo _; rw [hres]
    show SameAngle (remR ((o.xmo + o.xnodeo + o.xargpo) - thetaOf b) TWO_PI) _
    rw [real_TWO_PI]
    exact sameAngle_trans (sameAngle_rem _) (sameAngle_sub (sameAngle_refl _) hth)
  · rw [g (·.xfact)]; show (dsinit b zeroRes).res.xfact = _; rw [hres]
    show (s'.mdot + (s'.argpdot + s'.nodedot) + (secularRates b).dmdt + (secularRates b).domdt + (secularRates b).dnodt)
      - (q.n + 4.37526908801129966e-3) = _
    rw [sM, sN, sW, rM, rN, rW, m1, m2, m3]
    have : (4.37526908801129966e-3 : ℝ) = earthRate := by unfold earthRate; norm_num
    rw [this]
    show q.rateAnomaly + (q.ratePerigee + q.rateNode) + (T.rateM sun + T.rateM m) + (T.rateω sun + T.rateω m)
      + (T.rateΩ sun + T.rateΩ m) - (q.n + earthRate) = _
    ring
  · rw [g (·.del1)]; show (dsinit b zeroRes).res.del1 = _; rw [hres]
    show 3.0 * q.n * q.n * aonvOf b * aonvOf b * ((0.9375 * b.sinim * b.sinim * (1.0 + (3.0 * b.cosim))) - (0.75 * (1.0 + b.cosim)))
      * (1.0 + (2.0 * b.emsq)) * 2.1460748e-6 * aonvOf b = _
    rw [hao, hbe, hbs, hbc, k11]
    unfold δ G310s q31
    generalize q.n = n; generalize q.e = e; generalize q.a = a; generalize Real.sin q.inc = x; generalize Real.cos q.inc = y
    push_cast; norm_num1; ring
  · rw [g (·.del2)]; show (dsinit b zeroRes).res.del2 = _; rw [hres]
    show 2.0 * (3.0 * q.n * q.n * aonvOf b * aonvOf b) * (0.75 * (1.0 + b.cosim) * (1.0 + b.cosim))
      * (1.0 + (b.emsq * (-2.5 + (0.8125 * b.emsq)))) * 1.7891679e-6 = _
    rw [hao, hbe, hbc, k1]
    unfold δ G200 q22
    generalize q.n = n; generalize q.e = e; generalize q.a = a; generalize Real.cos q.inc = y
    push_cast; norm_num1; ring
  · rw [g (·.del3)]; show (dsinit b zeroRes).res.del3 = _; rw [hres]
    show 3.0 * (3.0 * q.n * q.n * aonvOf b * aonvOf b) * ((1.0 + b.cosim) * (1.875 * (1.0 + b.cosim) * (1.0 + b.cosim)))
      * (1.0 + (b.emsq * (-6.0 + (6.60937 * b.emsq)))) * 2.2123015e-7 * aonvOf b = _
    rw [hao, hbe, hbc, k12]
    unfold δ G300 q33
    generalize q.n = n; generalize q.e = e; generalize q.a = a; generalize Real.cos q.inc = y
    push_cast; norm_num1; ring

/-- **C63.** Without resonance every resonance quantity is zero. -/
theorem C63_no_resonance (s s' : Satrec ℝ) (o : SGP4InitOptions ℝ) (r : Except SGP4Error (SGP4Result ℝ))
    (h : sgp4init s o = some (s', r)) (he : 0 ≤ o.xecco ∧ o.xecco < 1) (hD : s'.method = .D)
    (h1 : ¬ DayWindow (recoveredMotion o.xno o.xecco o.xinclo)) (h2 : ¬ HalfDayWindow (recoveredMotion o.xno o.xecco o.xinclo) o.xecco) :
    s'.irez = 0 ∧ s'.atime = 0 ∧ s'.xni = 0 ∧ s'.xli = 0 ∧ s'.xlamo = 0 ∧ s'.xfact = 0 ∧ s'.del1 = 0 ∧ s'.del2 = 0 ∧ s'.del3 = 0 ∧
    s'.d2201 = 0 ∧ s'.d2211 = 0 ∧ s'.d3210 = 0 ∧ s'.d3222 = 0 ∧ s'.d4410 = 0 ∧ s'.d4422 = 0 ∧ s'.d5220 = 0 ∧ s'.d5232 = 0 ∧
    s'.d5421 = 0 ∧ s'.d5433 = 0 := by
  have hs := stored_deep h (guard_real he) hD
  rw [C56_recovered_motion s s' o r h he] at hs
  set b := dsinitArgs o (recoveredMotion o.xno o.xecco o.xinclo) s'.gsto s'.mdot s'.argpdot s'.nodedot with hb
  have g : ∀ f : SatDeep ℝ → ℝ, f s'.toSatDeep =
      f (storeDsinit (storeDscom s' (dscom (dscomArgs o (recoveredMotion o.xno o.xecco o.xinclo)))) (dsinit b zeroRes)).toSatDeep :=
    fun f => congrArg f hs
  have hcl := (C51_class b zeroRes).2.2 h1 h2
  have hres := ((C51_coefficients b zeroRes).1 h1 h2).1
  have z : (0.0 : ℝ) = 0 := by norm_num
  refine ⟨?_, ?_, ?_, ?_, ?_, ?_, ?_, ?_, ?_, ?_, ?_, ?_, ?_, ?_, ?_, ?_, ?_, ?_, ?_⟩
  · rw [g (·.irez)]; exact hcl
  · rw [g (·.atime)]; show (dsinit b zeroRes).res.atime = 0; rw [hres]; exact z
  · rw [g (·.xni)]; show (dsinit b zeroRes).res.xni = 0; rw [hres]; exact z
  · rw [g (·.xli)]; show (dsinit b zeroRes).res.xli = 0; rw [hres]; exact z
  · rw [g (·.xlamo)]; show (dsinit b zeroRes).res.xlamo = 0; rw [hres]; exact z
  · rw [g (·.xfact)]; show (dsinit b zeroRes).res.xfact = 0; rw [hres]; exact z
  · rw [g (·.del1)]; show (dsinit b zeroRes).res.del1 = 0; rw [hres]; exact z
  · rw [g (·.del2)]; show (dsinit b zeroRes).res.del2 = 0; rw [hres]; exact z
  · rw [g (·.del3)]; show (dsinit b zeroRes).res.del3 = 0; rw [hres]; exact z
  · rw [g (·.d2201)]; show (dsinit b zeroRes).res.d2201 = 0; rw [hres]; exact z
  · rw [g (·.d2211)]; show (dsinit b zeroRes).res.d2211 = 0; rw [hres]; exact z
  · rw [g (·.d3210)]; show (dsinit b zeroRes).res.d3210 = 0; rw [hres]; exact z
  · rw [g (·.d3222)]; show (dsinit b zeroRes).res.d3222 = 0; rw [hres]; exact z
  · rw [g (·.d4410)]; show (dsinit b zeroRes).res.d4410 = 0; rw [hres]; exact z
  · rw [g (·.d4422)]; show (dsinit b zeroRes).res.d4422 = 0; rw [hres]; exact z
  · rw [g (·.d5220)]; show (dsinit b zeroRes).res.d5220 = 0; rw [hres]; exact z
  · rw [g (·.d5232)]; show (dsinit b zeroRes).res.d5232 = 0; rw [hres]; exact z
  · rw [g (·.d5421)]; show (dsinit b zeroRes).res.d5421 = 0; rw [hres]; exact z
  · rw [g (·.d5433)]; show (dsinit b zeroRes).res.d5433 = 0; rw [hres]; exact z

end Sat
