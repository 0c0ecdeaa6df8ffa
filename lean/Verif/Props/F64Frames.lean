import Verif.F64.LibmSpec
import Verif.Props.Geodetic
import Verif.Props.F64Look
/-! # Frames, angles and Doppler factor in IEEE-754 arithmetic: C38, C41, C43, C45, C46 -/

namespace Sat
open F64 Spec

/-! ## C46 -/

/-- strictly outside `[-b, b]`, infinities included, NaN not -/
def Outside (x : F64) (b : ℝ) : Prop := (∃ a, x = .inf a) ∨ (x.Fin ∧ b < |x.val|)

theorem outside_iff (x b : F64) (hb : b.Fin) (h0 : 0 ≤ b.val) :
    (flt x (neg b) || flt b x) = true ↔ Outside x b.val := by
  obtain ⟨n1, n2⟩ := neg_val hb
  unfold Outside
  cases hx : x with
  | nan => simp
  | inf a =>
    obtain ⟨s, n, hn, rfl⟩ := fin_cases hb
    cases a <;> simp [flt, neg]
  | fin a n hn =>
    rw [Bool.or_eq_true, ← hx]
    have hf : x.Fin := by rw [hx]; trivial
    rw [flt_fin hf n1, flt_fin hb hf, n2, lt_abs]
    constructor
    · rintro (h | h)
      · exact Or.inr ⟨hf, Or.inr (by linarith)⟩
      · exact Or.inr ⟨hf, Or.inl h⟩
    · rintro (⟨a, h⟩ | ⟨-, h | h⟩)
      · rw [hx] at h; cases h
      · exact Or.inr h
      · exact Or.inl (by linarith)

theorem lit_90 : (sci 900 true 1).Fin ∧ (sci 900 true 1).val = 90 := by
  simpa using sci_int (m := 900) (s := true) (k := 1) 90 (by norm_num) (by norm_num)
theorem lit_180 : (sci 1800 true 1).Fin ∧ (sci 1800 true 1).val = 180 := by
  simpa using sci_int (m := 1800) (s := true) (k := 1) 180 (by norm_num) (by norm_num)

section
variable [Libm]

/-- **C46 in doubles**: the four checked conversions panic exactly for infinities and finite values strictly outside the closed
range, whose ends are the doubles `PI/2`, `PI`, `90` and `180`; otherwise they are the plain conversion. -/
theorem C46_f64_checked (x : F64) :
    (degrees_lat x = none ↔ Outside x F64.fracPi2.val) ∧ (degrees_long x = none ↔ Outside x F64.pi.val) ∧
    (radians_lat x = none ↔ Outside x 90) ∧ (radians_long x = none ↔ Outside x 180) ∧
    (∀ y, degrees_lat x = some y → y = radians_to_degrees x) ∧ (∀ y, degrees_long x = some y → y = radians_to_degrees x) ∧
    (∀ y, radians_lat x = some y → y = degrees_to_radians x) ∧ (∀ y, radians_long x = some y → y = degrees_to_radians x) := by
  have key : ∀ (b : F64) (v : F64), b.Fin → 0 ≤ b.val →
      (((if (flt x (neg b) || flt b x) = true then none else some v) = none ↔ Outside x b.val) ∧
      ∀ y, (if (flt x (neg b) || flt b x) = true then none else some v) = some y → y = v) := by
    intro b v hb h0
    rw [← outside_iff x b hb h0]
    constructor
    · split <;> simp_all
    · intro y; split <;> simp_all
  have hpi := pi_val.2
  have hf := fracPi2_val.2
  have k1 := key F64.fracPi2 (radians_to_degrees x) fracPi2_val.1 (by rw [hf]; positivity)
  have k2 := key F64.pi (radians_to_degrees x) pi_val.1 (by rw [hpi]; positivity)
  have k3 := key (sci 900 true 1) (degrees_to_radians x) lit_90.1 (by rw [lit_90.2]; norm_num)
  have k4 := key (sci 1800 true 1) (degrees_to_radians x) lit_180.1 (by rw [lit_180.2]; norm_num)
  rw [lit_90.2] at k3
  rw [lit_180.2] at k4
  exact ⟨k1.1, k2.1, k3.1, k4.1, k1.2, k2.2, k3.2, k4.2⟩

/-- **C46, NaN**: no checked conversion panics on NaN; it is handed on. -/
theorem C46_f64_nan : degrees_lat (.nan : F64) = some .nan ∧ degrees_long (.nan : F64) = some .nan ∧
    radians_lat (.nan : F64) = some .nan ∧ radians_long (.nan : F64) = some .nan := by
  simp only [degrees_lat, degrees_long, radians_lat, radians_long, radians_to_degrees, degrees_to_radians, f64_flt, nan_flt, flt_nan,
    f64_mul, nan_mul, Bool.or_self, Bool.false_eq_true, if_false, and_self]

/-- both outcomes occur in doubles -/
example : (radians_lat (sci 455 true 1 : F64)).isSome = true ∧ radians_lat (F64.inf true) = none ∧
    radians_long (sci 1801 true 1 : F64) = none := by
  refine ⟨?_, ?_, ?_⟩
  · rw [Option.isSome_iff_ne_none]
    intro h
    rcases (C46_f64_checked _).2.2.1.mp h with ⟨a, h⟩ | ⟨hf, h⟩
    · have := (sci_rounds 455 true 1).pow (e := 10) (by norm_num) (by norm_num)
      rw [h] at this; exact this.1
    · have := sci_dyadic (m := 455) (s := true) (k := 1) 91 1 (by norm_num) (by norm_num) (by norm_num)
      rw [this.2] at h; norm_num at h
  · exact (C46_f64_checked _).2.2.1.mpr (Or.inl ⟨_, rfl⟩)
  · refine (C46_f64_checked _).2.2.2.1.mpr (Or.inr ?_)
    have hr := sci_rounds 1801 true 1
    have h1 := hr.pow (e := 10) (by norm_num) (by norm_num)
    have h2 := hr.err_le h1.1 (B := 2 ^ 10) (by norm_num) (by norm_num)
    refine ⟨h1.1, ?_⟩
    rw [abs_le] at h2
    rw [abs_of_nonneg] <;> norm_num at h2 <;> linarith

/-! ### Relative error of one operation, and the round trip -/

omit [Libm] in
/-- a normal result has relative error at most `2^-53` -/
theorem rel_of_rounds {r : ℝ} {x : F64} (h : Rounds r x) (hx : x.Fin) (hr : 1 / 2 ^ 1000 ≤ |r|) :
    ∃ δ : ℝ, |δ| ≤ 1 / 2 ^ 53 ∧ x.val = r * (1 + δ) := by
  have hp : (0 : ℝ) < 1 / 2 ^ 1000 := by positivity
  have h0 : r ≠ 0 := by rintro rfl; rw [abs_zero] at hr; exact absurd hp (not_lt.mpr hr)
  have ha : 0 < |r| := abs_pos.mpr h0
  have herr : |x.val - r| ≤ |r| / 2 ^ 53 := by
    refine le_trans (h.err hx) (max_le ?_ le_rfl)
    refine le_trans ?_ (div_le_div_of_nonneg_right hr (by positivity))
    rw [unit_eq, div_div, one_div_le_one_div (by positivity) (by positivity), ← pow_add, ← pow_succ']
    exact pow_le_pow_right₀ (by norm_num) (by norm_num)
  refine ⟨(x.val - r) / r, ?_, by field_simp; ring⟩
  rw [abs_div, div_le_iff₀ ha]; linarith

omit [Libm] in
/-- a number between two powers of two is rounded to a finite double -/
theorem fin_of_rounds {r : ℝ} {x : F64} (h : Rounds r x) (hr : |r| ≤ 2 ^ 970) : x.Fin := (h.pow (by norm_num) hr).1

/-- the conversion factors as doubles -/
theorem factors_val : ∃ δ₁ δ₂ : ℝ, |δ₁| ≤ 1 / 2 ^ 53 ∧ |δ₂| ≤ 1 / 2 ^ 53 ∧
    (DEG_2_RAD : F64).Fin ∧ (DEG_2_RAD : F64).val = F64.pi.val / 180 * (1 + δ₁) ∧
    (RAD_TO_DEG : F64).Fin ∧ (RAD_TO_DEG : F64).val = 180 / F64.pi.val * (1 + δ₂) := by
  have hp := pi_val
  have r1 := div_rounds hp.1 lit_180.1 (by rw [lit_180.2]; norm_num)
  have r2 := div_rounds lit_180.1 hp.1 (by rw [hp.2]; positivity)
  rw [lit_180.2, hp.2] at r1 r2
  have f1 := (r1.pow (e := 10) (by norm_num) (by norm_num)).1
  have f2 := (r2.pow (e := 10) (by norm_num) (by norm_num)).1
  obtain ⟨δ₁, a1, b1⟩ := rel_of_rounds r1 f1 (by
    refine le_trans (one_div_le_one_div_of_le (by positivity) (pow_le_pow_right₀ (by norm_num) (by norm_num : 10 ≤ 1000))) ?_
    norm_num)
  obtain ⟨δ₂, a2, b2⟩ := rel_of_rounds r2 f2 (by
    refine le_trans (one_div_le_one_div_of_le (by positivity) (pow_le_pow_right₀ (by norm_num) (by norm_num : 10 ≤ 1000))) ?_
    norm_num)
  refine ⟨δ₁, δ₂, a1, a2, f1, ?_, f2, ?_⟩
  · rw [hp.2]; exact b1
  · rw [hp.2]; exact b2

omit [Libm] in
/-- four small relative errors -/
theorem four_deltas {a b c d : ℝ} (ha : |a| ≤ 1 / 2 ^ 53) (hb : |b| ≤ 1 / 2 ^ 53) (hc : |c| ≤ 1 / 2 ^ 53) (hd : |d| ≤ 1 / 2 ^ 53) :
    |(1 + a) * (1 + b) * (1 + c) * (1 + d) - 1| ≤ 1 / 2 ^ 50 := by
  have pair : ∀ x y u v : ℝ, |x| ≤ u → |y| ≤ v → u ≤ 1 → |(1 + x) * (1 + y) - 1| ≤ u + 2 * v := by
    intro x y u v hx hy hu
    have : (1 + x) * (1 + y) - 1 = x + (1 + x) * y := by ring
    rw [this]
    refine le_trans (abs_add_le _ _) (add_le_add hx ?_)
    rw [abs_mul]
    refine mul_le_mul ?_ hy (abs_nonneg _) (by norm_num)
    have := abs_add_le 1 x
    rw [abs_one] at this; linarith
  have h1 := pair a b _ _ ha hb (by norm_num)
  have h2 := pair ((1 + a) * (1 + b) - 1) c _ _ h1 hc (by norm_num)
  have h3 := pair ((1 + ((1 + a) * (1 + b) - 1)) * (1 + c) - 1) d _ _ h2 hd (by norm_num)
  have e : (1 + ((1 + ((1 + a) * (1 + b) - 1)) * (1 + c) - 1)) * (1 + d) - 1 = (1 + a) * (1 + b) * (1 + c) * (1 + d) - 1 := by ring
  rw [e] at h3
  refine le_trans h3 ?_
  norm_num

/-- **C46 in doubles, round trip**: converting to radians and back (or to degrees and back) changes a double of magnitude between
`2^-800` and `2^800` by at most one part in `2^50`. -/
theorem C46_f64_inverse (x : F64) (hx : x.Fin) (h1 : 1 / 2 ^ 800 ≤ |x.val|) (h2 : |x.val| ≤ 2 ^ 800) :
    ((radians_to_degrees (degrees_to_radians x)).Fin ∧
      |(radians_to_degrees (degrees_to_radians x)).val - x.val| ≤ |x.val| / 2 ^ 50) ∧
    ((degrees_to_radians (radians_to_degrees x)).Fin ∧
      |(degrees_to_radians (radians_to_degrees x)).val - x.val| ≤ |x.val| / 2 ^ 50) := by
  obtain ⟨δ₁, δ₂, d1, d2, fD, vD, fR, vR⟩ := factors_val
  have hpl : (3 : ℝ) < F64.pi.val ∧ F64.pi.val < 4 := by rw [pi_val.2]; norm_num
  have b1 := abs_le.mp d1
  have b2 := abs_le.mp d2
  have small : (1 : ℝ) / 2 ^ 53 ≤ 1 / 8 := by norm_num
  -- crude bounds for the factors
  have gD : 1 / 2 ^ 7 ≤ |(DEG_2_RAD : F64).val| ∧ |(DEG_2_RAD : F64).val| ≤ 2 ^ 7 := by
    rw [vD, abs_of_pos (by apply mul_pos <;> linarith)]
    constructor <;> nlinarith
  have gR : 1 / 2 ^ 7 ≤ |(RAD_TO_DEG : F64).val| ∧ |(RAD_TO_DEG : F64).val| ≤ 2 ^ 7 := by
    have q1 : 180 / F64.pi.val ≤ 60 := by rw [div_le_iff₀ (by linarith)]; linarith
    have q2 : 45 ≤ 180 / F64.pi.val := by rw [le_div_iff₀ (by linarith)]; linarith
    rw [vR, abs_of_pos (by apply mul_pos <;> linarith)]
    constructor <;> nlinarith
  have main : ∀ c d : F64, c.Fin → d.Fin → 1 / 2 ^ 7 ≤ |c.val| → |c.val| ≤ 2 ^ 7 → 1 / 2 ^ 7 ≤ |d.val| → |d.val| ≤ 2 ^ 7 →
      (∃ e f : ℝ, |e| ≤ 1 / 2 ^ 53 ∧ |f| ≤ 1 / 2 ^ 53 ∧ c.val * d.val = (1 + e) * (1 + f)) →
      (mul (mul x c) d).Fin ∧ |(mul (mul x c) d).val - x.val| ≤ |x.val| / 2 ^ 50 := by
    rintro c d hc hd c1 c2 d1' d2' ⟨e, f, he, hf, hcd⟩
    have hr := mul_rounds hx hc
    have u1 : |x.val * c.val| ≤ 2 ^ 807 := by
      rw [abs_mul, show (807 : ℕ) = 800 + 7 from rfl, pow_add]; exact mul_le_mul h2 c2 (abs_nonneg _) (by positivity)
    have l1 : 1 / 2 ^ 807 ≤ |x.val * c.val| := by
      rw [abs_mul, show (807 : ℕ) = 800 + 7 from rfl, pow_add, ← one_div_mul_one_div]
      exact mul_le_mul h1 c1 (by positivity) (abs_nonneg _)
    have m1 := hr.pow (by norm_num) u1
    obtain ⟨g, hg, vg⟩ := rel_of_rounds hr m1.1 (le_trans (one_div_le_one_div_of_le (by positivity)
      (pow_le_pow_right₀ (by norm_num) (by norm_num : 807 ≤ 1000))) l1)
    have hr2 := mul_rounds m1.1 hd
    have u2 : |(mul x c).val * d.val| ≤ 2 ^ 814 := by
      rw [abs_mul, show (814 : ℕ) = 807 + 7 from rfl, pow_add]; exact mul_le_mul m1.2 d2' (abs_nonneg _) (by positivity)
    have hg' := abs_le.mp hg
    have l2 : 1 / 2 ^ 815 ≤ |(mul x c).val * d.val| := by
      rw [abs_mul, vg, abs_mul, abs_of_pos (by linarith : (0 : ℝ) < 1 + g), show (815 : ℕ) = 807 + 1 + 7 from rfl, pow_add, pow_add,
        ← one_div_mul_one_div, ← one_div_mul_one_div]
      refine mul_le_mul (mul_le_mul l1 ?_ (by positivity) (abs_nonneg _)) d1' (by positivity) ?_
      · rw [pow_one]; linarith
      · exact mul_nonneg (abs_nonneg _) (by linarith)
    have m2 := hr2.pow (by norm_num) u2
    obtain ⟨k, hk, vk⟩ := rel_of_rounds hr2 m2.1 (le_trans (one_div_le_one_div_of_le (by positivity)
      (pow_le_pow_right₀ (by norm_num) (by norm_num : 815 ≤ 1000))) l2)
    refine ⟨m2.1, ?_⟩
    have e1 : (mul (mul x c) d).val - x.val = x.val * ((1 + e) * (1 + f) * (1 + g) * (1 + k) - 1) := by
      rw [vk, vg, ← hcd]; ring
    rw [e1, abs_mul, div_eq_mul_one_div]
    exact mul_le_mul_of_nonneg_left (four_deltas he hf hg hk) (abs_nonneg _)
  have hne : F64.pi.val ≠ 0 := by linarith
  constructor
  · exact main DEG_2_RAD RAD_TO_DEG fD fR gD.1 gD.2 gR.1 gR.2 ⟨δ₁, δ₂, d1, d2, by rw [vD, vR]; field_simp⟩
  · exact main RAD_TO_DEG DEG_2_RAD fR fD gR.1 gR.2 gD.1 gD.2 ⟨δ₁, δ₂, d1, d2, by rw [vD, vR]; field_simp⟩

/-! ## C45 -/

omit [Libm] in
/-- not NaN, and not negative -/
theorem nonNeg_div {x y : F64} (hx : NonNeg x) (hy : y.Fin) (h0 : 0 < y.val) : NonNeg (div x y) := by
  rcases hx with rfl | ⟨hx, hx0⟩
  · obtain ⟨b, n, hn, rfl⟩ := fin_cases hy
    have : b = false := by
      cases b
      · rfl
      · exfalso
        rw [val_fin, sgn, if_pos rfl] at h0
        have := unit_pos
        have h1 : ((-(n : ℤ) : ℤ) : ℝ) ≤ 0 := by push_cast; linarith [Nat.cast_nonneg (α := ℝ) n]
        exact absurd h0 (not_lt.mpr (div_nonpos_of_nonpos_of_nonneg h1 this.le))
    subst this
    exact Or.inl rfl
  · exact nonNeg_of_rounds (div_rounds hx hy h0.ne') (div_nonneg hx0 h0.le)

omit [Libm] in
theorem lit_light : (sci 299792458 true 3).Fin ∧ 0 < (sci 299792458 true 3).val := by
  have hr := sci_rounds 299792458 true 3
  have h1 := hr.pow (e := 20) (by norm_num) (by norm_num)
  exact ⟨h1.1, lt_of_lt_of_le one_pos (hr.ge h1.1 isRep_one (by norm_num))⟩

omit [Libm] in
theorem nonNeg_abs_like (r : F64) (hr : r ≠ .nan) :
    NonNeg (mul r (if fle (sci 0 true 1) r = true then sci 10 true 1 else neg (sci 10 true 1))) := by
  have h1 := lit_one
  have h0 := lit_zero
  have hn := neg_val h1.1
  cases hr' : r with
  | nan => exact absurd hr' hr
  | inf a =>
    cases a
    · rw [show fle (sci 0 true 1) (.inf false) = true by decide +kernel, if_pos rfl]
      exact Or.inl (by decide +kernel)
    · rw [show fle (sci 0 true 1) (.inf true) = false by decide +kernel, if_neg (by decide)]
      exact Or.inl (by decide +kernel)
  | fin a n hh =>
    rw [← hr']
    have hf : r.Fin := by rw [hr']; trivial
    by_cases hc : fle (sci 0 true 1) r = true
    · rw [if_pos hc]
      have := (fle_fin h0.1 hf).mp hc
      refine nonNeg_of_rounds (mul_rounds hf h1.1) ?_
      rw [h1.2]; rw [h0.2] at this; linarith
    · rw [if_neg hc]
      have : ¬ (sci 0 true 1).val ≤ r.val := fun h => hc ((fle_fin h0.1 hf).mpr h)
      refine nonNeg_of_rounds (mul_rounds hf hn.1) ?_
      rw [hn.2, h1.2]; rw [h0.2] at this; linarith

/-- **C45 in doubles**: whatever the coordinates (finite, infinite or NaN) and whatever the library's `powf`, the computed factor is NaN or at
least 1; it is NaN only if the difference of the two computed ranges is. -/
theorem C45_f64_at_least_one (location position velocity : Vec3 F64) :
    (doppler_factor location position velocity = .nan ∨ fle (sci 10 true 1) (doppler_factor location position velocity) = true) ∧
    ((position.add velocity).range location - position.range location ≠ .nan →
      fle (sci 10 true 1) (doppler_factor location position velocity) = true) := by
  have key : (position.add velocity).range location - position.range location ≠ .nan →
      fle (sci 10 true 1) (doppler_factor location position velocity) = true := by
    intro h
    have h1 := nonNeg_div (nonNeg_abs_like _ h) lit_light.1 lit_light.2
    have hone : NonNeg (sci 10 true 1) := Or.inr ⟨lit_one.1, by rw [lit_one.2]; norm_num⟩
    exact (nonNeg_add hone h1).2.1
  refine ⟨?_, key⟩
  by_cases h : (position.add velocity).range location - position.range location = .nan
  · left
    unfold doppler_factor
    dsimp only
    rw [h]
    simp only [sign, f64_fle, fle_nan, f64_mul, nan_mul, f64_div, nan_div, f64_add, add_nan]
  · exact Or.inr (key h)

/-- **C45 in doubles**: for finite coordinates up to `2^400` and a faithful library the factor is a number. -/
theorem C45_f64_number (hL : Libm.Faithful) (location position velocity : Vec3 F64)
    (h : ∀ v ∈ [location, position, velocity], ∀ c ∈ [v.x, v.y, v.z], Bd c 400) :
    (doppler_factor location position velocity).Fin ∧ 1 ≤ (doppler_factor location position velocity).val := by
  have sq : ∀ d : F64, Bd d 402 → Bd (Libm.powf d (sci 20 true 1)) 806 ∧ 0 ≤ (Libm.powf d (sci 20 true 1)).val := by
    intro d hd
    obtain ⟨h1, h2, h3⟩ := hL.powf_two d hd.1 (le_trans hd.2 (pow_le_pow_right₀ (by norm_num) (by norm_num)))
    refine ⟨⟨h1, ?_⟩, h2⟩
    have hsq : d.val ^ 2 ≤ 2 ^ 804 := by
      rw [← sq_abs, show (2 : ℝ) ^ 804 = (2 ^ 402) ^ 2 by rw [← pow_mul]]
      exact pow_le_pow_left₀ (abs_nonneg _) hd.2 2
    have h4 : (1 : ℝ) / 2 ^ 900 ≤ 1 := by
      rw [div_le_one (by positivity)]; exact one_le_pow₀ (by norm_num)
    have h5 : (1 : ℝ) ≤ 2 ^ 804 := one_le_pow₀ (by norm_num)
    have h6 := (abs_le.mp h3).2
    have h7 : d.val ^ 2 / 2 ^ 48 ≤ d.val ^ 2 := div_le_self (sq_nonneg _) (by norm_num)
    rw [abs_of_nonneg h2, show (806 : ℕ) = 804 + 2 from rfl, pow_add]
    generalize (2 : ℝ) ^ 804 = B at *
    generalize (1 : ℝ) / 2 ^ 900 = B' at *
    linarith
  have rng : ∀ a b : Vec3 F64, (∀ c ∈ [a.x, a.y, a.z], Bd c 401) → (∀ c ∈ [b.x, b.y, b.z], Bd c 401) → Bd (a.range b) 808 := by
    intro a b ha hb
    have dx := sq _ ((ha a.x (by simp)).sub (hb b.x (by simp)) (by norm_num))
    have dy := sq _ ((ha a.y (by simp)).sub (hb b.y (by simp)) (by norm_num))
    have dz := sq _ ((ha a.z (by simp)).sub (hb b.z (by simp)) (by norm_num))
    have s1 := dx.1.add dy.1 (by norm_num)
    have s2 := s1.add (dz.1.mono (by norm_num)) (by norm_num)
    have n1 := nonNeg_add (Or.inr ⟨dx.1.1, dx.2⟩) (Or.inr ⟨dy.1.1, dy.2⟩)
    have n2 := nonNeg_add n1.1 (Or.inr ⟨dz.1.1, dz.2⟩)
    have h0 : 0 ≤ (add (add (Libm.powf (sub a.x b.x) (sci 20 true 1)) (Libm.powf (sub a.y b.y) (sci 20 true 1)))
        (Libm.powf (sub a.z b.z) (sci 20 true 1))).val := by
      rcases n2.1 with h | h
      · rw [h] at s2; exact absurd s2.1 (not_fin_inf _)
      · exact h.2
    have hr := sqrt_rounds s2.1 h0
    have hv := le_trans (le_abs_self _) s2.2
    refine hr.pow (e := 808) (by norm_num) ?_
    rw [abs_of_nonneg (Real.sqrt_nonneg _), Real.sqrt_le_left (by positivity)]
    refine le_trans hv ?_
    exact le_self_pow₀ (one_le_pow₀ (by norm_num)) (by norm_num)
  have bl := h location (by simp)
  have bp := h position (by simp)
  have bv := h velocity (by simp)
  have r1 := rng position location (fun c hc => (bp c hc).mono (by norm_num)) (fun c hc => (bl c hc).mono (by norm_num))
  have r2 := rng (position.add velocity) location (by
      intro c hc
      simp only [Vec3.add, List.mem_cons, List.not_mem_nil, or_false] at hc
      rcases hc with rfl | rfl | rfl
      · exact (bp _ (by simp)).add (bv _ (by simp)) (by norm_num)
      · exact (bp _ (by simp)).add (bv _ (by simp)) (by norm_num)
      · exact (bp _ (by simp)).add (bv _ (by simp)) (by norm_num)) (fun c hc => (bl c hc).mono (by norm_num))
  have rr := r2.sub r1 (by norm_num)
  have hnn : sub ((position.add velocity).range location) (position.range location) ≠ .nan := by
    intro hn; rw [hn] at rr; exact rr.1
  have hge := (C45_f64_at_least_one location position velocity).2 hnn
  have hs : Bd (if fle (sci 0 true 1) (sub ((position.add velocity).range location) (position.range location)) = true
      then sci 10 true 1 else neg (sci 10 true 1)) 0 := by
    have : Bd (sci 10 true 1) 0 := ⟨lit_one.1, by rw [lit_one.2]; norm_num⟩
    split
    · exact this
    · exact this.neg
  have m := rr.mul hs (by norm_num)
  have hl1 : 1 ≤ |(sci 299792458 true 3).val| := by
    rw [abs_of_pos lit_light.2]
    exact (sci_rounds 299792458 true 3).ge lit_light.1 isRep_one (by norm_num)
  have d := m.div lit_light.1 hl1 (by norm_num)
  have one : Bd (sci 10 true 1) 809 := ⟨lit_one.1, by rw [lit_one.2, abs_one]; exact one_le_pow₀ (by norm_num)⟩
  have hfin : Bd (doppler_factor location position velocity) 810 := one.add d (by norm_num)
  refine ⟨hfin.1, ?_⟩
  have := (fle_fin lit_one.1 hfin.1).mp hge
  rwa [lit_one.2] at this
end

end Sat
