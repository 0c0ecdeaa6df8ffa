import Verif.F64.Consts
import Verif.Props.Time
/-! # Time functions in IEEE-754 arithmetic: C36, C32, C34 -/

namespace Sat
open F64 Spec

/-! ## C36 -/

theorem mul_fin_left {x y : F64} (h : (mul x y).Fin) : x.Fin ∧ y.Fin := by
  cases x with
  | nan => rw [nan_mul] at h; exact absurd h not_fin_nan
  | inf a =>
    exfalso
    cases y with
    | nan => exact h
    | inf b => exact h
    | fin b n hn => 
      simp only [mul] at h
      split at h <;> exact h
  | fin a m hm =>
    cases y with
    | nan => exact absurd h not_fin_nan
    | inf b =>
      exfalso
      simp only [mul] at h
      split at h <;> exact h
    | fin b n hn => exact ⟨trivial, trivial⟩

theorem add_fin_left {x y : F64} (h : (add x y).Fin) : x.Fin ∧ y.Fin := by
  cases x with
  | nan => rw [nan_add] at h; exact absurd h not_fin_nan
  | inf a =>
    exfalso
    cases y with
    | nan => exact h
    | inf b =>
      simp only [add] at h
      split at h <;> exact h
    | fin b n hn => exact h
  | fin a m hm =>
    cases y with
    | nan => exact absurd h not_fin_nan
    | inf b => exact absurd h (not_fin_inf _)
    | fin b n hn => exact ⟨trivial, trivial⟩

theorem div_fin_left {x y : F64} (hy : y.Fin) (h : (div x y).Fin) : x.Fin := by
  obtain ⟨b, n, hn, rfl⟩ := fin_cases hy
  cases x with
  | nan => rw [nan_div] at h; exact absurd h not_fin_nan
  | inf a => exact absurd h (not_fin_inf _)
  | fin a m hm => trivial

variable [Libm]

omit [Libm] in
theorem lit_240 : (sci 2400 true 1).Fin ∧ (sci 2400 true 1).val = 240 := by
  simpa using sci_int (m := 2400) (s := true) (k := 1) 240 (by norm_num) (by norm_num)

omit [Libm] in
theorem lit_180 : (sci 1800 true 1).Fin ∧ (sci 1800 true 1).val = 180 := by
  simpa using sci_int (m := 1800) (s := true) (k := 1) 180 (by norm_num) (by norm_num)

theorem deg_val : (DEG_2_RAD : F64).Fin ∧ 281 / 2 ^ 14 ≤ (DEG_2_RAD : F64).val ∧ (DEG_2_RAD : F64).val ≤ 1 := by
  show (div F64.pi (sci 1800 true 1)).Fin ∧ _ ≤ (div F64.pi (sci 1800 true 1)).val ∧ (div F64.pi (sci 1800 true 1)).val ≤ _
  have h := div_rounds pi_val.1 lit_180.1 (by rw [lit_180.2]; norm_num)
  rw [pi_val.2, lit_180.2] at h
  have r : IsRep (281 / 2 ^ 14 : ℝ) := by
    have := isRep_int_div 281 14 (by norm_num) (by norm_num)
    rwa [Int.cast_ofNat] at this
  exact h.between r isRep_one (by norm_num) (by norm_num)

omit [Libm] in
/-- the constant term, as a double -/
theorem gst_const : (sci 6731054841 true 5).Fin ∧ 67310 ≤ (sci 6731054841 true 5).val ∧ (sci 6731054841 true 5).val ≤ 67311 := by
  have h := sci_rounds 6731054841 true 5
  have r1 : IsRep (67310 : ℝ) := by have := isRep_int 67310 (by norm_num); rwa [Int.cast_ofNat] at this
  have r2 : IsRep (67311 : ℝ) := by have := isRep_int 67311 (by norm_num); rwa [Int.cast_ofNat] at this
  exact h.between r1 r2 (by norm_num) (by norm_num)

/-- The reduction of `gstime` for any double that is not between -2^-50 and 0: the result is in [0, 2π), for the double 2π. -/
theorem reduce_range {y : F64} (hy : y.Fin) (hneg : y.val < 0 → y.val ≤ -(1 / 2 ^ 50)) :
    (if F64.flt (F64.rem y TWO_PI) (sci 0 true 1) then F64.add (F64.rem y TWO_PI) TWO_PI else F64.rem y TWO_PI).Fin ∧
    0 ≤ (if F64.flt (F64.rem y TWO_PI) (sci 0 true 1) then F64.add (F64.rem y TWO_PI) TWO_PI else F64.rem y TWO_PI).val ∧
    (if F64.flt (F64.rem y TWO_PI) (sci 0 true 1) then F64.add (F64.rem y TWO_PI) TWO_PI else F64.rem y TWO_PI).val ≤
      (TWO_PI : F64).val - 1 / 2 ^ 50 := by
  have ht := two_pi_val
  have hlt := two_pi_val.2
  have tp : 0 < (TWO_PI : F64).val := by rw [hlt]; norm_num
  obtain ⟨hrf, hrv⟩ := rem_val hy ht.1 tp.ne'
  have hlt2 := remR_lt tp y.val
  rw [← hrv] at hlt2
  -- the remainder is a multiple of 2^-50 when |y| ≥ 4
  have grid : 4 ≤ |y.val| → ∃ i : ℤ, (F64.rem y TWO_PI).val = i / 2 ^ 50 := by
    intro h4
    obtain ⟨i, hi⟩ := on_grid hy (j := 50) (by norm_num) (by norm_num; exact h4)
    refine ⟨i - 7074237752028440 * truncR (y.val / (TWO_PI : F64).val), ?_⟩
    rw [hrv]
    unfold remR
    generalize truncR (y.val / (TWO_PI : F64).val) = t
    rw [hi, hlt]; push_cast; ring
  have small : |y.val| < 4 → (F64.rem y TWO_PI).val = y.val := by
    intro h4
    rw [hrv]
    refine remR_small tp (lt_trans h4 ?_)
    rw [hlt]; norm_num
  have hrep : IsRep ((TWO_PI : F64).val - 1 / 2 ^ 50) := by
    rw [hlt]
    have := isRep_int_div 7074237752028439 50 (by norm_num) (by norm_num)
    rw [Int.cast_ofNat] at this
    have e : (884279719003555 / 2 ^ 47 - 1 / 2 ^ 50 : ℝ) = 7074237752028439 / 2 ^ 50 := by norm_num
    rw [e]; exact this
  have hflt := flt_fin hrf lit_zero.1
  rw [lit_zero.2] at hflt
  by_cases hc : F64.flt (F64.rem y TWO_PI) (sci 0 true 1) = true
  · rw [if_pos hc]
    have hr0 := hflt.mp hc
    have hr1 : (F64.rem y TWO_PI).val ≤ -(1 / 2 ^ 50) := by
      by_cases h4 : 4 ≤ |y.val|
      · obtain ⟨i, hi⟩ := grid h4
        rw [hi] at hr0 ⊢
        have : (i : ℝ) < 0 := by
          by_contra h
          have : (0 : ℝ) ≤ i / 2 ^ 50 := by have := not_lt.mp h; positivity
          linarith
        have : i ≤ -1 := by
          have : i < 0 := by exact_mod_cast this
          omega
        have : (i : ℝ) ≤ -1 := by exact_mod_cast this
        rw [div_le_iff₀ (by positivity)]
        norm_num
        linarith
      · rw [small (not_le.mp h4)] at hr0 ⊢
        exact hneg hr0
    have hadd := add_rounds hrf ht.1
    have := hadd.between isRep_zero hrep (by linarith [(abs_lt.mp hlt2).1]) (by linarith)
    exact this
  · rw [if_neg hc]
    have hr0 : 0 ≤ (F64.rem y TWO_PI).val := not_lt.mp (fun h => hc (hflt.mpr h))
    refine ⟨hrf, hr0, ?_⟩
    by_cases h4 : 4 ≤ |y.val|
    · obtain ⟨i, hi⟩ := grid h4
      have h1 := (abs_lt.mp hlt2).2
      rw [hi] at h1 ⊢
      rw [hlt] at h1 ⊢
      have : (i : ℝ) < 7074237752028440 := by
        rw [div_lt_iff₀ (by positivity)] at h1
        norm_num at h1
        linarith
      have : i < 7074237752028440 := by exact_mod_cast this
      have : i ≤ 7074237752028439 := by omega
      have : (i : ℝ) ≤ 7074237752028439 := by exact_mod_cast this
      rw [div_le_iff₀ (by positivity)]
      norm_num
      linarith
    · have h4 := not_le.mp h4
      rw [small h4]
      have := (abs_lt.mp h4).2
      rw [hlt]
      refine le_trans this.le ?_
      norm_num

/-- **C36** in IEEE-754 arithmetic.  Whenever the reduced quantity (the polynomial in radians, before `%`) is finite, `gstime`
returns a finite double in [0, 2π), strictly below the double nearest to 2π, whatever the roundings. -/
theorem C36_f64 (jd : F64) (h : ((gstPoly jd * DEG_2_RAD) / 240.0 : F64).Fin) :
    (gstime jd).Fin ∧ 0 ≤ (gstime jd).val ∧ (gstime jd).val < (TWO_PI : F64).val ∧ (gstime jd).val < 2 * Real.pi := by
  set y : F64 := (gstPoly jd * DEG_2_RAD) / 240.0 with hy
  have e : gstime jd = if F64.flt (F64.rem y TWO_PI) (sci 0 true 1) then F64.add (F64.rem y TWO_PI) TWO_PI else F64.rem y TWO_PI := rfl
  have hneg : y.val < 0 → y.val ≤ -(1 / 2 ^ 50) := by
    intro hlt
    have hPD : (mul (gstPoly jd) DEG_2_RAD).Fin := div_fin_left lit_240.1 h
    have hP := (mul_fin_left hPD).1
    -- the polynomial is A + 67310.54841
    obtain ⟨A, hA⟩ : ∃ A, gstPoly jd = add A (sci 6731054841 true 5) := ⟨_, rfl⟩
    rw [hA] at hP
    have hAf := (add_fin_left hP).1
    have hadd := add_rounds hAf gst_const.1
    rw [← hA] at hadd hP
    have hdiv := div_rounds hPD lit_240.1 (by rw [lit_240.2]; norm_num)
    rw [lit_240.2] at hdiv
    have hmul := mul_rounds hP deg_val.1
    have hD := deg_val
    have hPDneg : (mul (gstPoly jd) DEG_2_RAD).val < 0 := by
      by_contra hc
      have : 0 ≤ y.val := hdiv.ge h isRep_zero (by have := not_lt.mp hc; positivity)
      linarith
    have hPneg : (gstPoly jd).val < 0 := by
      by_contra hc
      have : 0 ≤ (mul (gstPoly jd) DEG_2_RAD).val := hmul.ge hPD isRep_zero (by
        have := not_lt.mp hc
        have : 0 ≤ (DEG_2_RAD : F64).val := le_trans (by norm_num) hD.2.1
        positivity)
      linarith
    have hsum : A.val + (sci 6731054841 true 5).val < 0 := by
      by_contra hc
      have := hadd.ge hP isRep_zero (not_lt.mp hc)
      linarith
    have hc := gst_const
    obtain ⟨i, hi⟩ := on_grid hAf (j := 36) (by norm_num) (by rw [abs_of_neg (by linarith)]; norm_num; linarith)
    obtain ⟨k, hk⟩ := on_grid hc.1 (j := 36) (by norm_num) (by rw [abs_of_pos (by linarith)]; norm_num; linarith)
    have hsum2 : A.val + (sci 6731054841 true 5).val ≤ -(1 / 2 ^ 36) := by
      rw [hi, hk, ← add_div] at hsum ⊢
      have h1 : ((i + k : ℤ) : ℝ) < 0 := by
        push_cast
        by_contra h
        have : (0 : ℝ) ≤ (i + k) / 2 ^ 36 := by have := not_lt.mp h; positivity
        linarith
      have h2 : i + k ≤ -1 := by
        have : i + k < 0 := by exact_mod_cast h1
        omega
      have h3 : ((i : ℝ) + k) ≤ -1 := by exact_mod_cast h2
      rw [div_le_iff₀ (by positivity)]
      norm_num
      linarith
    have r1 : IsRep (-(1 / 2 ^ 36) : ℝ) := isRep_neg (isRep_pow_neg 36 (by norm_num))
    have hP2 := hadd.le hP r1 hsum2
    have r2 : IsRep (-(281 / 2 ^ 50) : ℝ) := by
      have := isRep_neg (isRep_int_div 281 50 (by norm_num) (by norm_num))
      rwa [Int.cast_ofNat] at this
    have hPD2 := hmul.le hPD r2 (by
      have : (281 / 2 ^ 50 : ℝ) = 1 / 2 ^ 36 * (281 / 2 ^ 14) := by norm_num
      rw [this]
      nlinarith [hD.2.1])
    refine hdiv.le h (isRep_neg (isRep_pow_neg 50 (by norm_num))) ?_
    rw [div_le_iff₀ (by norm_num)]
    norm_num at hPD2 ⊢
    linarith
  have hall := reduce_range h hneg
  rw [← e] at hall
  have h2 := two_pi_lt
  have : (gstime jd).val < (TWO_PI : F64).val := by
    have := hall.2.2
    have : (0 : ℝ) < 1 / 2 ^ 50 := by positivity
    linarith
  exact ⟨hall.1, hall.2.1, this, by linarith⟩

/-- no overflow for Julian dates up to 2^100 in magnitude -/
theorem gstPoly_bd (jd : F64) (hj : jd.Fin) (h : |jd.val| ≤ 2 ^ 100) : ((gstPoly jd * DEG_2_RAD) / 240.0 : F64).Fin := by
  have hjb : Bd jd 100 := ⟨hj, h⟩
  have l1 : (sci 365250 true 1).Fin ∧ (sci 365250 true 1).val = 36525 := by
    simpa using sci_int (m := 365250) (s := true) (k := 1) 36525 (by norm_num) (by norm_num)
  have hT : Bd (F64.div (F64.sub jd (sci 24515450 true 1)) (sci 365250 true 1)) 101 :=
    (hjb.sub (bd_sci _ _ _ 100 (by norm_num) (by norm_num)) (by norm_num)).div l1.1
      (by rw [l1.2]; norm_num) (by norm_num)
  have c3 : Bd (F64.neg (sci 62 true 7)) 0 := (bd_sci _ _ _ 0 (by norm_num) (by norm_num)).neg
  have c2 : Bd (sci 93104 true 6) 0 := bd_sci _ _ _ 0 (by norm_num) (by norm_num)
  have c1 : Bd (F64.add (F64.mul (sci 8766000 true 1) (sci 36000 true 1)) (sci 8640184812866 true 6)) 33 :=
    ((bd_sci 8766000 true 1 20 (by norm_num) (by norm_num)).mul (bd_sci 36000 true 1 12 (by norm_num) (by norm_num)) (by norm_num)).add
      (bd_sci _ _ _ _ (by norm_num) (by norm_num)) (by norm_num)
  have t3 := ((c3.mul hT (by norm_num)).mul hT (by norm_num)).mul hT (by norm_num)
  have t2 := (c2.mul hT (by norm_num)).mul hT (by norm_num)
  have t1 := c1.mul hT (by norm_num)
  have s1 := t3.add (t2.mono (by norm_num)) (by norm_num)
  have s2 := s1.add (t1.mono (by norm_num)) (by norm_num)
  have s3 := s2.add (bd_sci 6731054841 true 5 _ (by norm_num) (by
    refine le_trans ?_ (pow_le_pow_right₀ (by norm_num) (by norm_num : 20 ≤ _))
    norm_num)) (by norm_num)
  have hd : Bd (DEG_2_RAD : F64) 0 := ⟨deg_val.1, by
    rw [abs_of_nonneg (le_trans (by norm_num) deg_val.2.1)]; simpa using deg_val.2.2⟩
  exact ((s3.mul hd (by norm_num)).div lit_240.1 (by rw [lit_240.2]; norm_num) (by norm_num)).1

/-- **C36** for every Julian date up to 2^100 in magnitude. -/
theorem C36_f64_all (jd : F64) (hj : jd.Fin) (h : |jd.val| ≤ 2 ^ 100) :
    (gstime jd).Fin ∧ 0 ≤ (gstime jd).val ∧ (gstime jd).val < (TWO_PI : F64).val ∧ (gstime jd).val < 2 * Real.pi :=
  C36_f64 jd (gstPoly_bd jd hj h)

/-- a Julian date that meets the hypotheses -/
example : (gstime (F64.ofInt 2454730)).Fin ∧ 0 ≤ (gstime (F64.ofInt 2454730)).val ∧ (gstime (F64.ofInt 2454730)).val < 2 * Real.pi := by
  have h := ofInt_exact 2454730 (by norm_num)
  have := C36_f64_all _ h.1 (by rw [h.2]; norm_num)
  exact ⟨this.1, this.2.1, this.2.2.2⟩

/-- What happens otherwise: an infinite or NaN Julian date gives NaN. -/
theorem gstime_nan (jd : F64) (h : ¬ jd.Fin) : gstime jd = .nan := by
  have key : gstPoly jd = .nan := by
    cases jd with
    | nan => simp [gstPoly]
    | fin a n hn => exact absurd trivial h
    | inf a =>
      simp only [gstPoly, f64_add, f64_sub, f64_mul, f64_div, f64_neg, f64_sci]
      cases a <;> clear h <;> decide +kernel
  simp [gstime, key]

/-! ## C32, C33 -/

omit [Libm] in
theorem lit_24 : (sci 240 true 1).Fin ∧ (sci 240 true 1).val = 24 := by
  simpa using sci_int (m := 240) (s := true) (k := 1) 24 (by norm_num) (by norm_num)

omit [Libm] in
theorem lit_60 : (sci 600 true 1).Fin ∧ (sci 600 true 1).val = 60 := by
  simpa using sci_int (m := 600) (s := true) (k := 1) 60 (by norm_num) (by norm_num)

omit [Libm] in
theorem isRep_natCast (n : ℕ) (h : n ≤ 2 ^ 53) : IsRep (n : ℝ) := by
  have := isRep_int n (by rw [abs_of_nonneg (by positivity)]; exact_mod_cast h)
  rwa [Int.cast_natCast] at this

omit [Libm] in
theorem ofNat_exact (n : ℕ) (h : n ≤ 2 ^ 53) : (F64.ofInt (n : ℤ)).Fin ∧ (F64.ofInt (n : ℤ)).val = n := by
  have := ofInt_exact n (by rw [abs_of_nonneg (by positivity)]; exact_mod_cast h)
  rwa [Int.cast_natCast] at this

omit [Libm] in
/-- One step of the conversion: the fraction of `x`, scaled by `K` (24 or 60). -/
theorem frac_step {x c : F64} (hx : x.Fin) (h0 : 0 ≤ x.val) (hc : c.Fin) {K e : ℝ} (hK : c.val = K) (hK0 : 0 < K) (hK1 : 1 ≤ K)
    (he : 0 < e) (hrep : IsRep (K - e)) (hsmall : e < 2 * (K / 2 ^ 53)) :
    (mul (F64.sub x (F64.floor x)) c).Fin ∧ 0 ≤ (mul (F64.sub x (F64.floor x)) c).val ∧
    (mul (F64.sub x (F64.floor x)) c).val < K ∧
    |(mul (F64.sub x (F64.floor x)) c).val - (x.val - ⌊x.val⌋₊) * K| ≤ K / 2 ^ 53 := by
  have hfl := floor_val hx
  have hs := sub_rounds hx hfl.1
  rw [hfl.2] at hs
  obtain ⟨g, gv⟩ := hs.exact (isRep_frac hx h0)
  have h1 := Int.floor_le x.val
  have h2 := Int.lt_floor_add_one x.val
  obtain ⟨f, a, b⟩ := scale_lt g hc (by rw [gv]; linarith) (by rw [gv]; linarith) hK hK0 he hrep hsmall
  refine ⟨f, a, b, ?_⟩
  have hm := mul_rounds g hc
  rw [hK, gv] at hm
  have e1 : ((⌊x.val⌋₊ : ℕ) : ℝ) = ((⌊x.val⌋ : ℤ) : ℝ) := natCast_floor_eq_intCast_floor h0
  rw [e1]
  refine hm.err_le f (by refine le_trans ?_ hK1; norm_num) ?_
  rw [abs_of_nonneg (by have : 0 ≤ x.val - ⌊x.val⌋ := by linarith
                        positivity)]
  nlinarith

omit [Libm] in
theorem floor_nat {x : F64} (hx : x.Fin) (h0 : 0 ≤ x.val) : (F64.floor x).Fin ∧ (F64.floor x).val = ⌊x.val⌋₊ := by
  have := floor_val hx
  rwa [← natCast_floor_eq_intCast_floor h0] at this

/-- What `days2mdhms` computes in doubles.  `t` and `u` are the double results of the two inner scalings. -/
theorem days2mdhms_f64 (year : ℕ) (d : F64) (hd : d.Fin) (h0 : 0 ≤ d.val) (h1 : d.val < 2 ^ 52) :
    ∃ (m day h mi : ℕ) (s t u : ℝ),
      ((days2mdhms year d).month.Fin ∧ (days2mdhms year d).month.val = m) ∧
      ((days2mdhms year d).day.Fin ∧ (days2mdhms year d).day.val = day) ∧
      ((days2mdhms year d).hour.Fin ∧ (days2mdhms year d).hour.val = h) ∧
      ((days2mdhms year d).minute.Fin ∧ (days2mdhms year d).minute.val = mi) ∧
      ((days2mdhms year d).second.Fin ∧ (days2mdhms year d).second.val = s) ∧
      (1 ≤ m ∧ m ≤ 12 ∧ daysBeforeOf (year % 4 == 0) m + day = ⌊d.val⌋₊ ∧ (day = 0 → m = 1) ∧
      (m < 12 → day ≤ monthLengthOf (year % 4 == 0) m)) ∧ h < 24 ∧ mi < 60 ∧ 0 ≤ s ∧ s < 60 ∧
      |t - (d.val - ⌊d.val⌋₊) * 24| ≤ 24 / 2 ^ 53 ∧ |u - (t - h) * 60| ≤ 60 / 2 ^ 53 ∧ |s - (u - mi) * 60| ≤ 60 / 2 ^ 53 := by
  obtain ⟨m1, m2, m3, m4, m5⟩ := monthLoop_spec year ⌊d.val⌋₊
  have m6 := monthLoop_le year ⌊d.val⌋₊
  have hfl := floor_nat hd h0
  have hfl52 : ⌊d.val⌋₊ ≤ 2 ^ 52 := by
    have : ⌊d.val⌋₊ < 2 ^ 52 := by rw [Nat.floor_lt h0]; exact_mod_cast h1
    omega
  have hU : toU64 (F64.floor d) = ⌊d.val⌋₊ := by
    rw [toU64_val hfl.1, hfl.2, toU64R, Nat.floor_natCast, Nat.min_eq_left (by omega)]
  have hI := ofNat_exact ⌊d.val⌋₊ (by omega)
  -- the model subtracts the day number converted back from an integer: the same value as the floor
  have k24 : (24 : ℝ) - 1 / 2 ^ 48 = ((24 * 2 ^ 48 - 1 : ℤ) : ℝ) / 2 ^ 48 := by norm_num
  have k60 : (60 : ℝ) - 1 / 2 ^ 47 = ((60 * 2 ^ 47 - 1 : ℤ) : ℝ) / 2 ^ 47 := by norm_num
  have r24 : IsRep ((24 : ℝ) - 1 / 2 ^ 48) := k24 ▸ isRep_int_div _ 48 (by norm_num) (by norm_num)
  have r60 : IsRep ((60 : ℝ) - 1 / 2 ^ 47) := k60 ▸ isRep_int_div _ 47 (by norm_num) (by norm_num)
  have step1 : (mul (F64.sub d (F64.ofInt (⌊d.val⌋₊ : ℤ))) (sci 240 true 1)).Fin ∧
      0 ≤ (mul (F64.sub d (F64.ofInt (⌊d.val⌋₊ : ℤ))) (sci 240 true 1)).val ∧
      (mul (F64.sub d (F64.ofInt (⌊d.val⌋₊ : ℤ))) (sci 240 true 1)).val < 24 ∧
      |(mul (F64.sub d (F64.ofInt (⌊d.val⌋₊ : ℤ))) (sci 240 true 1)).val - (d.val - ⌊d.val⌋₊) * 24| ≤ 24 / 2 ^ 53 := by
    have hs := sub_rounds hd hI.1
    rw [hI.2] at hs
    have hfr := isRep_frac hd h0
    rw [← natCast_floor_eq_intCast_floor h0] at hfr
    obtain ⟨g, gv⟩ := hs.exact hfr
    have a1 := Nat.floor_le h0
    have a2 := Nat.lt_floor_add_one d.val
    obtain ⟨f, a, b⟩ := scale_lt g lit_24.1 (by rw [gv]; linarith) (by rw [gv]; linarith) lit_24.2 (by norm_num) (by norm_num) r24
      (by norm_num)
    refine ⟨f, a, b, ?_⟩
    have hm := mul_rounds g lit_24.1
    rw [lit_24.2, gv] at hm
    refine hm.err_le f (by norm_num) ?_
    rw [abs_of_nonneg (by nlinarith)]
    nlinarith
  generalize hT : mul (F64.sub d (F64.ofInt (⌊d.val⌋₊ : ℤ))) (sci 240 true 1) = T at step1
  obtain ⟨T1, T2, T3, T4⟩ := step1
  have step2 := frac_step T1 T2 lit_60.1 lit_60.2 (by norm_num) (by norm_num) (by norm_num) r60 (by norm_num)
  have hTf := floor_nat T1 T2
  generalize hV : mul (F64.sub T (F64.floor T)) (sci 600 true 1) = V at step2
  obtain ⟨V1, V2, V3, V4⟩ := step2
  have step3 := frac_step V1 V2 lit_60.1 lit_60.2 (by norm_num) (by norm_num) (by norm_num) r60 (by norm_num)
  have hVf := floor_nat V1 V2
  have e0 : days2mdhms year d = ⟨F64.ofInt ((monthLoop ⌊d.val⌋₊ (lmonth year) 1 0).1 : ℤ),
      F64.ofInt ((⌊d.val⌋₊ - (monthLoop ⌊d.val⌋₊ (lmonth year) 1 0).2 : ℕ) : ℤ), F64.floor T, F64.floor V,
      mul (F64.sub V (F64.floor V)) (sci 600 true 1)⟩ := by
    simp only [days2mdhms, f64_toU64, f64_floor, f64_mul, f64_sub, f64_sci, f64_ofInt, hU]
    rw [hT, hV]
  rw [e0]
  refine ⟨(monthLoop ⌊d.val⌋₊ (lmonth year) 1 0).1, ⌊d.val⌋₊ - (monthLoop ⌊d.val⌋₊ (lmonth year) 1 0).2, ⌊T.val⌋₊, ⌊V.val⌋₊, _, T.val, V.val,
    ofNat_exact _ (le_trans m2 (by norm_num)), ofNat_exact _ (by omega), hTf, hVf, ⟨step3.1, rfl⟩, ⟨m1, m2, ?_, ?_, ?_⟩, ?_, ?_,
    step3.2.1, step3.2.2.1, T4, V4, step3.2.2.2⟩
  · rw [← m3]; omega
  · intro hz
    rcases m4 with h | h
    · omega
    · exact h
  · intro h12
    have := m5 h12
    rw [daysBeforeOf, ← m3] at this
    omega
  · rw [Nat.floor_lt T2]; exact_mod_cast T3
  · rw [Nat.floor_lt V2]; exact_mod_cast V3

/-- **C33** in IEEE-754 arithmetic: month, day, hour, minute and second recombine to the day number up to 2^-52 days
(2·10^-11 s), for every year and every day number in [0, 2^52). -/
theorem C33_f64 (year : ℕ) (d : F64) (hd : d.Fin) (h0 : 0 ≤ d.val) (h1 : d.val < 2 ^ 52) :
    ∃ m : ℕ, 1 ≤ m ∧ m ≤ 12 ∧ (days2mdhms year d).month.val = m ∧
      |(daysBeforeOf (year % 4 == 0) m : ℝ) + (days2mdhms year d).day.val + (days2mdhms year d).hour.val / 24 +
        (days2mdhms year d).minute.val / 1440 + (days2mdhms year d).second.val / 86400 - d.val| ≤ 1 / 2 ^ 52 := by
  obtain ⟨m, day, h, mi, s, t, u, e1, e2, e3, e4, e5, ⟨m1, m2, e6, -⟩, -, -, -, -, b1, b2, b3⟩ := days2mdhms_f64 year d hd h0 h1
  refine ⟨m, m1, m2, e1.2, ?_⟩
  rw [e2.2, e3.2, e4.2, e5.2]
  have e7 : (daysBeforeOf (year % 4 == 0) m : ℝ) + day = ⌊d.val⌋₊ := by exact_mod_cast e6
  rw [e7]
  rw [abs_le] at b1 b2 b3 ⊢
  norm_num at b1 b2 b3 ⊢
  constructor <;> linarith [b1.1, b1.2, b2.1, b2.2, b3.1, b3.2]

/-- **C32** in IEEE-754 arithmetic: for 1901 ≤ year ≤ 2099 and every double 1 ≤ d < length of the year + 1 the month and day form the
Gregorian date with day-of-year ⌊d⌋; hour is 0..23, minute 0..59 and seconds are in [0, 60): no rounding ever produces hour 24,
minute 60 or second 60. -/
theorem C32_f64 (year : ℕ) (hy1 : 1901 ≤ year) (hy2 : year ≤ 2099) (d : F64) (hd : d.Fin) (h1 : 1 ≤ d.val)
    (h2 : d.val < yearLength year + 1) :
    ∃ (date : Date) (h mi : ℕ), date.year = year ∧ date.Valid ∧ date.dayOfYear = ⌊d.val⌋₊ ∧ h < 24 ∧ mi < 60 ∧
      (days2mdhms year d).month.val = date.month ∧ (days2mdhms year d).day.val = date.day ∧
      (days2mdhms year d).hour.val = h ∧ (days2mdhms year d).minute.val = mi ∧ (days2mdhms year d).second.Fin ∧
      0 ≤ (days2mdhms year d).second.val ∧ (days2mdhms year d).second.val < 60 := by
  have hyl : yearLength year ≤ 366 := by unfold yearLength; split <;> omega
  have hyl' : (yearLength year : ℝ) ≤ 366 := by exact_mod_cast hyl
  obtain ⟨m, day, h, mi, s, t, u, e1, e2, e3, e4, e5, ⟨m1, m2, e6, e7, e8⟩, a1, a2, a3, a4, -, -, -⟩ :=
    days2mdhms_f64 year d hd (by linarith) (by norm_num; linarith)
  rw [← leap_range hy1 hy2] at e6 e8
  have hfl : 1 ≤ ⌊d.val⌋₊ := Nat.le_floor (by exact_mod_cast h1)
  have hfl2 : ⌊d.val⌋₊ ≤ yearLength year := by
    have : ⌊d.val⌋₊ < yearLength year + 1 := by
      rw [Nat.floor_lt (by linarith)]; push_cast; exact h2
    omega
  refine ⟨⟨year, m, day⟩, h, mi, rfl, ⟨m1, m2, ?_, ?_⟩, e6, a1, a2, e1.2, e2.2, e3.2, e4.2, e5.1, by rw [e5.2]; exact a3,
    by rw [e5.2]; exact a4⟩
  · simp only
    by_contra hc
    have hz : day = 0 := by omega
    have := e7 hz
    subst this
    rw [hz] at e6
    simp [daysBeforeOf, monthLengthOf] at e6
    omega
  · simp only [monthLength]
    by_cases h12 : m < 12
    · exact e8 h12
    · have hm : m = 12 := by omega
      subst hm
      have h13 := daysBeforeMonth_13 year
      rw [daysBeforeMonth, daysBeforeOf] at h13
      omega

/-- a day number that meets the hypotheses: day 61 of 2024, 0h (February 29 is day 60) -/
example : (days2mdhms 2024 (F64.ofInt 61)).hour.val < 24 := by
  have h := ofInt_exact 61 (by norm_num)
  have hl : yearLength 2024 = 366 := by decide
  obtain ⟨date, hh, mi, -, -, -, h24, -, -, -, e, -⟩ := C32_f64 2024 (by norm_num) (by norm_num) (F64.ofInt 61) h.1
    (by rw [h.2]; norm_num) (by rw [h.2, hl]; norm_num)
  rw [e]; exact_mod_cast h24

end Sat
