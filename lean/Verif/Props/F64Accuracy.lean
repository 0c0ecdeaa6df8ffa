import Verif.F64.Approx
import Verif.Props.F64Jday
import Verif.Props.Propagate
import Verif.Props.TextToRecord
/-!
# C78, C79, C80: accuracy of the clock and of the elements read, in doubles

C37 and C77 are theorems about exact arithmetic.  Here the same formulas are evaluated in IEEE-754 binary64, and the distance from the exact
value is bounded.
-/

namespace Sat
open F64 Spec
variable [Libm]

theorem q_pi : Q (Arith.pi : F64) Real.pi 3.15 (13 / 10 ^ 17) := by
  show Q F64.pi _ _ _
  have h1 := Real.pi_gt_d20
  have h2 := Real.pi_lt_d20
  refine ⟨pi_val.1, ?_, ?_⟩
  · rw [pi_val.2, abs_le]
    constructor <;> norm_num at * <;> linarith
  · rw [abs_le]; constructor <;> norm_num at * <;> linarith

theorem q_deg : Q (DEG_2_RAD : F64) (Real.pi / 180) (1746 / 10 ^ 5) (3 / 10 ^ 18) :=
  ((q_pi.div (Q.int 1800 true 1 180 (by norm_num)) 180 (175 / 10 ^ 4) (by norm_num)
    (quot_le q_pi.mag (m := 180) (by norm_num) (by norm_num) (by norm_num))).mono (A' := 175 / 10 ^ 4) (by norm_num) (by norm_num)).to
      (by norm_num) |>.bound (by
        rw [abs_of_pos (by positivity)]
        have := Real.pi_lt_d4
        norm_num at *; linarith)

theorem q_xpdotp : Q (XPDOTP : F64) (1440 / (2 * Real.pi)) 230 (1 / 10 ^ 13) := by
  have h2 : Q (2.0 * Arith.pi : F64) (2.0 * Real.pi) 6.3 (1 / 10 ^ 15) :=
    ((Q.int 20 true 1 2 (by norm_num)).mul q_pi).mono (by norm_num) (by norm_num)
  have hp := Real.pi_gt_d4
  have hb : (6283 / 1000 : ℝ) ≤ |2.0 * Real.pi| := by
    rw [abs_of_pos (by positivity)]; norm_num at *; linarith
  exact (((Q.int 14400 true 1 1440 (by norm_num)).div h2 (6283 / 1000) 230 hb
    (quot_le (A := 1440) (by norm_num) hb (by norm_num) (by norm_num))).mono (by norm_num) (by norm_num)).to (by norm_num)

theorem q_dec (neg : Bool) (m k : ℕ) (C : ℝ) (h : (m : ℝ) / 10 ^ k ≤ C) (hC : C ≤ 2 ^ 100 := by norm_num) :
    Q (Arith.ofDec (.num neg m (-(k : ℤ))) : F64) ((if neg then -1 else 1) * ((m : ℝ) / 10 ^ k)) C (C / 2 ^ 53 + 1 / 2 ^ 153) := by
  have hr := ofDecimal_rounds neg m (-(k : ℤ))
  have e := real_dec neg m k
  rw [show (Arith.ofDec (.num neg m (-(k : ℤ))) : ℝ) = decR (.num neg m (-(k : ℤ))) from rfl] at e
  rw [e] at hr
  have hm : |(if neg then -1 else 1) * ((m : ℝ) / 10 ^ k)| ≤ C := by
    rw [abs_mul, abs_of_nonneg (by positivity : (0 : ℝ) ≤ (m : ℝ) / 10 ^ k)]
    split <;> simpa using h
  obtain ⟨h1, h2⟩ := hr.near hm hC
  exact ⟨h1, h2, hm⟩

omit [Libm] in
theorem point_lt {w : Str} {a b n : ℕ} (h : PointField w a b n) : (n : ℝ) / 10 ^ b ≤ 10 ^ a := by
  obtain ⟨k, hk, hn, -⟩ := h
  have : n < 10 ^ (a + b) := lt_of_lt_of_le hn (Nat.pow_le_pow_right (by decide) (by omega))
  have h2 : (n : ℝ) < 10 ^ (a + b) := by exact_mod_cast this
  rw [div_le_iff₀ (by positivity), ← pow_add]; exact h2.le

/-- **C80.** What is read from a well-formed two-line set, in doubles: every element is finite and within the stated distance of the value
printed (angles in radians, mean motion in radians per minute). -/
theorem C80_elements_read (l1 l2 : Str) (v : Tle) (h : Printed l1 l2 v) (hpos : v.nddotNeg = false ∨ v.nddotMant = 0) :
    ∃ s : Satrec F64, (parse_satrec l1 l2 : PRes (Satrec F64)) = .ok s ∧
      (s.inclo.Fin ∧ |s.inclo.val - (v.inclE4 : ℝ) / 10 ^ 4 * (Real.pi / 180)| ≤ 1 / 10 ^ 14) ∧
      (s.nodeo.Fin ∧ |s.nodeo.val - (v.nodeE4 : ℝ) / 10 ^ 4 * (Real.pi / 180)| ≤ 1 / 10 ^ 14) ∧
      (s.argpo.Fin ∧ |s.argpo.val - (v.argpE4 : ℝ) / 10 ^ 4 * (Real.pi / 180)| ≤ 1 / 10 ^ 14) ∧
      (s.mo.Fin ∧ |s.mo.val - (v.moE4 : ℝ) / 10 ^ 4 * (Real.pi / 180)| ≤ 1 / 10 ^ 14) ∧
      (s.ecco.Fin ∧ |s.ecco.val - (v.eccE7 : ℝ) / 10 ^ 7| ≤ 1 / 2 ^ 52) ∧
      (s.no.Fin ∧ |s.no.val - (v.noE8 : ℝ) / 10 ^ 8 * (2 * Real.pi) / 1440| ≤ 1 / 10 ^ 15) := by
  obtain ⟨s, hs, -, -, -, -, -, -, -, -, -, -, hi, hn, he, ha, hm, hno, -, -, -⟩ := C21_decode (F := F64) l1 l2 v h hpos
  refine ⟨s, hs, ?_⟩
  have ang : ∀ m : ℕ, (m : ℝ) / 10 ^ 4 ≤ 10 ^ 3 → (Arith.ofDec (.num false m (-4)) * DEG_2_RAD : F64).Fin ∧
      |(Arith.ofDec (.num false m (-4)) * DEG_2_RAD : F64).val - (m : ℝ) / 10 ^ 4 * (Real.pi / 180)| ≤ 1 / 10 ^ 14 := by
    intro m hm
    have q := (((q_dec false m 4 (10 ^ 3) hm).mul q_deg).mono (A' := 20) (δ' := 1 / 10 ^ 14) (by norm_num) (by norm_num))
    have q' := q.to (a' := (m : ℝ) / 10 ^ 4 * (Real.pi / 180)) (by simp)
    exact ⟨q'.fin, q'.err⟩
  refine ⟨hi ▸ ang _ (point_lt h.incl), hn ▸ ang _ (point_lt h.node), ha ▸ ang _ (point_lt h.argp), hm ▸ ang _ (point_lt h.mo), ?_, ?_⟩
  · rw [he]
    have h1 : (v.eccE7 : ℝ) / 10 ^ 7 ≤ 1 := by
      rw [div_le_one (by positivity)]
      exact_mod_cast h.ecc.1.le
    have q := ((q_dec false v.eccE7 7 1 h1).mono (δ' := 1 / 2 ^ 52) le_rfl (by norm_num)).to (a' := (v.eccE7 : ℝ) / 10 ^ 7) (by simp)
    exact ⟨q.fin, q.err⟩
  · rw [hno]
    have hp := Real.pi_lt_d4
    have hp0 := Real.pi_pos
    have q1 := q_dec false v.noE8 8 (10 ^ 2) (point_lt h.no)
    have hb : (229 : ℝ) ≤ |1440 / (2 * Real.pi)| := by
      rw [abs_of_pos (by positivity), le_div_iff₀ (by positivity)]
      norm_num at *; linarith
    have q := (q1.div q_xpdotp 229 (1 / 2) hb (quot_le q1.mag hb (by norm_num) (by norm_num))).mono (A' := 1 / 2) (δ' := 1 / 10 ^ 15)
      le_rfl (by norm_num)
    have q' := q.to (a' := (v.noE8 : ℝ) / 10 ^ 8 * (2 * Real.pi) / 1440) (by simp; field_simp)
    exact ⟨q'.fin, q'.err⟩

omit [Libm] in
theorem days_bound {d : Date} (hv : d.Valid) (hy : 1900 ≤ d.year) {n : ℕ} (hn : base.after n = d) (h : d.before ⟨2100, 3, 1⟩) :
    n ≤ 80000 := by
  have h1 := serial_lt hv (b := ⟨2100, 3, 1⟩) (by decide) hy h
  have h2 := (serial_after n).2.2
  rw [hn] at h2
  have h3 : serial ⟨2100, 3, 1⟩ ≤ 80000 := by decide +kernel
  omega

/-- **C78.** The time handed to the theory when a state at a calendar date is asked for, in doubles: within 1/400000 minute (150 µs) of the
number of minutes, counted by the calendar, from the printed epoch to the date and time of day asked for.  (In these 150 µs a satellite moves
about a metre: the double that holds a Julian date has no better resolution.)  For every record that has kept the epoch read from the text. -/
theorem C78_epoch_kept (l1 l2 : Str) (v : Tle) (h : Printed l1 l2 v) (hpos : v.nddotNeg = false ∨ v.nddotMant = 0)
    (hday : v.dayE8 ≤ 400 * 10 ^ 8) (s p : Satrec F64) (hp : (parse_satrec l1 l2 : PRes (Satrec F64)) = .ok p)
    (hs : s.jdsatepoch = p.jdsatepoch)
    (time : DateTimeUtc) (d : Date) (hd : d.InRange) (hy : time.year = d.year) (hm : time.month = d.month) (hdd : time.day = d.day)
    (hh : time.hour < 24) (hmi : time.minute < 60) (hse : time.second < 60) :
    ∃ (year nE nD : ℕ) (t : F64), 1957 ≤ year ∧ year ≤ 2056 ∧ (year : ℤ) % 100 = v.year ∧ base.after nE = ⟨year, 1, 1⟩ ∧
      base.after nD = d ∧ propogate_datetime s time = (sgp4 s t).map Prod.snd ∧ t.Fin ∧
      |t.val - (((nD : ℝ) - nE + 1 - (v.dayE8 : ℝ) / 10 ^ 8) * 1440 + time.hour * 60 + time.minute + (time.second : ℝ) / 60)|
        ≤ 1 / 400000 := by
  obtain ⟨p3, hpar, -, -, -, -, -, -, hjd, -⟩ := C21_decode (F := F64) l1 l2 v h hpos
  obtain rfl : p3 = p := by rw [hpar] at hp; cases hp; rfl
  have hd8 : (v.dayE8 : ℝ) / 10 ^ 8 ≤ 400 := by
    rw [div_le_iff₀ (by positivity)]; exact_mod_cast hday
  have hq := (q_dec false v.dayE8 8 400 hd8).to (a' := (v.dayE8 : ℝ) / 10 ^ 8) (by simp)
  have hpos0 : 0 ≤ (Arith.ofDec (.num false v.dayE8 (-8)) : F64).val ∧ (Arith.ofDec (.num false v.dayE8 (-8)) : F64).val ≤ 400 := by
    have hr := ofDecimal_rounds false v.dayE8 (-8)
    have e := real_dec false v.dayE8 8
    rw [show (Arith.ofDec (.num false v.dayE8 (-((8 : ℕ) : ℤ))) : ℝ) = decR (.num false v.dayE8 (-8)) from rfl] at e
    rw [e] at hr
    simp only [Bool.false_eq_true, if_false, one_mul] at hr
    exact ⟨hr.ge hq.fin isRep_zero (by positivity), hr.le hq.fin (by simpa using isRep_int 400 (by norm_num)) hd8⟩
  obtain ⟨year, nE, y1, y2, y3, y4, y5, y6⟩ := C24_f64 (v.year : ℤ) (by omega) (by have := h.year.1; omega)
    (Arith.ofDec (.num false v.dayE8 (-8)) : F64) hq.fin hpos0.1 hpos0.2
  have hI := C34_f64_error ⟨d, time.hour, time.minute, time.second, 0⟩ ⟨hd.1, hh, hmi, hse, by norm_num⟩ hd
  obtain ⟨nD, d1, d2, d3⟩ := hI
  have ej : (jday_datetime time : F64) = jdOf ⟨d, time.hour, time.minute, time.second, 0⟩ := by
    unfold jday_datetime jdOf
    rw [hy, hm, hdd]; rfl
  refine ⟨year, nE, nD, (jday_datetime time - s.jdsatepoch) * 1440.0, y1, y2, y3, y4, d1, C04_datetime s time, ?_⟩
  rw [hs, hjd, ej]
  have bD : (nD : ℝ) ≤ 80000 := by
    have h1 := days_bound hd.1 (inRange_cond hd).1 d1 hd.2.2
    exact_mod_cast h1
  have bE : (nE : ℝ) ≤ 80000 := by
    have h1 := days_bound (d := ⟨year, 1, 1⟩) ⟨by simp, by simp, by simp, by simp [monthLength, monthLengthOf]⟩ (by simp; omega) y4
      (by simp only [Date.before]; omega)
    exact_mod_cast h1
  have bT : ((Instant.msOfDay ⟨d, time.hour, time.minute, time.second, 0⟩ : ℕ) : ℝ) / 86400000 =
      ((time.hour : ℝ) * 3600 + time.minute * 60 + time.second) / 86400 := by
    simp only [Instant.msOfDay]; push_cast; ring
  rw [bT] at d3
  have t1 : (time.hour : ℝ) ≤ 24 := by exact_mod_cast hh.le
  have t2 : (time.minute : ℝ) ≤ 60 := by exact_mod_cast hmi.le
  have t3 : (time.second : ℝ) ≤ 60 := by exact_mod_cast hse.le
  have qx : |(v.dayE8 : ℝ) / 10 ^ 8 - (Arith.ofDec (.num false v.dayE8 (-8)) : F64).val| ≤ 1 / 10 ^ 13 := by
    rw [abs_sub_comm]; exact hq.err.trans (by norm_num)
  generalize jdOf ⟨d, time.hour, time.minute, time.second, 0⟩ = X at *
  generalize epochJd (v.year : ℤ) (Arith.ofDec (.num false v.dayE8 (-8)) : F64) = Y at *
  have p1 : (0 : ℝ) ≤ time.hour := Nat.cast_nonneg _
  have p2 : (0 : ℝ) ≤ time.minute := Nat.cast_nonneg _
  have p3 : (0 : ℝ) ≤ time.second := Nat.cast_nonneg _
  have p4 : (0 : ℝ) ≤ nD := Nat.cast_nonneg _
  have p5 : (0 : ℝ) ≤ nE := Nat.cast_nonneg _
  have p6 : (0 : ℝ) ≤ (v.dayE8 : ℝ) / 10 ^ 8 := by positivity
  generalize (v.dayE8 : ℝ) / 10 ^ 8 = D at *
  generalize (Arith.ofDec (.num false v.dayE8 (-8)) : F64) = D' at *
  have q1 : Q X (2415079.5 + nD + ((time.hour : ℝ) * 3600 + time.minute * 60 + time.second) / 86400) 2600000 (1 / 2 ^ 31) := by
    refine ⟨d2, d3, ?_⟩
    rw [abs_of_nonneg (by positivity)]; norm_num; linarith
  have q2 : Q Y (2415079.5 + nE - 1 + D) 2600000 (1 / 2 ^ 30 + 1 / 10 ^ 13) := by
    refine ⟨y5, ?_, ?_⟩
    · have e : Y.val - (2415079.5 + nE - 1 + D) = (Y.val - (2415079.5 + nE - 1 + D'.val)) - (D - D'.val) := by ring
      rw [e]; exact (abs_sub _ _).trans (add_le_add y6 qx)
    · rw [abs_of_nonneg (by norm_num; linarith)]; norm_num; linarith
  have q3 := (q1.sub' q2 90000 (by rw [abs_le]; norm_num; constructor <;> linarith)).mul (Q.int 14400 true 1 1440 (by norm_num))
  refine ⟨q3.fin, ?_⟩
  have e : ((nD : ℝ) - nE + 1 - D) * 1440 + time.hour * 60 + time.minute + (time.second : ℝ) / 60 =
      (2415079.5 + nD + ((time.hour : ℝ) * 3600 + time.minute * 60 + time.second) / 86400 - (2415079.5 + nE - 1 + D)) * 1440.0 := by
    norm_num; ring
  rw [e]
  exact q3.err.trans (by norm_num)

/-- **C78**, for the records made by the crate. -/
theorem C78_elapsed_minutes (l1 l2 : Str) (v : Tle) (h : Printed l1 l2 v) (hpos : v.nddotNeg = false ∨ v.nddotMant = 0)
    (hday : v.dayE8 ≤ 400 * 10 ^ 8) (s : Satrec F64) (hs : (twoline2satrec l1 l2 : PRes (Satrec F64)) = .ok s)
    (time : DateTimeUtc) (d : Date) (hd : d.InRange) (hy : time.year = d.year) (hm : time.month = d.month) (hdd : time.day = d.day)
    (hh : time.hour < 24) (hmi : time.minute < 60) (hse : time.second < 60) :
    ∃ (year nE nD : ℕ) (t : F64), 1957 ≤ year ∧ year ≤ 2056 ∧ (year : ℤ) % 100 = v.year ∧ base.after nE = ⟨year, 1, 1⟩ ∧
      base.after nD = d ∧ propogate_datetime s time = (sgp4 s t).map Prod.snd ∧ t.Fin ∧
      |t.val - (((nD : ℝ) - nE + 1 - (v.dayE8 : ℝ) / 10 ^ 8) * 1440 + time.hour * 60 + time.minute + (time.second : ℝ) / 60)|
        ≤ 1 / 400000 := by
  obtain ⟨p, hp, -, -, -, -, -, -, -, -, -, hjd, -⟩ := C06_twoline_elements l1 l2 s hs
  exact C78_epoch_kept l1 l2 v h hpos hday s p hp hjd time d hd hy hm hdd hh hmi hse

/-- the GPS satellite of C76 on 2000 February 29 -/
example : Printed navLine1 navLine2 navTle ∧ navTle.dayE8 ≤ 400 * 10 ^ 8 ∧ (⟨2000, 2, 29⟩ : Date).InRange :=
  ⟨nav_printed, by decide, by decide, by simp [Date.before, base], by simp [Date.before]⟩

/-- **C79.** Greenwich sidereal time in doubles: for every Julian date within a century of J2000, the result is the IAU polynomial, as an
angle, to within 10^-9 radians (6 mm at the equator). -/
theorem C79_gstime_accuracy (jd : F64) (hj : jd.Fin) (h : |jd.val - 2451545| ≤ 36525) :
    (gstime jd).Fin ∧ 0 ≤ (gstime jd).val ∧ (gstime jd).val < 2 * Real.pi ∧
      ∃ k : ℤ, |(gstime jd).val - (gmstSeconds jd.val / 86400 * (2 * Real.pi) + k * (2 * Real.pi))| ≤ 1 / 10 ^ 9 := by
  have hjb : |jd.val| ≤ 2524595 := by rw [abs_le] at h ⊢; constructor <;> linarith [h.1, h.2]
  obtain ⟨g1, g2, -, g3⟩ := C36_f64_all jd hj (hjb.trans (by norm_num))
  refine ⟨g1, g2, g3, ?_⟩
  have q0 : Q jd jd.val 2524595 0 := Q.exact hj hjb
  have qd := ((q0.sub' (Q.int 24515450 true 1 2451545 (by norm_num)) 36525 (by norm_num at h ⊢; exact h))).mono (A' := 36525)
    (δ' := 41 / 10 ^ 13) (by norm_num) (by norm_num)
  have qt := (qd.div (Q.int 365250 true 1 36525 (by norm_num)) 36525 1 (by norm_num)
    (quot_le qd.mag (m := 36525) (by norm_num) (by norm_num) (by norm_num))).mono (A' := 1) (δ' := 34 / 10 ^ 17) (by norm_num) (by norm_num)
  have q1 := ((((Q.sci 62 true 7 (62 / 10 ^ 7) (by norm_num)).neg.mul qt).mul qt).mul qt).mono (A' := 1 / 10 ^ 5) (δ' := 1 / 10 ^ 15)
    (by norm_num) (by norm_num)
  have q2 := ((((Q.sci 93104 true 6 (93104 / 10 ^ 6) (by norm_num))).mul qt).mul qt).mono (A' := 1 / 10) (δ' := 1 / 10 ^ 14)
    (by norm_num) (by norm_num)
  have q3 := ((((Q.int 8766000 true 1 876600 (by norm_num)).mul (Q.int 36000 true 1 3600 (by norm_num))).add
    (Q.sci 8640184812866 true 6 8640185 (by norm_num))).mul qt).mono (A' := 31645 * 10 ^ 5) (δ' := 22 / 10 ^ 7) (by norm_num) (by norm_num)
  have q4 := (((q1.add q2).add q3).add (Q.sci 6731054841 true 5 67311 (by norm_num))).mono (A' := 31646 * 10 ^ 5) (δ' := 3 / 10 ^ 6)
    (by norm_num) (by norm_num)
  have hp : Q (gstPoly jd) (gmstSeconds jd.val) (31646 * 10 ^ 5) (3 / 10 ^ 6) := by
    rw [← gstPoly_real]; exact q4
  have qr := q_deg.to (a' := Real.pi / 180.0) (by norm_num)
  have qm := (hp.mul qr).mono (A' := 557 * 10 ^ 5) (δ' := 1 / 10 ^ 7) (by norm_num) (by norm_num)
  have qa := (qm.div (Q.int 2400 true 1 240 (by norm_num)) 240 233000 (by norm_num)
    (quot_le qm.mag (m := 240) (by norm_num) (by norm_num) (by norm_num))).mono (A' := 233000) (δ' := 9 / 10 ^ 10) (by norm_num) (by norm_num)
  have qz := qa.angle.rem.mono (A' := 6.3) (δ' := 95 / 10 ^ 11) (by norm_num) (by norm_num)
  have hz : QA (gstime jd) (remR (gmstSeconds jd.val * (Real.pi / 180.0) / 240.0) (2 * Real.pi)) 13 (1 / 10 ^ 9) := by
    show QA (if F64.flt (Arith.rem ((gstPoly jd * DEG_2_RAD) / 240.0) TWO_PI) (sci 0 true 1) then
      Arith.rem ((gstPoly jd * DEG_2_RAD) / 240.0) TWO_PI + TWO_PI else Arith.rem ((gstPoly jd * DEG_2_RAD) / 240.0) TWO_PI) _ _ _
    split
    · exact ((qz.add QA.two_pi).mono (by norm_num) (by norm_num)).turn ⟨0, by simp⟩
    · exact qz.mono (by norm_num) (by norm_num)
  obtain ⟨j, hj⟩ := remR_congr (gmstSeconds jd.val * (Real.pi / 180.0) / 240.0) (2 * Real.pi)
  obtain ⟨k, hk⟩ := hz.err
  refine ⟨k - j, ?_⟩
  have e : gmstSeconds jd.val / 86400 * (2 * Real.pi) + ((k - j : ℤ) : ℝ) * (2 * Real.pi) =
      remR (gmstSeconds jd.val * (Real.pi / 180.0) / 240.0) (2 * Real.pi) + k * (2 * Real.pi) := by
    rw [hj]; push_cast; norm_num; ring
  rw [e]; exact hk

/-- a Julian date that meets the hypotheses -/
example : (F64.ofInt 2454730).Fin ∧ |(F64.ofInt 2454730).val - 2451545| ≤ 36525 := by
  have h := ofInt_exact 2454730 (by norm_num)
  exact ⟨h.1, by rw [h.2]; norm_num⟩

end Sat
