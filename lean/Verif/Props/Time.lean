import Verif.RealArith
import Verif.Model.Io
import Verif.Proofs.CalendarLemmas
import Mathlib.Tactic.IntervalCases
/-!
# Calendar, Julian date and sidereal time (exact real arithmetic)

C24, C32-C37 over `ℝ`.
-/

set_option linter.unusedSimpArgs false

namespace Sat
open Spec

/-! ## Julian date -/

/-- the last parenthesis of `jday` -/
theorem jday_split (y m d h mi s ms : ℝ) : jday y m d h mi s ms =
    (367 * y - ⌊7 * (y + ⌊(m + 9) / 12⌋) / 4⌋ + ⌊275 * m / 9⌋ + 1721013.5) + d +
      (h * 3600 + mi * 60 + s + ms / 1000) / 86400 := by
  simp only [jday, real_floor]
  have e1 : (7.0 * (y + (⌊(m + 9.0) / 12.0⌋ : ℝ))) * 0.25 = 7 * (y + ⌊(m + 9) / 12⌋) / 4 := by
    rw [show (m + 9.0) / 12.0 = (m + 9) / 12 by norm_num]; norm_num; ring
  have e2 : (275.0 * m) / 9.0 = 275 * m / 9 := by norm_num
  rw [e1, e2]
  norm_num
  ring

theorem floor_div_int (a : ℤ) (n : ℕ) : ⌊(a : ℝ) / (n : ℝ)⌋ = a / (n : ℤ) := by
  rw [Int.floor_div_natCast, Int.floor_intCast]

/-- For years and months between March 1900 and February 2100 `jday` counts days: it is linear in the day and in the time of day. -/
theorem jday_linear (y m : ℕ) (hm1 : 1 ≤ m) (hm2 : m ≤ 12) (hy1 : 1900 ≤ y) (hy2 : y ≤ 2100) (h1 : y = 1900 → 3 ≤ m)
    (h2 : y = 2100 → m ≤ 2) (d h mi s ms : ℝ) :
    jday (y : ℝ) (m : ℝ) d h mi s ms =
      2415019.5 + (daysInYears (y - 1900) : ℝ) + (daysBeforeMonth y m : ℝ) + d + (h * 3600 + mi * 60 + s + ms / 1000) / 86400 := by
  rw [jday_split]
  congr 2
  obtain ⟨n, rfl⟩ : ∃ n, y = 1900 + n := ⟨y - 1900, by omega⟩
  have f1 : ⌊((m : ℝ) + 9) / 12⌋ = ((m : ℤ) + 9) / 12 := by
    have := floor_div_int ((m : ℤ) + 9) 12
    push_cast at this; exact this
  have f2 : ⌊275 * (m : ℝ) / 9⌋ = (275 * (m : ℤ)) / 9 := by
    have := floor_div_int (275 * (m : ℤ)) 9
    push_cast at this; exact this
  have f3 : ⌊7 * (((1900 + n : ℕ) : ℝ) + ((((m : ℤ) + 9) / 12 : ℤ) : ℝ)) / 4⌋ = (7 * ((1900 + n : ℕ) + ((m : ℤ) + 9) / 12)) / 4 := by
    have := floor_div_int (7 * ((1900 + n : ℕ) + ((m : ℤ) + 9) / 12)) 4
    push_cast at this ⊢; exact this
  rw [f1, f3, f2, show 1900 + n - 1900 = n by omega]
  -- leap rule in the range
  have hl : n = 0 ∨ n = 200 ∨ (1 ≤ n ∧ n < 200 ∧ leapYear (1900 + n) = decide (n % 4 = 0)) := by
    by_cases h0 : n = 0
    · exact Or.inl h0
    by_cases h200 : n = 200
    · exact Or.inr (Or.inl h200)
    refine Or.inr (Or.inr ⟨by omega, by omega, ?_⟩)
    unfold leapYear
    by_cases hn : n = 100
    · subst hn; decide
    · have : (1900 + n) % 100 ≠ 0 := by omega
      by_cases h4 : n % 4 = 0
      · have : (1900 + n) % 4 = 0 := by omega
        simp [*]
      · have : (1900 + n) % 4 ≠ 0 := by omega
        simp [*]
  have key : (367 * ((1900 + n : ℕ) : ℤ) - (7 * ((1900 + n : ℕ) + ((m : ℤ) + 9) / 12)) / 4 + (275 * (m : ℤ)) / 9) + 1721013 =
      2415019 + (daysInYears n : ℤ) + (daysBeforeMonth (1900 + n) m : ℤ) := by
    rcases hl with h0 | h0 | ⟨ha, hb, hc⟩
    · subst h0
      have := h1 rfl
      have hle : leapYear (1900 + 0) = false := by decide
      simp only [daysBeforeMonth, hle, daysInYears]
      interval_cases m <;> rfl
    · subst h0
      have := h2 rfl
      have hD : daysInYears 200 = 365 * 200 + (200 - 1) / 4 := daysInYears_closed 200 (by omega) (by omega)
      rw [hD]
      have hle : leapYear (1900 + 200) = false := by decide
      simp only [daysBeforeMonth, hle]
      interval_cases m <;> rfl
    · rw [daysInYears_closed n ha (by omega), daysBeforeMonth, hc]
      by_cases h4 : n % 4 = 0
      · simp only [h4, decide_true]
        interval_cases m <;> simp only [daysBeforeOf, monthLengthOf] <;> push_cast <;> norm_num <;> omega
      · simp only [h4, decide_false]
        obtain ⟨q, r, hr, rfl⟩ : ∃ q r, (r = 1 ∨ r = 2 ∨ r = 3) ∧ n = 4 * q + r := ⟨n / 4, n % 4, by omega, by omega⟩
        rcases hr with rfl | rfl | rfl <;>
        interval_cases m <;> simp only [daysBeforeOf, monthLengthOf] <;> push_cast <;> norm_num <;> omega
  have keyR := congrArg (fun z : ℤ => (z : ℝ)) key
  push_cast at keyR ⊢
  linarith

/-- the conditions of `jday_linear` hold for dates in range -/
theorem inRange_cond {d : Date} (h : d.InRange) : 1900 ≤ d.year ∧ d.year ≤ 2100 ∧ (d.year = 1900 → 3 ≤ d.month) ∧
    (d.year = 2100 → d.month ≤ 2) := by
  obtain ⟨hv, hb, ha⟩ := h
  obtain ⟨v1, v2, v3, v4⟩ := hv
  obtain ⟨y, m, d⟩ := d
  simp only [Date.before, base] at hb ha v1 v2 v3 ⊢
  omega

/-- Julian date of a valid calendar date in range, with any time of day. -/
theorem jday_serial {d : Date} (hd : d.InRange) (h mi s ms : ℝ) :
    jday (d.year : ℝ) (d.month : ℝ) (d.day : ℝ) h mi s ms =
      2415019.5 + (serial d : ℝ) + (h * 3600 + mi * 60 + s + ms / 1000) / 86400 := by
  obtain ⟨c1, c2, c3, c4⟩ := inRange_cond hd
  rw [jday_linear d.year d.month hd.1.1 hd.1.2.1 c1 c2 c3 c4, serial, Date.dayOfYear]
  push_cast; ring

/-- C34 (exact arithmetic): every date of the Gregorian calendar from 1900-03-01 to 2100-02-28 is reached by counting some number `n` of days
from 1900-03-01, and `jday` at 0h of it is 2415079.5 + n. -/
theorem C34_jday_counts_days (d : Date) (hd : d.InRange) :
    ∃ n : ℕ, base.after n = d ∧ jday (d.year : ℝ) (d.month : ℝ) (d.day : ℝ) 0 0 0 0 = 2415079.5 + n := by
  obtain ⟨n, h1, h2⟩ := reached hd.1 hd.2.1
  refine ⟨n, h1, ?_⟩
  rw [jday_serial hd, h2]; push_cast; norm_num; ring

/-- C34, the same for `jday` of a UTC date-time (whole seconds; the crate ignores the sub-second part). -/
theorem C34_jday_datetime (t : DateTimeUtc) (d : Date) (hd : d.InRange) (hy : t.year = d.year) (hm : t.month = d.month)
    (hday : t.day = d.day) :
    ∃ n : ℕ, base.after n = d ∧
      (jday_datetime t : ℝ) = 2415079.5 + n + ((t.hour * 3600 + t.minute * 60 + t.second : ℕ) : ℝ) / 86400 := by
  obtain ⟨n, h1, h2⟩ := reached hd.1 hd.2.1
  refine ⟨n, h1, ?_⟩
  have := jday_serial hd t.hour t.minute t.second 0
  simp only [jday_datetime, real_ofInt, hy, hm, hday, Int.cast_natCast, Int.cast_zero]
  rw [this, h2]; push_cast; norm_num; ring

example : (⟨2024, 2, 29⟩ : Date).InRange := by
  refine ⟨by decide, ?_, ?_⟩ <;> simp only [Date.before, base] <;> omega

/-- the well-known value: noon of January 1 2000 is JD 2451545 -/
example : jday (2000 : ℝ) 1 1 12 0 0 0 = 2451545 := by
  have := jday_serial (d := ⟨2000, 1, 1⟩) (by refine ⟨by decide, ?_, ?_⟩ <;> simp only [Date.before, base] <;> omega) 12 0 0 0
  rw [show serial ⟨2000, 1, 1⟩ = 36525 by simp only [serial]; rw [daysInYears_closed _ (by decide) (by decide)]; decide] at this
  push_cast at this
  refine this.trans ?_
  norm_num

/-- C34, limits: at both ends of the range the formula is off by one day; two consecutive days differ by 2. -/
theorem C34_violated_outside :
    (⟨1900, 2, 28⟩ : Date).next = ⟨1900, 3, 1⟩ ∧
    jday (1900 : ℝ) 3 1 0 0 0 0 - jday (1900 : ℝ) 2 28 0 0 0 0 = 2 ∧
    (⟨2100, 2, 28⟩ : Date).next = ⟨2100, 3, 1⟩ ∧
    jday (2100 : ℝ) 3 1 0 0 0 0 - jday (2100 : ℝ) 2 28 0 0 0 0 = 2 := by
  refine ⟨by decide, ?_, by decide, ?_⟩ <;> simp only [jday_split] <;> norm_num

/-- C35: for date-times in range, the difference of Julian dates is the elapsed time in days: `i` and `j` are the numbers of
days counted from 1900-03-01, and milliseconds of the day make up the fraction. -/
theorem C35_elapsed (a b : Instant) (ha : a.date.InRange) (hb : b.date.InRange) :
    ∃ i j : ℕ, base.after i = a.date ∧ base.after j = b.date ∧
      jday (b.date.year : ℝ) b.date.month b.date.day b.hour b.minute b.sec b.msec -
        jday (a.date.year : ℝ) a.date.month a.date.day a.hour a.minute a.sec a.msec =
      ((j : ℝ) - i) + ((b.msOfDay : ℝ) - a.msOfDay) / 86400000 := by
  obtain ⟨i, hi, hi'⟩ := reached ha.1 ha.2.1
  obtain ⟨j, hj, hj'⟩ := reached hb.1 hb.2.1
  refine ⟨i, j, hi, hj, ?_⟩
  rw [jday_serial ha, jday_serial hb, hi', hj', Instant.msOfDay, Instant.msOfDay]
  push_cast; ring

/-- C35: an earlier valid date-time has a strictly smaller Julian date. -/
theorem C35_monotone (a b : Instant) (ha : a.Valid) (hb : b.Valid) (hra : a.date.InRange) (hrb : b.date.InRange)
    (h : a.before b) :
    jday (a.date.year : ℝ) a.date.month a.date.day a.hour a.minute a.sec a.msec <
      jday (b.date.year : ℝ) b.date.month b.date.day b.hour b.minute b.sec b.msec := by
  rw [jday_serial hra, jday_serial hrb]
  have key : serial a.date * 86400000 + a.msOfDay < serial b.date * 86400000 + b.msOfDay := by
    obtain ⟨va, h1, h2, h3, h4⟩ := ha
    obtain ⟨vb, g1, g2, g3, g4⟩ := hb
    simp only [Instant.msOfDay]
    rcases h with h | ⟨e, h⟩
    · have := serial_lt hra.1 hrb.1 (inRange_cond hra).1 h
      omega
    · rw [e]; omega
  have keyR : ((serial a.date * 86400000 + a.msOfDay : ℕ) : ℝ) < ((serial b.date * 86400000 + b.msOfDay : ℕ) : ℝ) := by exact_mod_cast key
  simp only [Instant.msOfDay] at keyR
  push_cast at keyR
  linarith

example : (⟨⟨2024, 2, 29⟩, 23, 59, 59, 999⟩ : Instant).before ⟨⟨2024, 3, 1⟩, 0, 0, 0, 0⟩ := by
  left; right; exact ⟨rfl, Or.inl (by decide)⟩

/-! ## Day of year -/

theorem monthLoop_inv (leap : Bool) (D : ℕ) (lm : List ℕ) (i t : ℕ) (hl : lm = (List.range' i (13 - i)).map (monthLengthOf leap))
    (hi1 : 1 ≤ i) (hi2 : i ≤ 12) (ht : t = daysBeforeOf leap i) (hlow : t < D ∨ i = 1) :
    1 ≤ (monthLoop D lm i t).1 ∧ (monthLoop D lm i t).1 ≤ 12 ∧
    (monthLoop D lm i t).2 = daysBeforeOf leap (monthLoop D lm i t).1 ∧
    ((monthLoop D lm i t).2 < D ∨ (monthLoop D lm i t).1 = 1) ∧
    ((monthLoop D lm i t).1 < 12 → D ≤ daysBeforeOf leap ((monthLoop D lm i t).1 + 1)) := by
  induction lm generalizing i t with
  | nil => exact ⟨hi1, hi2, ht, hlow, by
      intro h
      have := congrArg List.length hl
      simp at this; omega⟩
  | cons l lm ih =>
    obtain ⟨k, hk⟩ : ∃ k, 13 - i = k + 1 := ⟨12 - i, by omega⟩
    rw [hk, List.range'_succ, List.map_cons, List.cons.injEq] at hl
    obtain ⟨hl1, hl2⟩ := hl
    rw [monthLoop]
    by_cases hc : D > t + l ∧ i < 12
    · rw [if_pos hc]
      refine ih (i + 1) (t + l) ?_ (by omega) (by omega) ?_ (Or.inl (by omega))
      · rw [hl2]; congr 2; omega
      · rw [daysBeforeOf, ht, hl1]
    · rw [if_neg hc]
      refine ⟨hi1, hi2, ht, hlow, ?_⟩
      intro h
      rw [daysBeforeOf, ← ht, ← hl1]
      omega

/-- The month loop: it finds the month whose cumulative day range contains the day; before the first it stays at January, past the last
at December. -/
theorem monthLoop_spec (year D : ℕ) :
    1 ≤ (monthLoop D (lmonth year) 1 0).1 ∧ (monthLoop D (lmonth year) 1 0).1 ≤ 12 ∧
    (monthLoop D (lmonth year) 1 0).2 = daysBeforeOf (year % 4 == 0) (monthLoop D (lmonth year) 1 0).1 ∧
    ((monthLoop D (lmonth year) 1 0).2 < D ∨ (monthLoop D (lmonth year) 1 0).1 = 1) ∧
    ((monthLoop D (lmonth year) 1 0).1 < 12 → D ≤ daysBeforeOf (year % 4 == 0) ((monthLoop D (lmonth year) 1 0).1 + 1)) := by
  apply monthLoop_inv (year % 4 == 0) D (lmonth year) 1 0 _ (by decide) (by decide) rfl (Or.inr rfl)
  unfold lmonth
  cases year % 4 == 0 <;> rfl

/-- The `u64` subtraction of `ext.rs:65` never underflows. -/
theorem monthLoop_le (year D : ℕ) : (monthLoop D (lmonth year) 1 0).2 ≤ D := by
  obtain ⟨h1, h2, h3, h4, h5⟩ := monthLoop_spec year D
  rcases h4 with h | h
  · exact h.le
  · rw [h3, h]; simp [daysBeforeOf, monthLengthOf]

theorem toU64R_floor {d : ℝ} (h0 : 0 ≤ d) (h1 : d < 2 ^ 64) : toU64R (⌊d⌋ : ℝ) = ⌊d⌋₊ := by
  have e : (⌊d⌋ : ℝ) = ((⌊d⌋₊ : ℕ) : ℝ) := by
    rw [← natCast_floor_eq_intCast_floor h0]
  rw [toU64R, e, Nat.floor_natCast, Nat.min_eq_left]
  have : ⌊d⌋₊ < 2 ^ 64 := by
    rw [Nat.floor_lt h0]; exact_mod_cast h1
  omega

/-- What `days2mdhms` computes over the reals. -/
theorem days2mdhms_real (year : ℕ) (d : ℝ) (h0 : 0 ≤ d) (h1 : d < 2 ^ 64) :
    ∃ (m day h mi : ℕ) (s : ℝ),
      (days2mdhms year d).month = m ∧ (days2mdhms year d).day = day ∧ (days2mdhms year d).hour = h ∧
      (days2mdhms year d).minute = mi ∧ (days2mdhms year d).second = s ∧
      1 ≤ m ∧ m ≤ 12 ∧ daysBeforeOf (year % 4 == 0) m + day = ⌊d⌋₊ ∧ (day = 0 → m = 1) ∧
      (m < 12 → day ≤ monthLengthOf (year % 4 == 0) m) ∧ h < 24 ∧ mi < 60 ∧ 0 ≤ s ∧ s < 60 ∧
      d = ⌊d⌋₊ + ((h * 60 + mi) * 60 + s) / 86400 := by
  have hU := toU64R_floor h0 h1
  obtain ⟨m1, m2, m3, m4, m5⟩ := monthLoop_spec year ⌊d⌋₊
  have m6 := monthLoop_le year ⌊d⌋₊
  have hf1 := Nat.floor_le h0
  have hf2 := Nat.lt_floor_add_one d
  have cast1 : ∀ x : ℝ, 0 ≤ x → ((⌊x⌋ : ℤ) : ℝ) = ((⌊x⌋₊ : ℕ) : ℝ) := fun x hx => (natCast_floor_eq_intCast_floor hx).symm
  set t := (d - (⌊d⌋₊ : ℝ)) * 24 with ht
  have ht0 : 0 ≤ t := by nlinarith
  have ht1 : t < 24 := by nlinarith
  have hh1 := Nat.floor_le ht0
  have hh2 := Nat.lt_floor_add_one t
  set u := (t - (⌊t⌋₊ : ℝ)) * 60 with hu
  have hu0 : 0 ≤ u := by nlinarith
  have hu1 : u < 60 := by nlinarith
  have hg1 := Nat.floor_le hu0
  have hg2 := Nat.lt_floor_add_one u
  refine ⟨(monthLoop ⌊d⌋₊ (lmonth year) 1 0).1, ⌊d⌋₊ - (monthLoop ⌊d⌋₊ (lmonth year) 1 0).2, ⌊t⌋₊, ⌊u⌋₊, (u - ⌊u⌋₊) * 60,
    ?_, ?_, ?_, ?_, ?_, m1, m2, ?_, ?_, ?_, ?_, ?_, ?_, ?_, ?_⟩
  · simp only [days2mdhms, real_floor, real_toU64, hU, real_ofInt, Int.cast_natCast]
  · simp only [days2mdhms, real_floor, real_toU64, hU, real_ofInt, Int.cast_natCast]
  · simp only [days2mdhms, real_floor, real_toU64, hU, real_ofInt, Int.cast_natCast]
    rw [show (24.0 : ℝ) = 24 by norm_num, ← ht, cast1 _ ht0]
  · simp only [days2mdhms, real_floor, real_toU64, hU, real_ofInt, Int.cast_natCast]
    rw [show (24.0 : ℝ) = 24 by norm_num, show (60.0 : ℝ) = 60 by norm_num, ← ht, cast1 _ ht0, ← hu, cast1 _ hu0]
  · simp only [days2mdhms, real_floor, real_toU64, hU, real_ofInt, Int.cast_natCast]
    rw [show (24.0 : ℝ) = 24 by norm_num, show (60.0 : ℝ) = 60 by norm_num, ← ht, cast1 _ ht0, ← hu, cast1 _ hu0]
  · rw [← m3]; omega
  · intro hz
    rcases m4 with h | h
    · omega
    · exact h
  · intro h12
    have := m5 h12
    rw [daysBeforeOf, ← m3] at this
    omega
  · rw [Nat.floor_lt ht0]; exact_mod_cast ht1
  · rw [Nat.floor_lt hu0]; exact_mod_cast hu1
  · nlinarith
  · nlinarith
  · rw [hu, ht]; ring

/-- C33: nothing is lost: month, day, hour, minute and second recombine to the day number passed in, for every year (with
the crate's rule that every fourth year is a leap year) and every day number in [0, 2^64). -/
theorem C33_recombine (year : ℕ) (d : ℝ) (h0 : 0 ≤ d) (h1 : d < 2 ^ 64) :
    ∃ m : ℕ, 1 ≤ m ∧ m ≤ 12 ∧ (days2mdhms year d).month = m ∧
      (daysBeforeOf (year % 4 == 0) m : ℝ) + (days2mdhms year d).day + (days2mdhms year d).hour / 24 +
        (days2mdhms year d).minute / 1440 + (days2mdhms year d).second / 86400 = d := by
  obtain ⟨m, day, h, mi, s, e1, e2, e3, e4, e5, m1, m2, e6, _, _, _, _, _, _, e7⟩ := days2mdhms_real year d h0 h1
  refine ⟨m, m1, m2, e1, ?_⟩
  rw [e2, e3, e4, e5]
  have : (daysBeforeOf (year % 4 == 0) m : ℝ) + day = ⌊d⌋₊ := by exact_mod_cast e6
  rw [this]
  conv_rhs => rw [e7]
  ring

theorem leap_range {y : ℕ} (h1 : 1901 ≤ y) (h2 : y ≤ 2099) : leapYear y = (y % 4 == 0) := by
  unfold leapYear
  by_cases hn : y = 2000
  · subst hn; decide
  · have : y % 100 ≠ 0 := by omega
    simp [this]

/-- C32 (exact arithmetic): for 1901 ≤ year ≤ 2099 and day-of-year 1 ≤ d < length of the year + 1, the month and day returned form a valid
Gregorian date of that year whose day-of-year is the integer part of `d`; hour is one of 0..23, minute one of 0..59,
seconds in [0, 60), and hour, minute and second give the fraction of the day. -/
theorem C32_calendar (year : ℕ) (hy1 : 1901 ≤ year) (hy2 : year ≤ 2099) (d : ℝ) (h1 : 1 ≤ d) (h2 : d < yearLength year + 1) :
    ∃ (date : Date) (h mi : ℕ), date.year = year ∧ date.Valid ∧ date.dayOfYear = ⌊d⌋₊ ∧ h < 24 ∧ mi < 60 ∧
      (days2mdhms year d).month = date.month ∧ (days2mdhms year d).day = date.day ∧
      (days2mdhms year d).hour = h ∧ (days2mdhms year d).minute = mi ∧
      0 ≤ (days2mdhms year d).second ∧ (days2mdhms year d).second < 60 ∧
      d - ⌊d⌋₊ = ((h * 60 + mi) * 60 + (days2mdhms year d).second) / 86400 := by
  have hyl : yearLength year ≤ 366 := by unfold yearLength; split <;> omega
  have hyl' : (yearLength year : ℝ) ≤ 366 := by exact_mod_cast hyl
  obtain ⟨m, day, h, mi, s, e1, e2, e3, e4, e5, m1, m2, e6, e7, e8, a1, a2, a3, a4, a5⟩ :=
    days2mdhms_real year d (by linarith) (by norm_num; linarith)
  rw [← leap_range hy1 hy2] at e6 e8
  have hfl : 1 ≤ ⌊d⌋₊ := Nat.le_floor (by exact_mod_cast h1)
  have hfl2 : ⌊d⌋₊ ≤ yearLength year := by
    have : ⌊d⌋₊ < yearLength year + 1 := by
      rw [Nat.floor_lt (by linarith)]; push_cast; exact h2
    omega
  refine ⟨⟨year, m, day⟩, h, mi, rfl, ⟨m1, m2, ?_, ?_⟩, e6, a1, a2, e1, e2, e3, e4, by rw [e5]; exact a3, by rw [e5]; exact a4, ?_⟩
  · simp only
    by_contra hc
    have hz : day = 0 := by omega
    have := e7 hz
    subst this
    rw [hz] at e6
    simp [daysBeforeOf, monthLengthOf] at e6
    omega
  · simp only [monthLength]
    by_cases h12 : m < 12
    · exact e8 h12
    · have hm : m = 12 := by omega
      subst hm
      have h13 := daysBeforeMonth_13 year
      rw [daysBeforeMonth, daysBeforeOf] at h13
      omega
  · rw [e5]; conv_lhs => rw [a5]
    have : ⌊d⌋₊ = ⌊(⌊d⌋₊ : ℝ) + ((h * 60 + mi) * 60 + s) / 86400⌋₊ := by rw [← a5]
    rw [← this]; ring

/-- C32, limits: for 1900 and 2100, which are not leap years, the result is wrong for every day after February 28. -/
theorem C32_violated_century (year : ℕ) (hy : year = 1900 ∨ year = 2100) (d : ℝ) (h1 : 60 ≤ d) (h2 : d < 366) :
    ¬ ∃ date : Date, date.year = year ∧ date.Valid ∧ date.dayOfYear = ⌊d⌋₊ ∧
      (days2mdhms year d).month = date.month ∧ (days2mdhms year d).day = date.day := by
  rintro ⟨⟨y, mo, da⟩, rfl, ⟨v1, v2, v3, v4⟩, hdoy, hm, hd⟩
  obtain ⟨m, day, h, mi, s, e1, e2, e3, e4, e5, m1, m2, e6, e7, e8, a1, a2, a3, a4, a5⟩ :=
    days2mdhms_real y d (by linarith) (by norm_num; linarith)
  simp only at hm hd hdoy v1 v2 v3 v4 hy
  have em : m = mo := by rw [e1] at hm; exact_mod_cast hm
  have ed : day = da := by rw [e2] at hd; exact_mod_cast hd
  subst em ed
  have hfl : 60 ≤ ⌊d⌋₊ := Nat.le_floor (by exact_mod_cast h1)
  rw [← e6, Date.dayOfYear, daysBeforeMonth] at hdoy
  have hl : leapYear y = false := by rcases hy with rfl | rfl <;> decide
  have h4 : (y % 4 == 0) = true := by rcases hy with rfl | rfl <;> decide
  rw [monthLength, hl] at v4
  simp only [hl] at hdoy
  rw [h4] at e6 e8 hdoy
  interval_cases m <;> simp [daysBeforeOf, monthLengthOf] at hdoy v4 e6 <;> omega

example : (1 : ℝ) ≤ 60.5 ∧ (60.5 : ℝ) < yearLength 2023 + 1 := by
  constructor
  · norm_num
  · have : yearLength 2023 = 365 := by decide
    rw [this]; norm_num

/-! ## C24: epoch -/

/-- C24 (exact arithmetic): for every two-digit year field and every epoch day `d` in [0, 2^64), the epoch Julian date is the Julian date of
January 0 (the day before January 1) of the year plus `d`.  The Julian date of January 1 is given by counting
days from 1900-03-01 (`n`). -/
theorem C24_epoch (epochyr : ℤ) (h0 : 0 ≤ epochyr) (h1 : epochyr ≤ 99) (d : ℝ) (hd0 : 0 ≤ d) (hd1 : d < 2 ^ 64) :
    ∃ (year n : ℕ), 1957 ≤ year ∧ year ≤ 2056 ∧ (year : ℤ) % 100 = epochyr ∧ base.after n = ⟨year, 1, 1⟩ ∧
      epochJd epochyr d = 2415079.5 + n - 1 + d := by
  obtain ⟨year, hy⟩ : ∃ year : ℕ, fullYear epochyr = year := by
    refine ⟨(fullYear epochyr).toNat, ?_⟩
    unfold fullYear; split <;> omega
  have hy' : 1957 ≤ year ∧ year ≤ 2056 ∧ (year : ℤ) % 100 = epochyr := by
    unfold fullYear at hy; split at hy <;> omega
  have hr : (⟨year, 1, 1⟩ : Date).InRange := by
    refine ⟨⟨by simp, by simp, by simp, by simp [monthLength, monthLengthOf]⟩, ?_, ?_⟩ <;> simp only [Date.before, base] <;> omega
  obtain ⟨n, hn, hn'⟩ := reached hr.1 hr.2.1
  refine ⟨year, n, hy'.1, hy'.2.1, hy'.2.2, hn, ?_⟩
  have hU : asU64 (year : ℤ) = year := by
    unfold asU64; omega
  simp only [epochJd, hy, hU]
  obtain ⟨m, day, h, mi, s, e1, e2, e3, e4, e5, m1, m2, e6, e7, e8, a1, a2, a3, a4, a5⟩ := days2mdhms_real year d hd0 hd1
  rw [e1, e2, e3, e4, e5, real_ofInt, Int.cast_natCast, show (0.0 : ℝ) = 0 by norm_num]
  rw [jday_linear year m m1 m2 (by omega) (by omega) (by omega) (by omega)]
  rw [← leap_range (by omega) (by omega)] at e6
  have e6' : (daysBeforeMonth year m : ℝ) + day = ⌊d⌋₊ := by rw [daysBeforeMonth]; exact_mod_cast e6
  have hs : (serial ⟨year, 1, 1⟩ : ℝ) = (daysInYears (year - 1900) : ℝ) + 1 := by
    have h0 : daysBeforeOf (leapYear year) 1 = 0 := rfl
    simp only [serial, Date.dayOfYear, daysBeforeMonth, h0]
    push_cast; ring
  rw [hn'] at hs
  push_cast at hs
  rw [a5]
  rw [← e6']
  have e9 : (daysInYears (year - 1900) : ℝ) = 59 + n := by linarith
  rw [e9]
  norm_num
  ring

example : (0 : ℤ) ≤ 8 ∧ (8 : ℤ) ≤ 99 ∧ (0 : ℝ) ≤ 264.51782528 ∧ (264.51782528 : ℝ) < 2 ^ 64 := by norm_num

/-! ## Sidereal time -/

/-- the IAU-82 polynomial: sidereal time in seconds at Julian date `jd` -/
noncomputable def gmstSeconds (jd : ℝ) : ℝ :=
  let T := (jd - 2451545) / 36525
  67310.54841 + (876600 * 3600 + 8640184.812866) * T + 0.093104 * T ^ 2 - 6.2e-6 * T ^ 3

theorem gstPoly_real (jd : ℝ) : gstPoly jd = gmstSeconds jd := by
  simp only [gstPoly, gmstSeconds]; norm_num; ring

theorem gstime_real (jd : ℝ) : gstime jd =
    if remR (gmstSeconds jd * (Real.pi / 180) / 240) (2 * Real.pi) < 0 then
      remR (gmstSeconds jd * (Real.pi / 180) / 240) (2 * Real.pi) + 2 * Real.pi
    else remR (gmstSeconds jd * (Real.pi / 180) / 240) (2 * Real.pi) := by
  simp only [gstime, gstPoly_real, real_flt, real_rem, real_TWO_PI, DEG_2_RAD, real_pi, decide_eq_true_eq]
  norm_num

/-- C36 (exact arithmetic): sidereal time is in [0, 2π). -/
theorem C36_range (jd : ℝ) : gstime jd ∈ Set.Ico 0 (2 * Real.pi) := by
  rw [gstime_real]
  have hp : 0 < 2 * Real.pi := by positivity
  have h := remR_lt hp (gmstSeconds jd * (Real.pi / 180) / 240)
  rw [abs_lt] at h
  split
  · constructor <;> linarith
  · constructor <;> linarith

/-- C37: sidereal time is the IAU polynomial (seconds of time, 240 seconds per degree) modulo one turn. -/
theorem C37_polynomial (jd : ℝ) : ∃ k : ℤ, gstime jd = gmstSeconds jd / 86400 * (2 * Real.pi) + k * (2 * Real.pi) := by
  rw [gstime_real]
  obtain ⟨k, hk⟩ := remR_congr (gmstSeconds jd * (Real.pi / 180) / 240) (2 * Real.pi)
  rw [hk]
  split
  · exact ⟨1 - k, by push_cast; ring⟩
  · exact ⟨-k, by push_cast; ring⟩

/-- C37: over one day sidereal time advances by one turn plus the sidereal excess of 236.55.. seconds of time (within 0.01 s for 10 centuries
around J2000). -/
theorem C37_daily_advance (jd : ℝ) (h : |jd - 2451545| ≤ 365250) :
    ∃ (k : ℤ) (ex : ℝ), gstime (jd + 1) = gstime jd + (1 + ex / 86400) * (2 * Real.pi) + k * (2 * Real.pi) ∧
      236.54 < ex ∧ ex < 236.57 := by
  obtain ⟨a, ha⟩ := C37_polynomial jd
  obtain ⟨b, hb⟩ := C37_polynomial (jd + 1)
  refine ⟨b - a, gmstSeconds (jd + 1) - gmstSeconds jd - 86400, ?_, ?_⟩
  · rw [ha, hb]; push_cast; ring
  · simp only [gmstSeconds]
    rw [abs_le] at h
    set x := jd - 2451545 with hx
    have : jd + 1 - 2451545 = x + 1 := by rw [hx]; ring
    rw [this]
    have hx2 : x ^ 2 ≤ 365250 ^ 2 := by nlinarith
    constructor <;> nlinarith

example : |(2454730.0 : ℝ) - 2451545| ≤ 365250 := by norm_num

end Sat
