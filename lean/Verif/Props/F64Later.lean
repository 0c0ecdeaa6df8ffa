import Verif.Props.F64Accuracy

/-!
# A later date is a later time

C100: in doubles, the minutes since epoch at which the crate evaluates the theory grow with the date asked for, second by second, and the
difference between two dates is the time between them.
-/

namespace Sat
open Spec Spec.R3 F64

variable [Libm]

/-- a moment given to the second, in whole seconds after 1900 March 1, 0 h, when the day is `n` days after that date -/
def Spec.secondsAt (n : ℕ) (time : DateTimeUtc) : ℤ := n * 86400 + time.hour * 3600 + time.minute * 60 + time.second

/-- **C100.** For every record whose epoch is a number within 45 000 days of J2000, and any two dates from 1900 March 1 to 2100 February 28 to the second: propagation
to each date is propagation to a finite number of minutes, these differ by the time between the dates to within 1.5e-6 minutes (90 microseconds), and the later date has the
strictly larger number. -/
theorem C100_later_date (s : Satrec F64) (he : s.jdsatepoch.Fin) (hr : |s.jdsatepoch.val - 2451545| ≤ 45000)
    (time time' : DateTimeUtc) (d d' : Date) (hd : d.InRange) (hy : time.year = d.year) (hm : time.month = d.month) (hdd : time.day = d.day)
    (hh : time.hour < 24) (hmi : time.minute < 60) (hse : time.second < 60)
    (hd' : d'.InRange) (hy' : time'.year = d'.year) (hm' : time'.month = d'.month) (hdd' : time'.day = d'.day)
    (hh' : time'.hour < 24) (hmi' : time'.minute < 60) (hse' : time'.second < 60) :
    ∃ n n' : ℕ, base.after n = d ∧ base.after n' = d' ∧
      let t : F64 := (jday_datetime time - s.jdsatepoch) * 1440.0
      let t' : F64 := (jday_datetime time' - s.jdsatepoch) * 1440.0
      propogate_datetime s time = (sgp4 s t).map Prod.snd ∧ propogate_datetime s time' = (sgp4 s t').map Prod.snd ∧ t.Fin ∧ t'.Fin ∧
      |(t'.val - t.val) - ((secondsAt n' time' - secondsAt n time : ℤ) : ℝ) / 60| ≤ 3 / (2 * 10 ^ 6) ∧
      (secondsAt n time < secondsAt n' time' → t.val < t'.val) := by
  have one : ∀ (time : DateTimeUtc) (d : Date), d.InRange → time.year = d.year → time.month = d.month → time.day = d.day → time.hour < 24 →
      time.minute < 60 → time.second < 60 → ∃ n : ℕ, base.after n = d ∧ ((jday_datetime time - s.jdsatepoch) * 1440.0 : F64).Fin ∧
        |((jday_datetime time - s.jdsatepoch) * 1440.0 : F64).val - ((2415079.5 - s.jdsatepoch.val) * 1440 + ((secondsAt n time : ℤ) : ℝ) / 60)| ≤ 7 / 10 ^ 7 := by
    intro time d hd hy hm hdd hh hmi hse
    obtain ⟨nD, d1, d2, d3⟩ := C34_f64_error ⟨d, time.hour, time.minute, time.second, 0⟩ ⟨hd.1, hh, hmi, hse, by norm_num⟩ hd
    have ej : (jday_datetime time : F64) = jdOf ⟨d, time.hour, time.minute, time.second, 0⟩ := by
      unfold jday_datetime jdOf
      rw [hy, hm, hdd]; rfl
    refine ⟨nD, d1, ?_⟩
    rw [ej]
    have bD : (nD : ℝ) ≤ 80000 := by
      have h1 := days_bound hd.1 (inRange_cond hd).1 d1 hd.2.2
      exact_mod_cast h1
    have bT : ((Instant.msOfDay ⟨d, time.hour, time.minute, time.second, 0⟩ : ℕ) : ℝ) / 86400000 =
        ((time.hour : ℝ) * 3600 + time.minute * 60 + time.second) / 86400 := by
      simp only [Instant.msOfDay]; push_cast; ring
    rw [bT] at d3
    have t1 : (time.hour : ℝ) ≤ 24 := by exact_mod_cast hh.le
    have t2 : (time.minute : ℝ) ≤ 60 := by exact_mod_cast hmi.le
    have t3 : (time.second : ℝ) ≤ 60 := by exact_mod_cast hse.le
    generalize jdOf ⟨d, time.hour, time.minute, time.second, 0⟩ = X at *
    have p1 : (0 : ℝ) ≤ time.hour := Nat.cast_nonneg _
    have p2 : (0 : ℝ) ≤ time.minute := Nat.cast_nonneg _
    have p3 : (0 : ℝ) ≤ time.second := Nat.cast_nonneg _
    have p4 : (0 : ℝ) ≤ nD := Nat.cast_nonneg _
    have q1 : Q X (2415079.5 + nD + ((time.hour : ℝ) * 3600 + time.minute * 60 + time.second) / 86400) 2600000 (1 / 2 ^ 31) := by
      refine ⟨d2, d3, ?_⟩
      rw [abs_of_nonneg (by positivity)]; norm_num; linarith
    have hr' := abs_le.mp hr
    have q2 : Q s.jdsatepoch s.jdsatepoch.val 2600000 0 := Q.exact he (by rw [abs_le]; constructor <;> linarith [hr'.1, hr'.2])
    have q3 := (q1.sub' q2 90000 (by rw [abs_le]; norm_num; constructor <;> linarith [hr'.1, hr'.2])).mul (Q.int 14400 true 1 1440 (by norm_num))
    refine ⟨q3.fin, ?_⟩
    have e : (2415079.5 - s.jdsatepoch.val) * 1440 + ((secondsAt nD time : ℤ) : ℝ) / 60 =
        (2415079.5 + nD + ((time.hour : ℝ) * 3600 + time.minute * 60 + time.second) / 86400 - s.jdsatepoch.val) * 1440.0 := by
      unfold secondsAt
      push_cast
      norm_num; ring
    rw [e]
    exact q3.err.trans (by norm_num)
  obtain ⟨n, a1, a2, a3⟩ := one time d hd hy hm hdd hh hmi hse
  obtain ⟨n', b1, b2, b3⟩ := one time' d' hd' hy' hm' hdd' hh' hmi' hse'
  refine ⟨n, n', a1, b1, C04_datetime s time, C04_datetime s time', a2, b2, ?_⟩
  generalize ((jday_datetime time - s.jdsatepoch) * 1440.0 : F64).val = x at *
  generalize ((jday_datetime time' - s.jdsatepoch) * 1440.0 : F64).val = x' at *
  have h1 := abs_le.mp a3
  have h2 := abs_le.mp b3
  have h3 : |(x' - x) - ((secondsAt n' time' - secondsAt n time : ℤ) : ℝ) / 60| ≤ 3 / (2 * 10 ^ 6) := by
    push_cast
    rw [abs_le]
    obtain ⟨h1a, h1b⟩ := h1
    obtain ⟨h2a, h2b⟩ := h2
    constructor <;> norm_num at h1a h1b h2a h2b ⊢ <;> linarith
  refine ⟨h3, fun hlt => ?_⟩
  have h4 : (1 : ℝ) ≤ ((secondsAt n' time' - secondsAt n time : ℤ) : ℝ) := by exact_mod_cast (by omega : 1 ≤ secondsAt n' time' - secondsAt n time)
  have h5 := (abs_le.mp h3).1
  generalize ((secondsAt n' time' - secondsAt n time : ℤ) : ℝ) = K at h4 h5
  norm_num at h5
  linarith

/-- **C100**, for the records read from printed element sets. -/
theorem C100_from_text (l1 l2 : Str) (v : Tle) (h : Printed l1 l2 v) (hpos : v.nddotNeg = false ∨ v.nddotMant = 0)
    (hday : v.dayE8 ≤ 400 * 10 ^ 8) (s : Satrec F64) (hs : (twoline2satrec l1 l2 : PRes (Satrec F64)) = .ok s)
    (time time' : DateTimeUtc) (d d' : Date) (hd : d.InRange) (hy : time.year = d.year) (hm : time.month = d.month) (hdd : time.day = d.day)
    (hh : time.hour < 24) (hmi : time.minute < 60) (hse : time.second < 60)
    (hd' : d'.InRange) (hy' : time'.year = d'.year) (hm' : time'.month = d'.month) (hdd' : time'.day = d'.day)
    (hh' : time'.hour < 24) (hmi' : time'.minute < 60) (hse' : time'.second < 60) :
    ∃ n n' : ℕ, base.after n = d ∧ base.after n' = d' ∧
      let t : F64 := (jday_datetime time - s.jdsatepoch) * 1440.0
      let t' : F64 := (jday_datetime time' - s.jdsatepoch) * 1440.0
      propogate_datetime s time = (sgp4 s t).map Prod.snd ∧ propogate_datetime s time' = (sgp4 s t').map Prod.snd ∧ t.Fin ∧ t'.Fin ∧
      |(t'.val - t.val) - ((secondsAt n' time' - secondsAt n time : ℤ) : ℝ) / 60| ≤ 3 / (2 * 10 ^ 6) ∧
      (secondsAt n time < secondsAt n' time' → t.val < t'.val) := by
  obtain ⟨p, hp, -, -, -, -, -, -, -, -, -, hjd, -⟩ := C06_twoline_elements l1 l2 s hs
  obtain ⟨p3, hpar, -, -, -, -, -, -, hjd3, -⟩ := C21_decode (F := F64) l1 l2 v h hpos
  obtain rfl : p3 = p := by rw [hpar] at hp; cases hp; rfl
  have hd8 : (v.dayE8 : ℝ) / 10 ^ 8 ≤ 400 := by
    rw [div_le_iff₀ (by positivity)]; exact_mod_cast hday
  have hq := (q_dec false v.dayE8 8 400 hd8).to (a' := (v.dayE8 : ℝ) / 10 ^ 8) (by simp)
  have hpos0 : 0 ≤ (Arith.ofDec (.num false v.dayE8 (-8)) : F64).val ∧ (Arith.ofDec (.num false v.dayE8 (-8)) : F64).val ≤ 400 := by
    have hr := ofDecimal_rounds false v.dayE8 (-8)
    have e := real_dec false v.dayE8 8
    rw [show (Arith.ofDec (.num false v.dayE8 (-((8 : ℕ) : ℤ))) : ℝ) = decR (.num false v.dayE8 (-8)) from rfl] at e
    rw [e] at hr
    simp only [Bool.false_eq_true, if_false, one_mul] at hr
    exact ⟨hr.ge hq.fin isRep_zero (by positivity), hr.le hq.fin (by simpa using isRep_int 400 (by norm_num)) hd8⟩
  obtain ⟨year, nE, y1, y2, y3, y4, y5, y6⟩ := C24_f64 (v.year : ℤ) (by omega) (by have := h.year.1; omega)
    (Arith.ofDec (.num false v.dayE8 (-8)) : F64) hq.fin hpos0.1 hpos0.2
  have bE : (nE : ℝ) ≤ 80000 := by
    have h1 := days_bound (d := ⟨year, 1, 1⟩) ⟨by simp, by simp, by simp, by simp [monthLength, monthLengthOf]⟩ (by simp; omega) y4
      (by simp only [Date.before]; omega)
    exact_mod_cast h1
  have bE0 : (0 : ℝ) ≤ nE := Nat.cast_nonneg _
  refine C100_later_date s (by rw [hjd, hjd3]; exact y5) ?_ time time' d d' hd hy hm hdd hh hmi hse hd' hy' hm' hdd' hh' hmi' hse'
  rw [hjd, hjd3]
  have g := abs_le.mp y6
  rw [abs_le]
  obtain ⟨g1, g2⟩ := g
  norm_num at g1 g2
  constructor <;> linarith [hpos0.1, hpos0.2]

/-- Two moments one second apart, on either side of the leap day 2000. -/
example : secondsAt 36523 ⟨2000, 2, 28, 23, 59, 59, 0⟩ + 1 = secondsAt 36524 ⟨2000, 2, 29, 0, 0, 0, 0⟩ ∧ (⟨2000, 2, 29⟩ : Date).InRange :=
  ⟨rfl, by decide, by simp [Date.before, base], by simp [Date.before]⟩

end Sat
