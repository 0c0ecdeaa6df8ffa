import Verif.Spec.Calendar
/-! Facts about the calendar specification: a serial day number and its relation to counting days one by one. -/

namespace Sat.Spec

/-- days in the years from 1900 to `1900 + n - 1` -/
def daysInYears : Nat → Nat
  | 0 => 0
  | n + 1 => daysInYears n + yearLength (1900 + n)

/-- serial number of a date in or after 1900 (January 1 1900 = 1) -/
def serial (d : Date) : Nat := daysInYears (d.year - 1900) + d.dayOfYear

theorem monthLength_le (y m : Nat) : monthLength y m ≤ 31 := by
  unfold monthLength monthLengthOf; split <;> (try split) <;> omega

theorem daysBeforeMonth_succ (y m : Nat) (_h : 1 ≤ m) : daysBeforeMonth y (m + 1) = daysBeforeMonth y m + monthLength y m := by
  rfl

theorem daysBeforeMonth_13 (y : Nat) : daysBeforeMonth y 13 = yearLength y := by
  simp only [daysBeforeMonth, yearLength]
  cases leapYear y <;> rfl

theorem next_valid {d : Date} (h : d.Valid) : d.next.Valid := by
  obtain ⟨h1, h2, h3, h4⟩ := h
  unfold Date.next
  split
  · exact ⟨h1, h2, by simp, by simp only; omega⟩
  · split
    · refine ⟨by simp, by simp only; omega, by simp, ?_⟩
      simp only
      have : d.month + 1 = 2 ∨ d.month + 1 = 3 ∨ d.month + 1 = 4 ∨ d.month + 1 = 5 ∨ d.month + 1 = 6 ∨ d.month + 1 = 7 ∨ d.month + 1 = 8 ∨
        d.month + 1 = 9 ∨ d.month + 1 = 10 ∨ d.month + 1 = 11 ∨ d.month + 1 = 12 := by omega
      rcases this with e | e | e | e | e | e | e | e | e | e | e <;> rw [e] <;> simp only [monthLength, monthLengthOf] <;> (try split) <;> omega
    · refine ⟨by simp, by simp, by simp, ?_⟩
      simp [monthLength, monthLengthOf]

theorem next_year (d : Date) : d.year ≤ d.next.year := by
  unfold Date.next; split
  · exact Nat.le_refl _
  · split
    · exact Nat.le_refl _
    · simp only; omega

theorem serial_next {d : Date} (h : d.Valid) (hy : 1900 ≤ d.year) : serial d.next = serial d + 1 := by
  obtain ⟨h1, h2, h3, h4⟩ := h
  unfold Date.next
  split
  · simp only [serial, Date.dayOfYear]; omega
  · split
    · simp only [serial, Date.dayOfYear]
      rw [daysBeforeMonth_succ _ _ h1]; omega
    · have hm : d.month = 12 := by omega
      simp only [serial, Date.dayOfYear]
      have e : d.year + 1 - 1900 = (d.year - 1900) + 1 := by omega
      rw [e, daysInYears]
      have e2 : 1900 + (d.year - 1900) = d.year := by omega
      rw [e2, ← daysBeforeMonth_13, daysBeforeMonth_succ _ 12 (by omega), hm]
      rw [hm] at h4
      have : monthLength d.year 12 = 31 := rfl
      rename_i hlt _
      rw [hm] at hlt
      have e3 : daysBeforeMonth (d.year + 1) 1 = 0 := rfl
      rw [e3]; omega

theorem daysBeforeMonth_mono (y : Nat) {m n : Nat} (h1 : 1 ≤ m) (h : m < n) :
    daysBeforeMonth y m + monthLength y m ≤ daysBeforeMonth y n := by
  induction n with
  | zero => omega
  | succ n ih =>
    rw [daysBeforeMonth_succ _ _ (by omega)]
    by_cases e : m = n
    · subst e; exact Nat.le_refl _
    · have := ih (by omega); omega

theorem dayOfYear_le {d : Date} (h : d.Valid) : d.dayOfYear ≤ yearLength d.year := by
  obtain ⟨h1, h2, h3, h4⟩ := h
  have := daysBeforeMonth_mono d.year (m := d.month) (n := 13) h1 (by omega)
  rw [daysBeforeMonth_13] at this
  simp only [Date.dayOfYear]; omega

theorem daysInYears_mono {m n : Nat} (h : m < n) : daysInYears m + yearLength (1900 + m) ≤ daysInYears n := by
  induction n with
  | zero => omega
  | succ n ih =>
    rw [daysInYears]
    by_cases e : m = n
    · subst e; exact Nat.le_refl _
    · have := ih (by omega); omega

/-- The serial number is strictly increasing in the calendar order. -/
theorem serial_lt {a b : Date} (ha : a.Valid) (hb : b.Valid) (hy : 1900 ≤ a.year) (h : a.before b) : serial a < serial b := by
  have hbd : 1 ≤ b.dayOfYear := by have := hb.2.2.1; simp only [Date.dayOfYear]; omega
  rcases h with h | ⟨e, h⟩
  · have h1 := daysInYears_mono (m := a.year - 1900) (n := b.year - 1900) (by omega)
    have e1 : 1900 + (a.year - 1900) = a.year := by omega
    rw [e1] at h1
    have h2 := dayOfYear_le ha
    simp only [serial]; omega
  · simp only [serial, Date.dayOfYear, ← e]
    rcases h with h | ⟨e2, h⟩
    · have h1 := daysBeforeMonth_mono a.year ha.1 h
      have := ha.2.2.2
      have := hb.2.2.1
      omega
    · rw [← e2]; omega

theorem before_trichotomy (a b : Date) : a.before b ∨ a = b ∨ b.before a := by
  obtain ⟨y, m, d⟩ := a
  obtain ⟨y', m', d'⟩ := b
  simp only [Date.before, Date.mk.injEq]
  omega

/-- Counting `n` days from the base date gives the date with serial number `60 + n`. -/
theorem serial_after (n : Nat) : (base.after n).Valid ∧ 1900 ≤ (base.after n).year ∧ serial (base.after n) = 60 + n := by
  induction n with
  | zero => exact ⟨by decide, by decide, by decide⟩
  | succ n ih =>
    obtain ⟨h1, h2, h3⟩ := ih
    refine ⟨next_valid h1, Nat.le_trans h2 (next_year _), ?_⟩
    rw [Date.after, serial_next h1 h2, h3]; omega

/-- Every valid date from the base date on is reached by counting. -/
theorem reached {d : Date} (hv : d.Valid) (hb : ¬ d.before base) : ∃ n, base.after n = d ∧ serial d = 60 + n := by
  have hy : 1900 ≤ d.year := by
    simp only [Date.before, base] at hb; omega
  have hs : 60 ≤ serial d := by
    rcases before_trichotomy d base with h | h | h
    · exact absurd h hb
    · subst h; decide
    · have := serial_lt (a := base) (by decide) hv (by decide) h
      have e : serial base = 60 := by decide
      omega
  obtain ⟨h1, h2, h3⟩ := serial_after (serial d - 60)
  refine ⟨serial d - 60, ?_, by omega⟩
  rcases before_trichotomy (base.after (serial d - 60)) d with h | h | h
  · have := serial_lt h1 hv h2 h; omega
  · exact h
  · have := serial_lt hv h1 hy h; omega

/-- closed form of the number of days in the years 1900 .. y-1, until 2100 -/
theorem daysInYears_closed (n : Nat) (h1 : 1 ≤ n) (h2 : n ≤ 200) : daysInYears n = 365 * n + (n - 1) / 4 := by
  induction n with
  | zero => omega
  | succ n ih =>
    rw [daysInYears]
    by_cases e : n = 0
    · subst e; decide
    · rw [ih (by omega) (by omega)]
      have hl : leapYear (1900 + n) = decide (n % 4 = 0) := by
        unfold leapYear
        by_cases hn : n = 100
        · subst hn; decide
        · have : (1900 + n) % 100 ≠ 0 := by omega
          by_cases h4 : n % 4 = 0
          · have : (1900 + n) % 4 = 0 := by omega
            simp [*]
          · have : (1900 + n) % 4 ≠ 0 := by omega
            simp [*]
      simp only [yearLength, hl, decide_eq_true_eq]
      split <;> omega

end Sat.Spec
