import Verif.Props.Time
/-!
# C34 outside its range: by how much the Julian date is wrong, in every year

`jday` follows the calendar in which every fourth year is a leap year.  The step from one day to the next is right except at the end of
February of a century year that is not a leap year.
-/

namespace Sat
open Spec

/-- 28 February of a year that the Gregorian calendar, but not the rule "every fourth year", makes an ordinary year (1800, 1900, 2100, …) -/
def Spec.Date.LostLeapDay (d : Date) : Prop := d.month = 2 ∧ d.day = 28 ∧ d.year % 100 = 0 ∧ d.year % 400 ≠ 0

instance (d : Date) : Decidable d.LostLeapDay := by unfold Date.LostLeapDay; infer_instance

/-- how many of the `n` days from `d` on are such days -/
def Spec.lostDays (d : Date) : ℕ → ℕ
  | 0 => 0
  | n + 1 => Spec.lostDays d n + if (d.after n).LostLeapDay then 1 else 0

/-- the whole number in `jday` -/
def dayCount (y m d : ℤ) : ℤ := 367 * y - (7 * (y + (m + 9) / 12)) / 4 + (275 * m) / 9 + d

theorem jday_dayCount (d : Date) (h mi s ms : ℝ) :
    jday (d.year : ℝ) (d.month : ℝ) (d.day : ℝ) h mi s ms =
      1721013.5 + (dayCount d.year d.month d.day : ℝ) + (h * 3600 + mi * 60 + s + ms / 1000) / 86400 := by
  rw [jday_split]
  have f1 : ⌊((d.month : ℝ) + 9) / 12⌋ = ((d.month : ℤ) + 9) / 12 := by
    have := floor_div_int ((d.month : ℤ) + 9) 12
    push_cast at this; exact this
  have f2 : ⌊275 * (d.month : ℝ) / 9⌋ = (275 * (d.month : ℤ)) / 9 := by
    have := floor_div_int (275 * (d.month : ℤ)) 9
    push_cast at this; exact this
  have f3 : ⌊7 * ((d.year : ℝ) + ((((d.month : ℤ) + 9) / 12 : ℤ) : ℝ)) / 4⌋ = (7 * ((d.year : ℤ) + ((d.month : ℤ) + 9) / 12)) / 4 := by
    have := floor_div_int (7 * ((d.year : ℤ) + ((d.month : ℤ) + 9) / 12)) 4
    push_cast at this ⊢; exact this
  rw [f1, f3, f2, dayCount]
  push_cast; ring

/-- C34, the step from day to day in every year: the Julian date advances by one day, and by two over a lost leap day. -/
theorem dayCount_next {d : Date} (hv : d.Valid) :
    dayCount d.next.year d.next.month d.next.day = dayCount d.year d.month d.day + 1 + if d.LostLeapDay then 1 else 0 := by
  obtain ⟨y, m, k⟩ := d
  obtain ⟨h1, h2, h3, h4⟩ := hv
  simp only at h1 h2 h3 h4
  unfold Date.next
  simp only [dayCount]
  by_cases hk : k < monthLength y m
  · rw [if_pos hk]
    simp only
    by_cases hc : m = 2 ∧ k = 28 ∧ y % 100 = 0 ∧ y % 400 ≠ 0
    · exfalso
      obtain ⟨rfl, rfl, hc1, hc2⟩ := hc
      have : leapYear y = false := by simp [leapYear, hc1, hc2]
      simp [monthLength, monthLengthOf, this] at hk
    · rw [if_neg (show ¬ (⟨y, m, k⟩ : Date).LostLeapDay from hc)]; push_cast; ring
  · rw [if_neg hk]
    have hke : k = monthLength y m := by omega
    by_cases hm : m < 12
    · rw [if_pos hm]
      simp only
      by_cases h2' : m = 2
      · subst h2'
        by_cases hl : leapYear y = true
        · have hl' := hl
          simp only [leapYear, Bool.and_eq_true, beq_iff_eq, Bool.or_eq_true, bne_iff_ne] at hl'
          simp only [monthLength, monthLengthOf, hl, if_true] at hke
          subst hke
          rw [if_neg (show ¬ (⟨y, 2, 29⟩ : Date).LostLeapDay by simp [Date.LostLeapDay])]
          push_cast; omega
        · simp only [monthLength, monthLengthOf, hl] at hke
          have hke : k = 28 := by simpa using hke
          subst hke
          have hl' : ¬ (y % 4 = 0 ∧ (y % 100 ≠ 0 ∨ y % 400 = 0)) := by
            intro hh; apply hl
            simp [leapYear, hh.1, hh.2]
          by_cases hc : y % 100 = 0 ∧ y % 400 ≠ 0
          · rw [if_pos (show (⟨y, 2, 28⟩ : Date).LostLeapDay from ⟨rfl, rfl, hc⟩)]; push_cast; omega
          · rw [if_neg (show ¬ (⟨y, 2, 28⟩ : Date).LostLeapDay from fun h => hc h.2.2)]
            have hr : y % 4 = 1 ∨ y % 4 = 2 ∨ y % 4 = 3 := by omega
            rcases hr with hr | hr | hr <;> obtain ⟨q, hq⟩ : ∃ q, y = 4 * q + y % 4 := ⟨y / 4, by omega⟩ <;> rw [hr] at hq <;> subst hq <;>
              push_cast <;> omega
      · rw [if_neg (show ¬ (⟨y, m, k⟩ : Date).LostLeapDay from fun h => h2' h.1)]
        have : m = 1 ∨ m = 3 ∨ m = 4 ∨ m = 5 ∨ m = 6 ∨ m = 7 ∨ m = 8 ∨ m = 9 ∨ m = 10 ∨ m = 11 := by omega
        rcases this with rfl | rfl | rfl | rfl | rfl | rfl | rfl | rfl | rfl | rfl <;>
          simp only [monthLength, monthLengthOf] at hke <;> subst hke <;> push_cast <;> omega
    · rw [if_neg hm]
      have hm : m = 12 := by omega
      subst hm
      simp only [monthLength, monthLengthOf] at hke
      subst hke
      rw [if_neg (show ¬ (⟨y, 12, 31⟩ : Date).LostLeapDay by simp [Date.LostLeapDay])]
      push_cast; omega

theorem after_valid {d : Date} (hv : d.Valid) (n : ℕ) : (d.after n).Valid := by
  induction n with
  | zero => exact hv
  | succ n ih => exact next_valid ih

/-- C34 in every year: over any `n` days from any date the Julian date advances by `n` and by one more for each lost leap day among them. -/
theorem C34_every_year (d : Date) (hv : d.Valid) (n : ℕ) (h mi s ms : ℝ) :
    jday ((d.after n).year : ℝ) (d.after n).month (d.after n).day h mi s ms =
      jday (d.year : ℝ) d.month d.day h mi s ms + n + lostDays d n := by
  rw [jday_dayCount, jday_dayCount]
  have key : dayCount (d.after n).year (d.after n).month (d.after n).day = dayCount d.year d.month d.day + n + (lostDays d n : ℕ) := by
    induction n with
    | zero => simp [Date.after, lostDays]
    | succ n ih =>
      rw [Date.after, dayCount_next (after_valid hv n), ih, lostDays]
      by_cases hc : (d.after n).LostLeapDay
      · rw [if_pos hc, if_pos hc]; push_cast; ring
      · rw [if_neg hc, if_neg hc]; push_cast; ring
  rw [key]; push_cast; ring

theorem lostDays_pos {d : Date} {n k : ℕ} (hk : k < n) (h : (d.after k).LostLeapDay) : 1 ≤ lostDays d n := by
  induction n with
  | zero => omega
  | succ n ih =>
    rw [lostDays]
    by_cases e : k = n
    · subst e; rw [if_pos h]; omega
    · have := ih (by omega); omega

theorem before_irrefl (a : Date) : ¬ a.before a := by
  obtain ⟨y, m, d⟩ := a; simp only [Date.before]; omega

theorem next_before {d : Date} : d.before d.next := by
  obtain ⟨y, m, k⟩ := d
  unfold Date.next
  simp only
  split
  · exact Or.inr ⟨rfl, Or.inr ⟨rfl, Nat.lt_succ_self _⟩⟩
  · split
    · exact Or.inr ⟨rfl, Or.inl (Nat.lt_succ_self _)⟩
    · exact Or.inl (Nat.lt_succ_self _)

theorem before_trans {a b c : Date} (h : a.before b) (h' : b.before c) : a.before c := by
  obtain ⟨y, m, k⟩ := a
  obtain ⟨y', m', k'⟩ := b
  obtain ⟨y'', m'', k''⟩ := c
  simp only [Date.before] at *; omega

theorem after_before {d : Date} {n : ℕ} (hn : 1 ≤ n) : d.before (d.after n) := by
  induction n with
  | zero => omega
  | succ n ih =>
    by_cases e : n = 0
    · subst e; exact next_before
    · exact before_trans (ih (by omega)) next_before

theorem next_le {a b : Date} (ha : a.Valid) (hb : b.Valid) (h : a.before b) : a.next = b ∨ a.next.before b := by
  rcases before_trichotomy a.next b with h1 | h1 | h1
  · exact Or.inr h1
  · exact Or.inl h1
  · exfalso
    obtain ⟨y, m, k⟩ := a
    obtain ⟨y', m', k'⟩ := b
    obtain ⟨a1, a2, a3, a4⟩ := ha
    obtain ⟨b1, b2, b3, b4⟩ := hb
    simp only at a1 a2 a3 a4 b1 b2 b3 b4
    unfold Date.next at h1
    simp only at h1
    split at h1
    · simp only [Date.before] at h h1; omega
    · rename_i hk
      split at h1
      · simp only [Date.before] at h h1
        by_cases e : y = y' ∧ m = m'
        · obtain ⟨rfl, rfl⟩ := e; omega
        · omega
      · simp only [Date.before] at h h1
        by_cases e : y = y' ∧ m = m'
        · obtain ⟨rfl, rfl⟩ := e; omega
        · omega

/-- counting days passes every date on the way -/
theorem passes {d : Date} (hv : d.Valid) (n : ℕ) {x : Date} (hx : x.Valid) (h1 : ¬ x.before d) (h2 : x.before (d.after n)) :
    ∃ k < n, d.after k = x := by
  induction n with
  | zero => exact absurd h2 h1
  | succ n ih =>
    rcases before_trichotomy x (d.after n) with h | h | h
    · obtain ⟨k, hk, e⟩ := ih h
      exact ⟨k, by omega, e⟩
    · exact ⟨n, by omega, h.symm⟩
    · exfalso
      rcases next_le (after_valid hv n) hx h with e | e
      · rw [Date.after, e] at h2; exact before_irrefl _ h2
      · exact before_irrefl _ (before_trans e h2)

theorem base_value : jday ((base.year : ℕ) : ℝ) ((base.month : ℕ) : ℝ) ((base.day : ℕ) : ℝ) 0 0 0 0 = 2415079.5 := by
  rw [jday_dayCount]; simp only [base, dayCount]; norm_num

/-- C34: the calendar range of the property is the largest possible one.  A date reached by counting `n` days from 1900-03-01 has the
right Julian date exactly when it is before 2100-03-01; a date from which 1900-03-01 is reached by counting `n ≥ 1` days never has. -/
theorem C34_right_iff (d : Date) (hv : d.Valid) (n : ℕ) :
    (base.after n = d → (jday (d.year : ℝ) d.month d.day 0 0 0 0 = 2415079.5 + n ↔ d.before ⟨2100, 3, 1⟩)) ∧
    (1 ≤ n → d.after n = base → jday (d.year : ℝ) d.month d.day 0 0 0 0 ≤ 2415079.5 - n - 1) := by
  constructor
  · rintro rfl
    have hb : ¬ (base.after n).before base := by
      intro h
      by_cases e : n = 0
      · subst e; exact before_irrefl _ h
      · exact before_irrefl _ (before_trans h (after_before (by omega)))
    constructor
    · intro h
      by_contra hlate
      have hE := C34_every_year base (by decide) n 0 0 0 0
      rw [base_value, h] at hE
      have h28 : (⟨2100, 2, 28⟩ : Date).before (base.after n) := by
        rcases before_trichotomy ⟨2100, 3, 1⟩ (base.after n) with h | h | h
        · exact before_trans (by unfold Date.before; decide) h
        · rw [← h]; unfold Date.before; decide
        · exact absurd h hlate
      obtain ⟨k, hk, e⟩ := passes (d := base) (by decide) n (x := ⟨2100, 2, 28⟩) (by decide) (by simp only [Date.before, base]; omega) h28
      have := lostDays_pos hk (by rw [e]; decide)
      have : (1 : ℝ) ≤ (lostDays base n : ℝ) := by exact_mod_cast this
      linarith
    · intro h
      obtain ⟨n', h1, h2⟩ := C34_jday_counts_days (base.after n) ⟨hv, hb, h⟩
      have s1 := (serial_after n).2.2
      have s2 := (serial_after n').2.2
      rw [h1, s1] at s2
      have : n' = n := by omega
      rw [this] at h2; exact h2
  · intro hn hd
    have hE := C34_every_year d hv n 0 0 0 0
    rw [hd, base_value] at hE
    have hlt : d.before base := by rw [← hd]; exact after_before hn
    have hx : ¬ (⟨1900, 2, 28⟩ : Date).before d := by
      intro h
      rcases next_le (a := ⟨1900, 2, 28⟩) (by decide) hv h with e | e
      · rw [← e] at hlt; exact before_irrefl _ hlt
      · have e' : (⟨1900, 2, 28⟩ : Date).next = base := by decide
        rw [e'] at e
        exact before_irrefl _ (before_trans hlt e)
    obtain ⟨k, hk, e⟩ := passes hv n (x := ⟨1900, 2, 28⟩) (by decide) hx (by rw [hd]; unfold Date.before; decide)
    have := lostDays_pos hk (by rw [e]; decide)
    have : (1 : ℝ) ≤ (lostDays d n : ℝ) := by exact_mod_cast this
    linarith

/-- a date of each kind -/
example : ∃ n, base.after n = ⟨2100, 3, 1⟩ := by
  obtain ⟨n, h, _⟩ := reached (d := ⟨2100, 3, 1⟩) (by decide) (by simp only [Date.before, base]; omega)
  exact ⟨n, h⟩
example : (⟨1900, 2, 27⟩ : Date).after 2 = base := by decide

end Sat
