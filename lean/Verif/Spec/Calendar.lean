/-!
# The proleptic Gregorian calendar (specification side)

Nothing here refers to the crate.
-/

namespace Sat.Spec

/-- Gregorian leap-year rule -/
def leapYear (y : Nat) : Bool := y % 4 == 0 && (y % 100 != 0 || y % 400 == 0)

/-- length of month `m` (1 = January) of a leap or ordinary year -/
def monthLengthOf (leap : Bool) (m : Nat) : Nat :=
  match m with
  | 1 => 31 | 2 => if leap then 29 else 28 | 3 => 31 | 4 => 30 | 5 => 31 | 6 => 30
  | 7 => 31 | 8 => 31 | 9 => 30 | 10 => 31 | 11 => 30 | 12 => 31 | _ => 0

/-- length of month `m` (1 = January) of year `y` -/
def monthLength (y m : Nat) : Nat := monthLengthOf (leapYear y) m

/-- length of a year -/
def yearLength (y : Nat) : Nat := if leapYear y then 366 else 365

structure Date where
  year : Nat
  month : Nat
  day : Nat
deriving DecidableEq, Repr

/-- a date that exists in the calendar -/
def Date.Valid (d : Date) : Prop := 1 ≤ d.month ∧ d.month ≤ 12 ∧ 1 ≤ d.day ∧ d.day ≤ monthLength d.year d.month

instance (d : Date) : Decidable d.Valid := by unfold Date.Valid; infer_instance

/-- the day after -/
def Date.next (d : Date) : Date :=
  if d.day < monthLength d.year d.month then { d with day := d.day + 1 }
  else if d.month < 12 then { d with month := d.month + 1, day := 1 }
  else { year := d.year + 1, month := 1, day := 1 }

/-- `n` days after `d`: counting days one by one -/
def Date.after (d : Date) : Nat → Date
  | 0 => d
  | n + 1 => (d.after n).next

/-- days in the months before month `m` of a leap or ordinary year -/
def daysBeforeOf (leap : Bool) : Nat → Nat
  | 0 => 0
  | m + 1 => daysBeforeOf leap m + monthLengthOf leap m

/-- days in the months of year `y` before month `m` -/
def daysBeforeMonth (y m : Nat) : Nat := daysBeforeOf (leapYear y) m

/-- day of the year: 1 for January 1 -/
def Date.dayOfYear (d : Date) : Nat := daysBeforeMonth d.year d.month + d.day

/-- calendar order -/
def Date.before (a b : Date) : Prop :=
  a.year < b.year ∨ (a.year = b.year ∧ (a.month < b.month ∨ (a.month = b.month ∧ a.day < b.day)))

/-- 1900-03-01, whose noon-based Julian date at 0h is 2415079.5 -/
def base : Date := ⟨1900, 3, 1⟩

/-- the range in which the Julian-date formula of the crate is meant to be valid -/
def Date.InRange (d : Date) : Prop :=
  d.Valid ∧ ¬ d.before base ∧ d.before ⟨2100, 3, 1⟩

/-- A date and a time of day.  Seconds and milliseconds may be fractional. -/
structure Instant where
  date : Date
  hour : Nat
  minute : Nat
  sec : Nat
  msec : Nat

def Instant.Valid (t : Instant) : Prop :=
  t.date.Valid ∧ t.hour < 24 ∧ t.minute < 60 ∧ t.sec < 60 ∧ t.msec < 1000

/-- milliseconds since midnight -/
def Instant.msOfDay (t : Instant) : Nat := ((t.hour * 60 + t.minute) * 60 + t.sec) * 1000 + t.msec

/-- earlier in the lexicographic order of (date, hour, minute, second, millisecond) -/
def Instant.before (a b : Instant) : Prop :=
  a.date.before b.date ∨ (a.date = b.date ∧ (a.hour < b.hour ∨ (a.hour = b.hour ∧ (a.minute < b.minute ∨ (a.minute = b.minute ∧
    (a.sec < b.sec ∨ (a.sec = b.sec ∧ a.msec < b.msec)))))))

end Sat.Spec
