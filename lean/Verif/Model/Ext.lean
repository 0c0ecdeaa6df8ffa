import Verif.Model.Constants
/-! # `/repo/src/ext.rs` and `/repo/src/propogation/gstime.rs` -/

namespace Sat
variable {F : Type} [Arith F]

/-- `ext.rs:4-10` -/
structure MDHMS (F : Type) where
  month : F
  day : F
  hour : F
  minute : F
  second : F

/-- `ext.rs:49-52`: the array `lmonth` after the leap-year patch. -/
def lmonth (year : Nat) : List Nat :=
  if year % 4 == 0 then [31, 29, 31, 30, 31, 30, 31, 31, 30, 31, 30, 31]
  else [31, 28, 31, 30, 31, 30, 31, 31, 30, 31, 30, 31]

/-- The loop `ext.rs:59-62`.  State `(i, inttemp)`; `lm` is the not yet visited tail of `lmonth`, so its head is
`lmonth[i-1]`.  `i < 12` is the second conjunct of the loop condition.  (The first conjunct indexes `lmonth[i-1]` with
`i <= 12`, so it never panics: the `[]` case is not reached when started with the 12 entries and `i = 1`.) -/
def monthLoop (dayofyr : Nat) : List Nat → Nat → Nat → Nat × Nat
  | [], i, inttemp => (i, inttemp)
  | l :: lm, i, inttemp =>
    if dayofyr > inttemp + l ∧ i < 12 then monthLoop dayofyr lm (i + 1) (inttemp + l)
    else (i, inttemp)

/-- `ext.rs:48-79`.  `dayofyr - inttemp` is a `u64` subtraction; it cannot underflow (`monthLoop_le`), so natural-number
subtraction is exact. -/
def days2mdhms (year : Nat) (days : F) : MDHMS F :=
  let dayofyr := Arith.toU64 (Arith.floor days)
  let st := monthLoop dayofyr (lmonth year) 1 0
  let i := st.1
  let inttemp := st.2
  let month : F := Arith.ofInt (i : Int)
  let day : F := Arith.ofInt ((dayofyr - inttemp : Nat) : Int)
  let temp := (days - Arith.ofInt (dayofyr : Int)) * 24.0
  let hour := Arith.floor temp
  let temp := (temp - hour) * 60.0
  let minute := Arith.floor temp
  let second := (temp - minute) * 60.0
  { month, hour, day, minute, second }

/-- `ext.rs:81-87` -/
def jday (year mon day hr minute sec msec : F) : F :=
  ((367.0 * year) - Arith.floor ((7.0 * (year + Arith.floor ((mon + 9.0) / 12.0))) * 0.25))
    + Arith.floor ((275.0 * mon) / 9.0)
    + day
    + 1721013.5
    + (((((msec / 60000.0) + (sec / 60.0) + minute) / 60.0) + hr) / 24.0)

/-- The getters of `chrono::DateTime<Utc>` used by the crate (`ext.rs:89-99`, `propogation/mod.rs:20-29`), plus the
sub-second part, which the crate never reads.  Simplification: chrono's own representation is not modelled. -/
structure DateTimeUtc where
  year : Int
  month : Nat
  day : Nat
  hour : Nat
  minute : Nat
  second : Nat
  nanosecond : Nat

/-- `ext.rs:89-99` -/
def jday_datetime (time : DateTimeUtc) : F :=
  jday (Arith.ofInt time.year) (Arith.ofInt time.month) (Arith.ofInt time.day) (Arith.ofInt time.hour)
    (Arith.ofInt time.minute) (Arith.ofInt time.second) (Arith.ofInt 0)

/-- `gstime.rs:7-12`: the polynomial, in seconds. -/
def gstPoly (jdut1 : F) : F :=
  let tut1 := (jdut1 - 2451545.0) / 36525.0
  (-6.2e-6 * tut1 * tut1 * tut1)
    + (0.093104 * tut1 * tut1)
    + (((876600.0 * 3600.0) + 8640184.812866) * tut1)
    + 67310.54841

/-- `gstime.rs:6-21` -/
def gstime (jdut1 : F) : F :=
  let temp := gstPoly jdut1
  let temp := Arith.rem ((temp * DEG_2_RAD) / 240.0) TWO_PI
  if temp <. 0.0 then temp + TWO_PI else temp

/-- `gstime.rs:24-27` -/
def gstime_datetime (datetime : DateTimeUtc) : F := gstime (jday_datetime datetime)

end Sat
