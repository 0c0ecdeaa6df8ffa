import Verif.Model.Str
/-!
# What the text of a two-line element set says (specification side)

Nothing here refers to `Verif/Model/Io.lean`.  From the model of the standard library only `isWhite` (the Unicode property
`White_Space`), `trim` and `byteLen` are used.
-/

namespace Sat.Spec

/-- Only ASCII characters. -/
def Ascii (s : Str) : Prop := ∀ c ∈ s, c.toNat < 128

/-- The text in the columns `first .. last` of a line; columns are numbered from 1 as in the TLE format description. -/
def cols (s : Str) (first last : Nat) : Str := (s.drop (first - 1)).take (last + 1 - first)

/-- A line that contains nothing but whitespace. -/
def Blank (s : Str) : Prop := ∀ c ∈ s, isWhite c = true

instance (s : Str) : Decidable (Blank s) := by unfold Blank; infer_instance

/-- The lines put together into one text, separated by newline characters. -/
def joinLines : List Str → Str
  | [] => []
  | [l] => l
  | l :: ls => l ++ '\n' :: joinLines ls

/-- `l` is one line: it contains no newline. -/
def OneLine (l : Str) : Prop := '\n' ∉ l

/-- the last decimal digit of `n` as a character -/
def digit (n : Nat) : Char := Char.ofNat (48 + n % 10)

/-- the last `w` decimal digits of `n`, with leading zeros -/
def fixedDigits : Nat → Nat → Str
  | 0, _ => []
  | w + 1, n => fixedDigits w (n / 10) ++ [digit n]

/-- A fixed-point field: at most `w` digits padded on the left with blanks, a point, and `d` digits; it stands for
`n / 10^d`. -/
def PointField (t : Str) (w d n : Nat) : Prop :=
  ∃ k ≤ w, n < 10 ^ (w - k + d) ∧
    t = List.replicate k ' ' ++ fixedDigits (w - k) (n / 10 ^ d) ++ '.' :: fixedDigits d n

/-- A sign column: blank or `+` for positive, `-` for negative. -/
def SignCol (neg : Bool) (c : Char) : Prop := if neg then c = '-' else c = ' ' ∨ c = '+'

/-- The contents of a two-line element set, as whole numbers in units of the last printed digit. -/
structure Tle where
  /-- satellite number, a text -/
  satnum : Str
  /-- last two digits of the year -/
  year : Nat
  /-- day of year in units of 1e-8 -/
  dayE8 : Nat
  ndotNeg : Bool
  /-- first derivative of mean motion / 2, in units of 1e-8 -/
  ndotE8 : Nat
  nddotNeg : Bool
  /-- five-digit mantissa of the second derivative: the value is `0.mmmmm * 10^exp` -/
  nddotMant : Nat
  nddotExpNeg : Bool
  nddotExp : Nat
  bstarNeg : Bool
  bstarMant : Nat
  bstarExpNeg : Bool
  bstarExp : Nat
  /-- degrees in units of 1e-4 -/
  inclE4 : Nat
  nodeE4 : Nat
  /-- eccentricity in units of 1e-7 -/
  eccE7 : Nat
  argpE4 : Nat
  moE4 : Nat
  /-- revolutions per day in units of 1e-8 -/
  noE8 : Nat

/-- Signed exponent. -/
def sexp (neg : Bool) (e : Nat) : Int := if neg then -(e : Int) else e

/-- The two lines show the contents `v` in the columns of the TLE format.  Nothing is required of the other columns. -/
structure Printed (l1 l2 : Str) (v : Tle) : Prop where
  ascii1 : Ascii l1
  ascii2 : Ascii l2
  satnum : trim (cols l1 3 7) = v.satnum
  year : v.year < 100 ∧ cols l1 19 20 = fixedDigits 2 v.year
  day : PointField (cols l1 21 32) 3 8 v.dayE8
  ndot : v.ndotE8 < 10 ^ 8 ∧ ∃ c, SignCol v.ndotNeg c ∧ cols l1 34 43 = c :: '.' :: fixedDigits 8 v.ndotE8
  nddot : v.nddotMant < 10 ^ 5 ∧ v.nddotExp < 10 ∧ ∃ c, SignCol v.nddotNeg c ∧
    cols l1 45 50 = c :: fixedDigits 5 v.nddotMant ∧
    cols l1 51 52 = [if v.nddotExpNeg then '-' else '+', digit v.nddotExp]
  bstar : v.bstarMant < 10 ^ 5 ∧ v.bstarExp < 10 ∧ ∃ c, SignCol v.bstarNeg c ∧ cols l1 54 54 = [c] ∧
    cols l1 55 59 = fixedDigits 5 v.bstarMant ∧
    cols l1 60 61 = [if v.bstarExpNeg then '-' else '+', digit v.bstarExp]
  incl : PointField (cols l2 9 16) 3 4 v.inclE4
  node : PointField (cols l2 18 25) 3 4 v.nodeE4
  ecc : v.eccE7 < 10 ^ 7 ∧ cols l2 27 33 = fixedDigits 7 v.eccE7
  argp : PointField (cols l2 35 42) 3 4 v.argpE4
  mo : PointField (cols l2 44 51) 3 4 v.moE4
  no : PointField (cols l2 53 63) 2 8 v.noE8

/-- number of decimal digits of a natural number (0 has one) -/
def numDigits (n : Nat) : Nat := if n < 10 then 1 else numDigits (n / 10) + 1
termination_by n

end Sat.Spec
