import Verif.Spec.TleSpec

/-!
A writer for two-line element sets: independent of the crate (which only reads), in the columns of the format description.
-/

namespace Sat.Spec

/-- The values that fit the columns of the format. -/
structure Tle.Fits (v : Tle) : Prop where
  satAscii : Ascii v.satnum
  satTrim : ∀ c ∈ v.satnum, isWhite c = false
  satLength : v.satnum.length ≤ 5
  year : v.year < 100
  day : v.dayE8 < 10 ^ 11
  ndot : v.ndotE8 < 10 ^ 8
  nddot : v.nddotMant < 10 ^ 5
  nddotExp : v.nddotExp < 10
  bstar : v.bstarMant < 10 ^ 5
  bstarExp : v.bstarExp < 10
  incl : v.inclE4 < 10 ^ 7
  node : v.nodeE4 < 10 ^ 7
  ecc : v.eccE7 < 10 ^ 7
  argp : v.argpE4 < 10 ^ 7
  mo : v.moE4 < 10 ^ 7
  no : v.noE8 < 10 ^ 10

/-- a sign as the writer writes it: blank or minus -/
def signChar (neg : Bool) : Char := if neg then '-' else ' '

/-- a sign of an exponent: plus or minus -/
def expChar (neg : Bool) : Char := if neg then '-' else '+'

/-- a fixed-point number: `w` digits, a point, `d` digits -/
def pointDigits (w d n : Nat) : Str := fixedDigits w (n / 10 ^ d) ++ '.' :: fixedDigits d n

/-- The first line, field by field: line number, satellite number, class and designator (any), year, day, derivatives, drag term,
and the last columns (any). -/
def writeFields1 (v : Tle) : List Str :=
  ["1 ".toList, v.satnum ++ List.replicate (5 - v.satnum.length) ' ', "U 98067A   ".toList, fixedDigits 2 v.year,
    pointDigits 3 8 v.dayE8, " ".toList, signChar v.ndotNeg :: '.' :: fixedDigits 8 v.ndotE8, " ".toList,
    signChar v.nddotNeg :: fixedDigits 5 v.nddotMant, [expChar v.nddotExpNeg, digit v.nddotExp], " ".toList, [signChar v.bstarNeg],
    fixedDigits 5 v.bstarMant, [expChar v.bstarExpNeg, digit v.bstarExp], " 0  9990".toList]

/-- The second line, field by field: line number, satellite number, inclination, node, eccentricity, perigee, anomaly, mean motion,
revolution number (any). -/
def writeFields2 (v : Tle) : List Str :=
  ["2 ".toList, v.satnum ++ List.replicate (5 - v.satnum.length) ' ', " ".toList, pointDigits 3 4 v.inclE4, " ".toList,
    pointDigits 3 4 v.nodeE4, " ".toList, fixedDigits 7 v.eccE7, " ".toList, pointDigits 3 4 v.argpE4, " ".toList,
    pointDigits 3 4 v.moE4, " ".toList, pointDigits 2 8 v.noE8, "    10".toList]

/-- The first line of the set. -/
def writeLine1 (v : Tle) : Str := (writeFields1 v).flatten

/-- The second line of the set. -/
def writeLine2 (v : Tle) : Str := (writeFields2 v).flatten

end Sat.Spec
