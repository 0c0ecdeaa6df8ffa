import Verif.Model.Str
import Verif.Model.Sgp4init
/-! # `/repo/src/io.rs` (parsing) -/

namespace Sat
variable {F : Type} [Arith F]

/-- `io.rs:337-345` -/
inductive SatrecParseError where
  | FloatParseError (name : String) (low high : Nat) (text : Str)
  | IntParseError (name : String) (low high : Nat) (text : Str)
  | CompoundError (name : String) (text : Str)
  | Sgp4InitError (e : SGP4Error)
  | InvalidTLELineCheckFailed
  | InvalidTLEBadLineCount
  | SatrecMultiError (i : Nat) (e : SatrecParseError)
deriving DecidableEq, Repr

/-- Results of the parsing functions. -/
abbrev PRes (α : Type) := Res SatrecParseError α

/-- `io.rs:348-353` (the second slice, of the error message, has the same bounds as the first and cannot panic) -/
def parse_float (line : Str) (name : String) (low high : Nat) : PRes F := do
  let text ← slice line low high
  match parseF64 (trim text) with
  | some d => .ok (Arith.ofDec d)
  | none => .err (.IntParseError name low high text)

/-- `io.rs:355-360` -/
def parse_int (line : Str) (name : String) (low high : Nat) : PRes Int := do
  let text ← slice line low high
  match parseI64 (trim text) with
  | some i => .ok i
  | none => .err (.IntParseError name low high text)

/-- `i64 as u64` -/
def asU64 (i : Int) : Nat := (i % 2 ^ 64).toNat

/-- `io.rs:413-418` -/
def fullYear (epochyr : Int) : Int := if epochyr < 57 then epochyr + 2000 else epochyr + 1900

/-- `io.rs:413-430` -/
def epochJd (epochyr : Int) (epochdays : F) : F :=
  let year := fullYear epochyr
  let jd := days2mdhms (asU64 year) epochdays
  jday (Arith.ofInt year) jd.month jd.day jd.hour jd.minute jd.second 0.0

/-- What is read from the first line (`io.rs:363-392`). -/
structure Line1 (F : Type) where
  satnum : Str
  epochyr : Int
  epochdays : F
  ndot : F
  nddot : F
  bstar : F

/-- `io.rs:374-381` -/
def parseNddot (str1 : Str) : PRes F := do
  let nddot_0 ← parse_int str1 "nndot frac" 44 50
  let nddot_1 ← slice str1 50 52
  let nndot_str := '.' :: (showInt nddot_0 ++ 'E' :: nddot_1)
  match parseF64 nndot_str with
  | some d => .ok (Arith.ofDec d / (XPDOTP * 1440.0 * 1440.0))
  | none => .err (.CompoundError "nndot" nndot_str)

/-- `io.rs:384-392` -/
def parseBstar (str1 : Str) : PRes F := do
  let bstar_0 ← slice str1 53 54
  let bstar_1 ← parse_int str1 "bstar frac" 54 59
  let bstar_2 ← slice str1 59 61
  let bstar_str := bstar_0 ++ '.' :: (showInt bstar_1 ++ 'E' :: bstar_2)
  match parseF64 (trim bstar_str) with
  | some d => .ok (Arith.ofDec d)
  | none => .err (.CompoundError "bstr" bstar_str)

/-- `io.rs:363-392` -/
def parseLine1 (str1 : Str) : PRes (Line1 F) := do
  let satnum ← slice str1 2 7
  let epochyr ← parse_int str1 "epochyr" 18 20
  let epochdays ← parse_float str1 "epochdays" 20 32
  let ndot ← parse_float str1 "ndot" 33 43
  let nddot ← parseNddot str1
  let bstar ← parseBstar str1
  .ok { satnum := trim satnum, epochyr, epochdays, ndot := ndot / (XPDOTP * 1440.0), nddot, bstar }

/-- What is read from the second line (`io.rs:394-406`). -/
structure Line2 (F : Type) where
  inclo : F
  nodeo : F
  ecco : F
  argpo : F
  mo : F
  no : F

/-- `io.rs:398-402` -/
def parseEcco (str2 : Str) : PRes F := do
  let text ← slice str2 26 33
  let ecco_str := '.' :: trim text
  match parseF64 (trim ecco_str) with
  | some d => .ok (Arith.ofDec d)
  | none => .err (.CompoundError "ecco" ecco_str)

/-- `io.rs:394-406` -/
def parseLine2 (str2 : Str) : PRes (Line2 F) := do
  let inclo ← parse_float str2 "inclo" 8 16
  let nodeo ← parse_float str2 "nodeo" 17 25
  let ecco ← parseEcco str2
  let argpo ← parse_float str2 "argpo" 34 42
  let mo ← parse_float str2 "mo" 43 51
  let no ← parse_float str2 "no" 52 63
  .ok { inclo := inclo * DEG_2_RAD, nodeo := nodeo * DEG_2_RAD, ecco, argpo := argpo * DEG_2_RAD,
        mo := mo * DEG_2_RAD, no := no / XPDOTP }

/-- `io.rs:408-452` -/
def buildSatrec (l1 : Line1 F) (l2 : Line2 F) : Satrec F :=
  let a := Arith.powf (l2.no * TUMIN) (-2.0 / 3.0)
  { (Satrec.zero : Satrec F) with
    operationmode := .I, satnum := l1.satnum, epochyr := l1.epochyr, epochdays := l1.epochdays, ndot := l1.ndot,
    nddot := l1.nddot, bstar := l1.bstar, inclo := l2.inclo, nodeo := l2.nodeo, ecco := l2.ecco, argpo := l2.argpo,
    mo := l2.mo, no := l2.no, a, alta := (a * (1.0 + l2.ecco)) - 1.0, altp := (a * (1.0 - l2.ecco)) - 1.0,
    jdsatepoch := epochJd l1.epochyr l1.epochdays }

/-- `io.rs:362-453` -/
def parse_satrec (str1 str2 : Str) : PRes (Satrec F) := do
  let l1 ← parseLine1 str1
  let l2 ← parseLine2 str2
  .ok (buildSatrec l1 l2)

/-- `io.rs:314-326`: the options for `sgp4init`. -/
def tleOptions (s : Satrec F) : SGP4InitOptions F :=
  { opsmode := .I, epoch := s.jdsatepoch - 2433281.5, xbstar := s.bstar, xecco := s.ecco, xargpo := s.argpo,
    xinclo := s.inclo, xmo := s.mo, xno := s.no, xnodeo := s.nodeo }

/-- `io.rs:311-334` -/
def twoline2satrec (str1 str2 : Str) : PRes (Satrec F) := do
  let satrec ← parse_satrec str1 str2
  match sgp4init satrec (tleOptions satrec) with
  | none => .diverge
  | some (_, .error e) => .err (.Sgp4InitError e)
  | some (s, .ok _) => .ok s

/-- `io.rs:234` and `io.rs:274`: the non-blank lines. -/
def tleLines (string : Str) : List Str := (splitLines string).filter (fun el => decide (trim el ≠ []))

/-- `lines[i]`.  Every use below is guarded by a length check, so the index is in range; the default is never returned. -/
def lineAt (lines : List Str) (i : Nat) : Str := lines.getD i []

/-- `io.rs:289-293` -/
def parseName (l : Str) : PRes Str := do
  let b ← firstByte l
  if b = asByte '0' then sliceFrom l 2 else .ok l

/-- `io.rs:273-309` -/
def parse (string : Str) : PRes (Satrec F) :=
  let lines := tleLines string
  if lines.length = 3 then do
    let b1 ← firstByte (lineAt lines 1)
    if b1 ≠ asByte '1' then .err .InvalidTLELineCheckFailed
    else do
      let b2 ← firstByte (lineAt lines 2)
      if b2 ≠ asByte '2' then .err .InvalidTLELineCheckFailed
      else do
        let satrec ← twoline2satrec (lineAt lines 1) (lineAt lines 2)
        let name ← parseName (lineAt lines 0)
        .ok { satrec with name := some name }
  else if lines.length = 2 then do
    let b1 ← firstByte (lineAt lines 0)
    if b1 ≠ asByte '1' then .err .InvalidTLELineCheckFailed
    else do
      let b2 ← firstByte (lineAt lines 1)
      if b2 ≠ asByte '2' then .err .InvalidTLELineCheckFailed
      else twoline2satrec (lineAt lines 0) (lineAt lines 1)
  else .err .InvalidTLEBadLineCount

/-- `io.rs:243-247` -/
def parseMultiName (l : Str) : Res Empty Str := do
  let b ← firstByte l
  if b = asByte '0' then do
    let r ← sliceFrom l 2
    .ok (trim r)
  else .ok (trim l)

/-- The loop `io.rs:238-268` from index `i` on, with the two vectors built so far. -/
def multiLoop (lines : List Str) (i : Nat) (recs : List (Satrec F)) (errors : List SatrecParseError) :
    Res Empty (List (Satrec F) × List SatrecParseError) :=
  if i < lines.length then
    if byteLen (trim (lineAt lines i)) ≠ 25 ∧ i + 2 < lines.length then
      match (twoline2satrec (lineAt lines (i + 1)) (lineAt lines (i + 2)) : PRes (Satrec F)) with
      | .panic => .panic
      | .diverge => .diverge
      | .ok rec =>
        match parseMultiName (lineAt lines i) with
        | .ok name => multiLoop lines (i + 3) (recs ++ [{ rec with name := some name }]) errors
        | .err e => nomatch e
        | .panic => .panic
        | .diverge => .diverge
      | .err e => multiLoop lines (i + 3) recs (errors ++ [.SatrecMultiError i e])
    else if i + 1 < lines.length then
      match (twoline2satrec (lineAt lines i) (lineAt lines (i + 1)) : PRes (Satrec F)) with
      | .panic => .panic
      | .diverge => .diverge
      | .ok rec => multiLoop lines (i + 2) (recs ++ [rec]) errors
      | .err e => multiLoop lines (i + 2) recs (errors ++ [.SatrecMultiError i e])
    else multiLoop lines (i + 1) recs (errors ++ [.SatrecMultiError i .InvalidTLEBadLineCount])
  else .ok (recs, errors)
termination_by lines.length - i

/-- `io.rs:233-271` -/
def parse_multiple (string : Str) : Res Empty (List (Satrec F) × List SatrecParseError) :=
  multiLoop (tleLines string) 0 [] []

end Sat
