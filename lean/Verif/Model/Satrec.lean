import Verif.Model.Vec
/-! # The satellite record: `/repo/src/io.rs:8-231`, and the small enums of `propogation/{dpper,initl,sgp4}.rs` -/

namespace Sat

/-- Rust `String` / `&str`: a sequence of Unicode scalar values. UTF-8 byte offsets are computed from it
(`Verif/Model/Str.lean`). -/
abbrev Str := List Char

/-- `dpper.rs:15-18` -/
inductive DpperInit where | Y | N
deriving DecidableEq, Repr

/-- `dpper.rs:21-25` -/
inductive DpperOpsMode where | A | I | UNDEFINED
deriving DecidableEq, Repr

/-- `initl.rs:86-89` -/
inductive InitlMethod where | N | D
deriving DecidableEq, Repr

/-- `sgp4.rs:100-106` -/
inductive SGP4Error where | Eccentricty | Ep | Nm | Pl | DecayCondition
deriving DecidableEq, Repr

/-- `sgp4.rs:109-117` -/
def SGP4Error.code : SGP4Error → Nat
  | .Eccentricty => 1
  | .Nm => 2
  | .Ep => 3
  | .Pl => 4
  | .DecayCondition => 6

/-- `sgp4.rs:94-97` -/
structure SGP4Result (F : Type) where
  position : Vec3 F
  velocity : Vec3 F

/-- `io.rs:10-29`: identification, epoch and mean elements -/
structure SatElements (F : Type) where
  name : Option Str
  init : DpperInit
  operationmode : DpperOpsMode
  error : Nat
  satnum : Str
  epochyr : Int
  epochdays : F
  ndot : F
  nddot : F
  bstar : F
  inclo : F
  nodeo : F
  ecco : F
  mo : F
  no : F
  a : F
  argpo : F
  alta : F
  altp : F
  jdsatepoch : F

/-- `io.rs:32-58`: "Near Earth Variables" -/
structure SatNear (F : Type) where
  isimp : Int
  method : InitlMethod
  aycof : F
  con41 : F
  cc1 : F
  cc4 : F
  cc5 : F
  d2 : F
  d3 : F
  d4 : F
  delmo : F
  eta : F
  argpdot : F
  omgcof : F
  sinmao : F
  t : F
  t2cof : F
  t3cof : F
  t4cof : F
  t5cof : F
  x1mth2 : F
  x7thm1 : F
  mdot : F
  nodedot : F
  xlcof : F
  xmcof : F
  nodecf : F

/-- `io.rs:61-116`: "Deep space variables" -/
structure SatDeep (F : Type) where
  irez : F
  d2201 : F
  d2211 : F
  d3210 : F
  d3222 : F
  d4410 : F
  d4422 : F
  d5220 : F
  d5232 : F
  d5421 : F
  d5433 : F
  dedt : F
  del1 : F
  del2 : F
  del3 : F
  didt : F
  dmdt : F
  dnodt : F
  domdt : F
  e3 : F
  ee2 : F
  peo : F
  pgho : F
  pho : F
  pinco : F
  plo : F
  se2 : F
  se3 : F
  sgh2 : F
  sgh3 : F
  sgh4 : F
  sh2 : F
  sh3 : F
  si2 : F
  si3 : F
  sl2 : F
  sl3 : F
  sl4 : F
  gsto : F
  xfact : F
  xgh2 : F
  xgh3 : F
  xgh4 : F
  xh2 : F
  xh3 : F
  xi2 : F
  xi3 : F
  xl2 : F
  xl3 : F
  xl4 : F
  xlamo : F
  zmol : F
  zmos : F
  atime : F
  xli : F
  xni : F

/-- `io.rs:9-117`: the same 103 fields in the same order, in the three groups of the source's own comments. -/
structure Satrec (F : Type) extends SatElements F, SatNear F, SatDeep F

variable {F : Type} [Arith F]

/-- `io.rs:120-230` -/
def Satrec.zero : Satrec F where
  name := none
  init := .Y
  operationmode := .I
  error := 0
  satnum := []
  epochyr := 0
  epochdays := 0.0
  ndot := 0.0
  nddot := 0.0
  bstar := 0.0
  inclo := 0.0
  nodeo := 0.0
  ecco := 0.0
  mo := 0.0
  no := 0.0
  a := 0.0
  argpo := 0.0
  alta := 0.0
  altp := 0.0
  jdsatepoch := 0.0
  isimp := 0
  method := .N
  aycof := 0.0
  con41 := 0.0
  cc1 := 0.0
  cc4 := 0.0
  cc5 := 0.0
  d2 := 0.0
  d3 := 0.0
  d4 := 0.0
  delmo := 0.0
  eta := 0.0
  argpdot := 0.0
  omgcof := 0.0
  sinmao := 0.0
  t := 0.0
  t2cof := 0.0
  t3cof := 0.0
  t4cof := 0.0
  t5cof := 0.0
  x1mth2 := 0.0
  x7thm1 := 0.0
  mdot := 0.0
  nodedot := 0.0
  xlcof := 0.0
  xmcof := 0.0
  nodecf := 0.0
  irez := 0.0
  d2201 := 0.0
  d2211 := 0.0
  d3210 := 0.0
  d3222 := 0.0
  d4410 := 0.0
  d4422 := 0.0
  d5220 := 0.0
  d5232 := 0.0
  d5421 := 0.0
  d5433 := 0.0
  dedt := 0.0
  del1 := 0.0
  del2 := 0.0
  del3 := 0.0
  didt := 0.0
  dmdt := 0.0
  dnodt := 0.0
  domdt := 0.0
  e3 := 0.0
  ee2 := 0.0
  peo := 0.0
  pgho := 0.0
  pho := 0.0
  pinco := 0.0
  plo := 0.0
  se2 := 0.0
  se3 := 0.0
  sgh2 := 0.0
  sgh3 := 0.0
  sgh4 := 0.0
  sh2 := 0.0
  sh3 := 0.0
  si2 := 0.0
  si3 := 0.0
  sl2 := 0.0
  sl3 := 0.0
  sl4 := 0.0
  gsto := 0.0
  xfact := 0.0
  xgh2 := 0.0
  xgh3 := 0.0
  xgh4 := 0.0
  xh2 := 0.0
  xh3 := 0.0
  xi2 := 0.0
  xi3 := 0.0
  xl2 := 0.0
  xl3 := 0.0
  xl4 := 0.0
  xlamo := 0.0
  zmol := 0.0
  zmos := 0.0
  atime := 0.0
  xli := 0.0
  xni := 0.0

end Sat
