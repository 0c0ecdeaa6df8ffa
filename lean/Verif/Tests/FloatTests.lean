import Verif.Model.Io
import Verif.Model.Transforms
/-!
# Tests of the model (no theorem depends on this file)

The model is run with Lean's `Float` and compared with the numbers which the crate's own unit tests expect.  Lean has no
`fmod`, so `rem` is approximated; hence the tolerances.
-/

namespace Sat.Tests
open Sat

/-- stand-in for `fmod` -/
def fmod (x y : Float) : Float :=
  let q := x / y
  let n := if q < 0 then -(Float.floor (-q)) else Float.floor q
  x - n * y

/-- `Float` interpretation; for tests only -/
instance : Arith Float where
  rem := fmod
  abs := Float.abs
  sqrt := Float.sqrt
  floor := Float.floor
  sin := Float.sin
  cos := Float.cos
  asin := Float.asin
  atan2 := Float.atan2
  powf := Float.pow
  flt a b := a < b
  fle a b := a ≤ b
  feq a b := a == b
  sci := Float.ofScientific
  pi := 3.141592653589793
  fracPi2 := 1.5707963267948966
  ofInt := Float.ofInt
  toU64 x := x.toUInt64.toNat
  ofDec
    | .nan => 0.0 / 0.0
    | .inf neg => if neg then -1.0 / 0.0 else 1.0 / 0.0
    | .num neg m e =>
      let v := if e < 0 then Float.ofScientific m true e.natAbs else Float.ofScientific m false e.natAbs
      if neg then -v else v

/-- relative/absolute closeness -/
def near (a b : Float) (eps : Float := 1e-12) : Bool :=
  (a - b).abs ≤ eps * (if b.abs > 1.0 then b.abs else 1.0)
/-- relative closeness -/
def rel (a b : Float) (eps : Float := 1e-9) : Bool := (a - b).abs ≤ eps * b.abs

-- gstime.rs:33-36
#guard near (gstime 2444468.79629788) 1.265125075734467 1e-9

-- initl.rs:186-214
def initlTest : InitlReturn Float :=
  initl { ecco := 0.0086731, epoch := 11232.987084649969, inclo := 1.2713589136764896, no := 0.07006731262087737, opsmode := .I }
#guard near initlTest.no 0.07010615621239219
#guard near initlTest.ainv 0.9614303648645832
#guard near initlTest.con41 (-0.7389556198424165)
#guard near initlTest.posq 1.0816804769920354
#guard near initlTest.rp 1.03109589235787
#guard near initlTest.gsto 0.1082901416688955 1e-9

-- dscom.rs:505-598
def dscomTest : DscomResult Float :=
  dscom { epoch := 11187.29629787989, ep := 0.7318036, argpp := 0.8285461931652521, tc := 0.0,
          inclp := 0.8166674822761788, nodep := 4.021856443150141, np := 0.009971131594572634 }
#guard near dscomTest.e3 (-0.00007499513323066247)
#guard near dscomTest.ee2 0.0003984687913511968
#guard near dscomTest.se2 (-0.0023592253136306925)
#guard near dscomTest.se3 (-0.00007047176334622737)
#guard near dscomTest.sgh2 (-0.00018225669552040974)
#guard near dscomTest.sgh3 (-0.0022130294594592042)
#guard near dscomTest.sgh4 (-0.00006154293820943018)
#guard near dscomTest.sh2 (-0.0011394073362677001)
#guard near dscomTest.sh3 0.002509518064658255
#guard near dscomTest.si2 (-0.00005208303756792119)
#guard near dscomTest.si3 0.0032873534354906702
#guard near dscomTest.sl2 0.0027816840121748848
#guard near dscomTest.sl3 0.0033383632815548628
#guard near dscomTest.sl4 0.00025906770677081676
#guard near dscomTest.moon.s1 (-0.0003598896387548552)
#guard near dscomTest.moon.s5 (-0.32951417210709383)
#guard near dscomTest.moon.s6 (-0.5535985875139634)
#guard near dscomTest.moon.s7 0.10419184821509497
#guard near dscomTest.sun.s1 (-0.0022406638674745552)
#guard near dscomTest.sun.s2 (-0.00021974010738653476)
#guard near dscomTest.sun.z1 7.241600464426519
#guard near dscomTest.sun.z2 (-4.643684224593015)
#guard near dscomTest.sun.z3 1.6686076878687435
#guard near dscomTest.sun.z11 5.923151674966536
#guard near dscomTest.sun.z12 0.11851053999055416
#guard near dscomTest.sun.z13 (-1.5569425931864267)
#guard near dscomTest.sun.z21 (-5.5489812856673435)
#guard near dscomTest.sun.z22 (-2.592624873581728)
#guard near dscomTest.sun.z23 0.16121448720509934
#guard near dscomTest.sun.z31 3.273877043602411
#guard near dscomTest.sun.z32 (-0.4464394721650089)
#guard near dscomTest.sun.z33 (-2.1469592167364815)
#guard near dscomTest.xgh2 0.0001510256023997251
#guard near dscomTest.xgh3 0.0003555337415001366
#guard near dscomTest.xgh4 (-0.00003239876027006408)
#guard near dscomTest.xh2 0.00011285895673523819
#guard near dscomTest.xh3 (-0.0004733943404491607)
#guard near dscomTest.xi2 (-0.00006414087517640146)
#guard near dscomTest.xi3 (-0.0005695169725370441)
#guard near dscomTest.xl2 (-0.0007034864707310533)
#guard near dscomTest.xl3 (-0.0005240671434151523)
#guard near dscomTest.xl4 0.00013638400715968452
#guard near dscomTest.zmol 3.5674683899705713 1e-9
#guard near dscomTest.zmos 3.896090412268542 1e-9

/-- run a parser to an option -/
def okOf {ε α : Type} : Res ε α → Option α
  | .ok a => some a
  | _ => none

-- io.rs:529-637 and lib.rs:104-170
def leo1 : Str := "1 88888U          80275.98708465  .00073094  13844-3  66816-4 0    8".toList
def leo2 : Str := "2 88888  72.8435 115.9689 0086731  52.6988 110.5714 16.05824518  105".toList
def leo : Satrec Float := (okOf (twoline2satrec leo1 leo2)).getD Satrec.zero
#guard leo.satnum == "88888".toList
#guard leo.epochyr == 80
#guard leo.epochdays == 275.98708465
#guard rel leo.ndot 2.2148107004387767e-9
#guard rel leo.nddot 2.913090538750181e-13
#guard leo.bstar == 0.000066816
#guard near leo.inclo 1.2713589136764896
#guard near leo.nodeo 2.0240391349160523
#guard leo.ecco == 0.0086731
#guard near leo.argpo 0.9197675718499877
#guard near leo.mo 1.929834988539658
#guard near leo.no 0.07010615621239219
#guard near leo.a 1.0405013051291292
#guard near leo.alta 0.04952567699864474
#guard near leo.altp 0.03147693325961365
#guard near leo.jdsatepoch 2444514.48708465 1e-15
#guard leo.isimp == 1
#guard leo.method == .N
#guard rel leo.aycof 0.001117407997657797
#guard rel leo.con41 (-0.7389556198424165)
#guard rel leo.cc1 2.3340379369349495e-8
#guard rel leo.cc4 0.00037724513079719584
#guard rel leo.cc5 0.01233625966048993
#guard rel leo.delmo 0.6963031736886937
#guard rel leo.eta 0.32347784078169217
#guard rel leo.argpdot (-0.000029718644394179532)
#guard rel leo.omgcof 1.6306928260750368e-7
#guard rel leo.sinmao 0.9362350458581234
#guard rel leo.t2cof 3.5010569054024244e-8
#guard rel leo.x1mth2 0.9129852066141388
#guard rel leo.x7thm1 (-0.3908964462989719)
#guard rel leo.mdot 0.07006729343154267
#guard rel leo.nodedot (-0.00003096533062994484)
#guard rel leo.xlcof 0.0019306451483792333
#guard rel leo.xmcof (-0.0000493564796620572)
#guard rel leo.nodecf (-2.5361112971222384e-12)

/-- position and velocity as a list -/
def run (s : Satrec Float) (t : Float) : List Float :=
  match sgp4 s t with
  | some (_, .ok r) => [r.position.x, r.position.y, r.position.z, r.velocity.x, r.velocity.y, r.velocity.z]
  | _ => []

/-- all components within the given tolerances -/
def close (a b : List Float) (p v : Float) : Bool :=
  a.length == 6 && ((a.zip b).zip [p, p, p, v, v, v]).all (fun ((x, y), e) => (x - y).abs < e)
#guard close (run leo 0.0) [2328.97048951, -5995.22076416, 1719.97067261, 2.91207230, -0.98341546, -7.09081703] 0.1 0.1
#guard close (run leo 360.0) [2456.10705566, -6071.93853760, 1222.89727783, 2.67938992, -0.44829041, -7.22879231] 0.1 0.1

-- lib.rs:172-237
def ds1 : Str := "1 11801U          80230.29629788  .01431103  00000-0  14311-1        ".toList
def ds2 : Str := "2 11801  46.7916 230.4354 7318036  47.4722  10.4117  2.28537848      ".toList
def dsat : Satrec Float := (okOf (twoline2satrec ds1 ds2)).getD Satrec.zero
#guard dsat.method == .D
#guard close (run dsat 0.0) [7473.37066650, 428.95261765, 5828.74786377, 5.10715413, 6.44468284, -0.18613096] 50.0 0.1
#guard close (run dsat 360.0) [-3305.22537232, 32410.86328125, -24697.17675781, -1.30113538, -1.15131518, -0.28333528] 50.0 0.1
-- dspace.rs:339-346: the secular rates the same satellite has there
#guard rel dsat.dedt 2.63860646954029e-8
#guard rel dsat.didt (-3.4767374233712414e-8)
#guard rel dsat.dmdt 8.037814266648781e-8
#guard rel dsat.dnodt (-6.033631312091549e-8)
#guard rel dsat.domdt 9.465204025716937e-9

-- io.rs:458-474
def issText : Str := "\n0 ISS (ZARYA)\n1 25544U 98067A   19085.83761025  .00001292  00000-0  28282-4 0  9995\n2 25544  51.6446  50.5941 0002332 117.0184 328.1109 15.52438493162461\n".toList
#guard (okOf (parse issText : PRes (Satrec Float))).map (·.name) == some (some "ISS (ZARYA)".toList)
#guard (okOf (parse (issText.drop 15) : PRes (Satrec Float))).map (·.name) == some none
-- lib.rs:240-248
#guard (okOf (parse_multiple "Test".toList : Res Empty (List (Satrec Float) × _))).map (·.2)
  == some [.SatrecMultiError 0 .InvalidTLEBadLineCount]

-- transforms.rs:195-233
def obs : Geodedic Float := { longitude := -122.0308 * DEG_2_RAD, latitude := 36.9613422 * DEG_2_RAD, height := 0.370 }
def pos : Vec3 Float := { x := 2328.957357263014, y := -5995.219305262678, z := 1720.0073114076358 }
#guard near (ecf_to_look_angles obs pos).azimuth 1.747132515004105
#guard near (ecf_to_look_angles obs pos).elevation (-0.40791001471599636)
#guard near (ecf_to_look_angles obs pos).range 5703.24291019934
#guard near (topocentric obs pos).top_s 918.3964944158424
#guard near (topocentric obs pos).top_e 5154.118963234977
#guard near (topocentric obs pos).top_z (-2262.429067309148)

end Sat.Tests
