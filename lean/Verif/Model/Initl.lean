import Verif.Model.Satrec
import Verif.Model.Ext
/-! # `/repo/src/propogation/initl.rs` -/

namespace Sat
variable {F : Type} [Arith F]

/-- `initl.rs:55-64`.  Simplification: the fields `satn` and `method`, which `initl` never reads, are left out. -/
structure InitlOptions (F : Type) where
  opsmode : DpperOpsMode
  ecco : F
  epoch : F
  inclo : F
  no : F

/-- `initl.rs:67-83` -/
structure InitlReturn (F : Type) where
  no : F
  method : InitlMethod
  ainv : F
  ao : F
  con41 : F
  con42 : F
  cosio : F
  cosio2 : F
  eccsq : F
  omeosq : F
  posq : F
  rp : F
  rteosq : F
  sinio : F
  gsto : F

/-- `initl.rs:114-122`: removing the Kozai correction from the mean motion. -/
def unkozai (no cosio2 rteosq omeosq : F) : F :=
  let ak := Arith.powf (XKE / no) X2O3
  let d1 := (0.75 * J2 * ((3.0 * cosio2) - 1.0)) / (rteosq * omeosq)
  let del_prime := d1 / (ak * ak)
  let adel := ak * (1.0 - (del_prime * del_prime)
      - (del_prime * ((1.0 / 3.0) + ((134.0 * del_prime * del_prime) / 81.0))))
  let del_prime := d1 / (adel * adel)
  no / (1.0 + del_prime)

/-- `initl.rs:139-151`: sidereal time at epoch in AFSPC mode. -/
def gstoAfspc (epoch : F) : F :=
  let ts70 := epoch - 7305.0
  let ds70 := Arith.floor (ts70 + 1.0e-8)
  let tfrac := ts70 - ds70
  let c1 : F := 1.72027916940703639e-2
  let thgr70 : F := 1.7321343856509374
  let fk5r : F := 5.07551419432269442e-15
  let c1p2p := c1 + TWO_PI
  let gsto := Arith.rem (thgr70 + (c1 * ds70) + (c1p2p * tfrac) + (ts70 * ts70 * fk5r)) TWO_PI
  if gsto <. 0.0 then gsto + TWO_PI else gsto

/-- `initl.rs:91-177` -/
def initl (options : InitlOptions F) : InitlReturn F :=
  let ecco := options.ecco
  let eccsq := ecco * ecco
  let omeosq := 1.0 - eccsq
  let rteosq := Arith.sqrt omeosq
  let cosio := Arith.cos options.inclo
  let cosio2 := cosio * cosio
  let no := unkozai options.no cosio2 rteosq omeosq
  let ao := Arith.powf (XKE / no) X2O3
  let sinio := Arith.sin options.inclo
  let po := ao * omeosq
  let con42 := 1.0 - (5.0 * cosio2)
  let con41 := -con42 - cosio2 - cosio2
  let ainv := 1.0 / ao
  let posq := po * po
  let rp := ao * (1.0 - ecco)
  let gsto := if options.opsmode = .A then gstoAfspc options.epoch else gstime (options.epoch + 2433281.5)
  { no, method := .N, ainv, ao, con41, con42, cosio, cosio2, eccsq, omeosq, posq, rp, rteosq, sinio, gsto }

end Sat
