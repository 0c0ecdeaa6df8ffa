import Verif.Model.Sgp4
import Verif.Model.Initl
import Verif.Model.Dsinit
/-! # `/repo/src/propogation/sgp4init.rs` and `/repo/src/propogation/mod.rs` -/

namespace Sat
variable {F : Type} [Arith F]

/-- `sgp4init.rs:92-103`.  Simplification: `satn`, which nothing reads, is left out. -/
structure SGP4InitOptions (F : Type) where
  opsmode : DpperOpsMode
  epoch : F
  xbstar : F
  xecco : F
  xargpo : F
  xinclo : F
  xmo : F
  xno : F
  xnodeo : F

/-- `sgp4init.rs:181-293` -/
def resetSatrec (s : Satrec F) (o : SGP4InitOptions F) : Satrec F :=
  { s with
    isimp := 0
    method := .N
    aycof := 0.0
    con41 := 0.0
    cc1 := 0.0
    cc4 := 0.0
    cc5 := 0.0
    d2 := 0.0
    d3 := 0.0
    d4 := 0.0
    delmo := 0.0
    eta := 0.0
    argpdot := 0.0
    omgcof := 0.0
    sinmao := 0.0
    t2cof := 0.0
    t3cof := 0.0
    t4cof := 0.0
    t5cof := 0.0
    x1mth2 := 0.0
    x7thm1 := 0.0
    mdot := 0.0
    nodedot := 0.0
    xlcof := 0.0
    xmcof := 0.0
    nodecf := 0.0
    irez := 0.0
    d2201 := 0.0
    d2211 := 0.0
    d3210 := 0.0
    d3222 := 0.0
    d4410 := 0.0
    d4422 := 0.0
    d5220 := 0.0
    d5232 := 0.0
    d5421 := 0.0
    d5433 := 0.0
    dedt := 0.0
    del1 := 0.0
    del2 := 0.0
    del3 := 0.0
    didt := 0.0
    dmdt := 0.0
    dnodt := 0.0
    domdt := 0.0
    e3 := 0.0
    ee2 := 0.0
    peo := 0.0
    pgho := 0.0
    pho := 0.0
    pinco := 0.0
    plo := 0.0
    se2 := 0.0
    se3 := 0.0
    sgh2 := 0.0
    sgh3 := 0.0
    sgh4 := 0.0
    sh2 := 0.0
    sh3 := 0.0
    si2 := 0.0
    si3 := 0.0
    sl2 := 0.0
    sl3 := 0.0
    sl4 := 0.0
    gsto := 0.0
    xfact := 0.0
    xgh2 := 0.0
    xgh3 := 0.0
    xgh4 := 0.0
    xh2 := 0.0
    xh3 := 0.0
    xi2 := 0.0
    xi3 := 0.0
    xl2 := 0.0
    xl3 := 0.0
    xl4 := 0.0
    xlamo := 0.0
    zmol := 0.0
    zmos := 0.0
    atime := 0.0
    xli := 0.0
    xni := 0.0
    bstar := o.xbstar
    ecco := o.xecco
    argpo := o.xargpo
    inclo := o.xinclo
    mo := o.xmo
    no := o.xno
    nodeo := o.xnodeo
    operationmode := o.opsmode
    init := .Y
    t := 0.0 }

/-- `sgp4init.rs:295-307`: the call of `initl`, on the record as reset. -/
def initlOf (s : Satrec F) (epoch : F) : InitlReturn F :=
  initl { ecco := s.ecco, epoch, inclo := s.inclo, no := s.no, opsmode := s.operationmode }

/-- `sgp4init.rs:343-358`: `(sfour, qzms24)` -/
def dragParams (rp : F) : F × F :=
  let ss : F := (78.0 / EARTH_RADIUS) + 1.0
  let qzms2ttemp : F := (120.0 - 78.0) / EARTH_RADIUS
  let qzms2t := qzms2ttemp * qzms2ttemp * qzms2ttemp * qzms2ttemp
  let perige := (rp - 1.0) * EARTH_RADIUS
  if perige <. 156.0 then
    let sfour := perige - 78.0
    let sfour := if perige <. 98.0 then 20.0 else sfour
    let qzms24temp := (120.0 - sfour) / EARTH_RADIUS
    let qzms24 := qzms24temp * qzms24temp * qzms24temp * qzms24temp
    let sfour := (sfour / EARTH_RADIUS) + 1.0
    (sfour, qzms24)
  else (ss, qzms2t)

/-- Locals of `sgp4init.rs:359-409` that are used later. -/
structure NearTmp (F : Type) where
  sfour : F
  tsi : F
  xpidot : F

/-- `sgp4init.rs:338-430`: the near-earth coefficients (`isimp` as left by lines 338-342). -/
def initNear (s : Satrec F) (i : InitlReturn F) : Satrec F × NearTmp F :=
  let isimp : Int := if i.rp <. (220.0 / EARTH_RADIUS) + 1.0 then 1 else 0
  let dp := dragParams i.rp
  let sfour := dp.1
  let qzms24 := dp.2
  let ao := i.ao
  let omeosq := i.omeosq
  let cosio := i.cosio
  let cosio2 := i.cosio2
  let pinvsq := 1.0 / i.posq
  let tsi := 1.0 / (ao - sfour)
  let eta := ao * s.ecco * tsi
  let etasq := eta * eta
  let eeta := s.ecco * eta
  let psisq := Arith.abs (1.0 - etasq)
  let coef := qzms24 * powi4 tsi
  let coef1 := coef / Arith.powf psisq 3.5
  let cc2 := coef1 * s.no * ((ao * (1.0 + (1.5 * etasq) + (eeta * (4.0 + etasq))))
      + (((0.375 * J2 * tsi) / psisq) * s.con41 * (8.0 + (3.0 * etasq * (8.0 + etasq)))))
  let cc1 := s.bstar * cc2
  let cc3 := if s.ecco >. 1.0e-4 then (-2.0 * coef * tsi * J3OJ2 * s.no * i.sinio) / s.ecco else 0.0
  let x1mth2 := 1.0 - cosio2
  let cc4 := 2.0 * s.no * coef1 * ao * omeosq
      * (((eta * (2.0 + (0.5 * etasq))) + (s.ecco * (0.5 + (2.0 * etasq))))
        - (((J2 * tsi) / (ao * psisq))
          * ((-3.0 * s.con41 * ((1.0 - (2.0 * eeta)) + (etasq * (1.5 - (0.5 * eeta)))))
            + (0.75 * x1mth2 * ((2.0 * etasq) - (eeta * (1.0 + etasq))) * Arith.cos (2.0 * s.argpo)))))
  let cc5 := 2.0 * coef1 * ao * omeosq * (1.0 + (2.75 * (etasq + eeta)) + (eeta * etasq))
  let cosio4 := cosio2 * cosio2
  let temp1 := 1.5 * J2 * pinvsq * s.no
  let temp2 := 0.5 * temp1 * J2 * pinvsq
  let temp3 := -0.46875 * J4 * pinvsq * pinvsq * s.no
  let mdot := s.no + (0.5 * temp1 * i.rteosq * s.con41)
      + (0.0625 * temp2 * i.rteosq * ((13.0 - (78.0 * cosio2)) + (137.0 * cosio4)))
  let argpdot := (-0.5 * temp1 * i.con42)
      + (0.0625 * temp2 * ((7.0 - (114.0 * cosio2)) + (395.0 * cosio4)))
      + (temp3 * ((3.0 - (36.0 * cosio2)) + (49.0 * cosio4)))
  let xhdot1 := -temp1 * cosio
  let nodedot := xhdot1
      + (((0.5 * temp2 * (4.0 - (19.0 * cosio2))) + (2.0 * temp3 * (3.0 - (7.0 * cosio2)))) * cosio)
  let xpidot := argpdot + nodedot
  let omgcof := s.bstar * cc3 * Arith.cos s.argpo
  let xmcof := if s.ecco >. 1.0e-4 then (-X2O3 * coef * s.bstar) / eeta else 0.0
  let nodecf := 3.5 * omeosq * xhdot1 * cc1
  let t2cof := 1.5 * cc1
  let xlcof := xlcofOf i.sinio cosio
  let aycof := aycofOf i.sinio
  let delmotemp := 1.0 + (eta * Arith.cos s.mo)
  let delmo := delmotemp * delmotemp * delmotemp
  let sinmao := Arith.sin s.mo
  let x7thm1 := (7.0 * cosio2) - 1.0
  ({ s with isimp, eta, cc1, x1mth2, cc4, cc5, mdot, argpdot, nodedot, omgcof, xmcof, nodecf, t2cof, xlcof, aycof,
            delmo, sinmao, x7thm1 }, { sfour, tsi, xpidot })

/-- `sgp4init.rs:492-553`: storing what `dscom` returned. -/
def storeDscom (s : Satrec F) (d : DscomResult F) : Satrec F :=
  { s with
    e3 := d.e3, ee2 := d.ee2, peo := d.peo, pgho := d.pgho, pho := d.pho, pinco := d.pinco, plo := d.plo,
    se2 := d.se2, se3 := d.se3, sgh2 := d.sgh2, sgh3 := d.sgh3, sgh4 := d.sgh4, sh2 := d.sh2, sh3 := d.sh3,
    si2 := d.si2, si3 := d.si3, sl2 := d.sl2, sl3 := d.sl3, sl4 := d.sl4, xgh2 := d.xgh2, xgh3 := d.xgh3,
    xgh4 := d.xgh4, xh2 := d.xh2, xh3 := d.xh3, xi2 := d.xi2, xi3 := d.xi3, xl2 := d.xl2, xl3 := d.xl3,
    xl4 := d.xl4, zmol := d.zmol, zmos := d.zmos }

/-- `sgp4init.rs:568-585`: the call of `dpper` and the elements it hands back. -/
def initDpper (s : Satrec F) : Satrec F :=
  let r := dpper s { init := s.init, ep := s.ecco, inclp := s.inclo, nodep := s.nodeo, argpp := s.argpo, mp := s.mo,
                     opsmode := s.operationmode }
  { s with ecco := r.ep, inclo := r.inclp, nodeo := r.nodep, argpo := r.argpp, mo := r.mp }

/-- The resonance fields of a record, as handed to `dsinit` (`sgp4init.rs:640-662`). -/
def resonanceOf (s : Satrec F) : Resonance F :=
  { atime := s.atime, d2201 := s.d2201, d2211 := s.d2211, d3210 := s.d3210, d3222 := s.d3222, d4410 := s.d4410,
    d4422 := s.d4422, d5220 := s.d5220, d5232 := s.d5232, d5421 := s.d5421, d5433 := s.d5433, del1 := s.del1,
    del2 := s.del2, del3 := s.del3, xfact := s.xfact, xlamo := s.xlamo, xli := s.xli, xni := s.xni }

/-- `sgp4init.rs:667-695` -/
def storeDsinit (s : Satrec F) (d : DinitResult F) : Satrec F :=
  { s with
    irez := d.irez, atime := d.res.atime, d2201 := d.res.d2201, d2211 := d.res.d2211, d3210 := d.res.d3210,
    d3222 := d.res.d3222, d4410 := d.res.d4410, d4422 := d.res.d4422, d5220 := d.res.d5220, d5232 := d.res.d5232,
    d5421 := d.res.d5421, d5433 := d.res.d5433, dedt := d.rates.dedt, didt := d.rates.didt, dmdt := d.rates.dmdt,
    dnodt := d.rates.dnodt, domdt := d.rates.domdt, del1 := d.res.del1, del2 := d.res.del2, del3 := d.res.del3,
    xfact := d.res.xfact, xlamo := d.res.xlamo, xli := d.res.xli, xni := d.res.xni }

/-- `sgp4init.rs:433-696`: deep-space initialisation. -/
def initDeep (s : Satrec F) (i : InitlReturn F) (epoch xpidot : F) : Satrec F :=
  if TWO_PI / s.no ≥. 225.0 then
    let s := { s with method := .D, isimp := 1 }
    let inclm := s.inclo
    let d := dscom { epoch, ep := s.ecco, argpp := s.argpo, tc := 0.0, inclp := s.inclo, nodep := s.nodeo, np := s.no }
    let s := storeDscom s d
    let s := initDpper s
    let r := dsinit
      { cosim := d.q.cosim, emsq := d.q.emsq, argpo := s.argpo, sun := d.sun, moon := d.moon, sinim := d.q.sinim,
        t := s.t, tc := 0.0, gsto := s.gsto, mo := s.mo, mdot := s.mdot, no := s.no, nodeo := s.nodeo,
        nodedot := s.nodedot, xpidot, ecco := s.ecco, eccsq := i.eccsq, em := d.q.em, argpm := 0.0, inclm, mm := 0.0,
        nm := d.q.nm, nodem := 0.0 } (resonanceOf s)
    storeDsinit s r
  else s

/-- `sgp4init.rs:699-713` -/
def initDrag (s : Satrec F) (i : InitlReturn F) (n : NearTmp F) : Satrec F :=
  if s.isimp ≠ 1 then
    let ao := i.ao
    let tsi := n.tsi
    let cc1sq := s.cc1 * s.cc1
    let d2 := 4.0 * ao * tsi * cc1sq
    let temp := (d2 * tsi * s.cc1) / 3.0
    let d3 := ((17.0 * ao) + n.sfour) * temp
    let d4 := 0.5 * temp * ao * tsi * ((221.0 * ao) + (31.0 * n.sfour)) * s.cc1
    let t3cof := d2 + (2.0 * cc1sq)
    let t4cof := 0.25 * ((3.0 * d3) + (s.cc1 * ((12.0 * d2) + (10.0 * cc1sq))))
    let t5cof := 0.2 * ((3.0 * d4) + (12.0 * s.cc1 * d3) + (6.0 * d2 * d2) + (15.0 * cc1sq * ((2.0 * d2) + cc1sq)))
    { s with d2, d3, d4, t3cof, t4cof, t5cof }
  else s

/-- `sgp4init.rs:181-326`: the record when the coefficients are about to be computed. -/
def initStart (satrec : Satrec F) (o : SGP4InitOptions F) : Satrec F :=
  let s := resetSatrec satrec o
  let i := initlOf s o.epoch
  { s with no := i.no, con41 := i.con41, gsto := i.gsto, error := 0 }

/-- `sgp4init.rs:337-718` -/
def initFinish (s : Satrec F) (i : InitlReturn F) (epoch : F) : Satrec F :=
  if (i.omeosq ≥. 0.0) || (s.no ≥. 0.0) then
    let p := initNear s i
    let s := initDeep p.1 i epoch p.2.xpidot
    initDrag s i p.2
  else s

/-- `sgp4init.rs:181-718`: the record handed to the final `sgp4` call. -/
def initRecord (satrec : Satrec F) (o : SGP4InitOptions F) : Satrec F :=
  initFinish (initStart satrec o) (initlOf (resetSatrec satrec o) o.epoch) o.epoch

/-- `sgp4init.rs:104-725` -/
def sgp4init (satrec : Satrec F) (o : SGP4InitOptions F) : Option (Sgp4Out F) :=
  match sgp4 (initRecord satrec o) 0.0 with
  | none => none
  | some (s, .error e) => some (s, .error e)
  | some (s, .ok r) => some ({ s with init := .N }, .ok r)

/-- `propogation/mod.rs:20-34`.  The record is cloned (line 32), so the result is all there is. -/
def propogate_datetime (satrec : Satrec F) (time : DateTimeUtc) : Option (Except SGP4Error (SGP4Result F)) :=
  let j := jday (Arith.ofInt time.year) (Arith.ofInt time.month) (Arith.ofInt time.day) (Arith.ofInt time.hour)
    (Arith.ofInt time.minute) (Arith.ofInt time.second) (Arith.ofInt 0)
  let m := (j - satrec.jdsatepoch) * MINUTES_PER_DAY
  match sgp4 satrec m with
  | none => none
  | some out => some out.2

end Sat
