import Verif.Model.Satrec
import Verif.Model.Dscom
/-! # `/repo/src/propogation/dsinit.rs` -/

namespace Sat
variable {F : Type} [Arith F]

/-- `dsinit.rs:3-75`.  Simplifications: the solar/lunar sums are passed as the two `PassOut`s they come from
(`ss1..ss5, sz*` = `sun`, `s1..s5, z*` = `moon`); the fields that `dsinit` overwrites before reading (`irez`, `dedt`,
`didt`, `dmdt`, `dnodt`, `domdt`) are left out; the resonance fields it may leave untouched are in `keep`. -/
structure DsinitOptions (F : Type) where
  cosim : F
  argpo : F
  sun : PassOut F
  moon : PassOut F
  sinim : F
  t : F
  tc : F
  gsto : F
  mo : F
  mdot : F
  no : F
  nodeo : F
  nodedot : F
  xpidot : F
  ecco : F
  eccsq : F
  emsq : F
  em : F
  argpm : F
  inclm : F
  mm : F
  nm : F
  nodem : F

/-- The resonance quantities which `dsinit` hands back (`dsinit.rs:84-95,102-108`). -/
structure Resonance (F : Type) where
  atime : F
  d2201 : F
  d2211 : F
  d3210 : F
  d3222 : F
  d4410 : F
  d4422 : F
  d5220 : F
  d5232 : F
  d5421 : F
  d5433 : F
  del1 : F
  del2 : F
  del3 : F
  xfact : F
  xlamo : F
  xli : F
  xni : F

/-- The secular rates (`dsinit.rs:96-98,100-101`). -/
structure SecularRates (F : Type) where
  dedt : F
  didt : F
  dmdt : F
  dnodt : F
  domdt : F

/-- `dsinit.rs:77-109` -/
structure DinitResult (F : Type) where
  em : F
  argpm : F
  inclm : F
  mm : F
  nm : F
  nodem : F
  irez : F
  dndt : F
  rates : SecularRates F
  res : Resonance F

/-- `dsinit.rs:310-316` -/
def resonanceClass (nm em : F) : F :=
  let irez : F := 0.0
  let irez := if (nm <. 0.0052359877) && (nm >. 0.0034906585) then 1.0 else irez
  if (nm ≥. 8.26e-3) && (nm ≤. 9.24e-3) && (em ≥. 0.5) then 2.0 else irez

/-- `dsinit.rs:319-350` -/
def secularRates (o : DsinitOptions F) : SecularRates F :=
  let ZNL : F := 1.5835218e-4
  let ZNS : F := 1.19459e-5
  let ses := o.sun.s1 * ZNS * o.sun.s5
  let sis := o.sun.s2 * ZNS * (o.sun.z11 + o.sun.z13)
  let sls := -ZNS * o.sun.s3 * ((o.sun.z1 + o.sun.z3) - 14.0 - (6.0 * o.emsq))
  let sghs := o.sun.s4 * ZNS * ((o.sun.z31 + o.sun.z33) - 6.0)
  let shs := -ZNS * o.sun.s2 * (o.sun.z21 + o.sun.z23)
  let flat := (o.inclm <. 5.2359877e-2) || (o.inclm >. (Arith.pi - 5.2359877e-2))
  let shs := if flat then 0.0 else shs
  let shs := if o.sinim ==. 0.0 then shs else shs / o.sinim
  let sgs := sghs - (o.cosim * shs)
  let dedt := ses + (o.moon.s1 * ZNL * o.moon.s5)
  let didt := sis + (o.moon.s2 * ZNL * (o.moon.z11 + o.moon.z13))
  let dmdt := sls - (ZNL * o.moon.s3 * ((o.moon.z1 + o.moon.z3) - 14.0 - (6.0 * o.emsq)))
  let sghl := o.moon.s4 * ZNL * ((o.moon.z31 + o.moon.z33) - 6.0)
  let shll := -ZNL * o.moon.s2 * (o.moon.z21 + o.moon.z23)
  let shll := if flat then 0.0 else shll
  let domdt := sgs + sghl
  let dnodt := shs
  let domdt := if o.sinim ==. 0.0 then domdt else domdt - (o.cosim / o.sinim) * shll
  let dnodt := if o.sinim ==. 0.0 then dnodt else dnodt + shll / o.sinim
  { dedt, didt, dmdt, dnodt, domdt }

/-- The `g` polynomials in the eccentricity (`dsinit.rs:382-411`). -/
structure GCoef (F : Type) where
  g201 : F
  g211 : F
  g310 : F
  g322 : F
  g410 : F
  g422 : F
  g520 : F
  g521 : F
  g532 : F
  g533 : F

/-- `dsinit.rs:381-411` (here `em`, `emsq` are `ecco`, `eccsq`, set at lines 378-380) -/
def gCoef (em emsq : F) : GCoef F :=
  let eoc := em * emsq
  { g201 := -0.306 - ((em - 0.64) * 0.440)
    g211 := if em ≤. 0.65 then (3.616 - (13.2470 * em)) + (16.2900 * emsq)
      else ((-72.099 + (331.819 * em)) - (508.738 * emsq)) + (266.724 * eoc)
    g310 := if em ≤. 0.65 then ((-19.302 + (117.3900 * em)) - (228.4190 * emsq)) + (156.5910 * eoc)
      else ((-346.844 + (1582.851 * em)) - (2415.925 * emsq)) + (1246.113 * eoc)
    g322 := if em ≤. 0.65 then ((-18.9068 + (109.7927 * em)) - (214.6334 * emsq)) + (146.5816 * eoc)
      else ((-342.585 + (1554.908 * em)) - (2366.899 * emsq)) + (1215.972 * eoc)
    g410 := if em ≤. 0.65 then ((-41.122 + (242.6940 * em)) - (471.0940 * emsq)) + (313.9530 * eoc)
      else ((-1052.797 + (4758.686 * em)) - (7193.992 * emsq)) + (3651.957 * eoc)
    g422 := if em ≤. 0.65 then ((-146.407 + (841.8800 * em)) - (1629.014 * emsq)) + (1083.4350 * eoc)
      else ((-3581.690 + (16178.110 * em)) - (24462.770 * emsq)) + (12422.520 * eoc)
    g520 := if em ≤. 0.65 then ((-532.114 + (3017.977 * em)) - (5740.032 * emsq)) + (3708.2760 * eoc)
      else if em >. 0.715 then ((-5149.66 + (29936.92 * em)) - (54087.36 * emsq)) + (31324.56 * eoc)
      else (1464.74 - (4664.75 * em)) + (3763.64 * emsq)
    g533 := if em <. 0.7 then ((-919.22770 + (4988.6100 * em)) - (9064.7700 * emsq)) + (5542.21 * eoc)
      else ((-37995.780 + (161616.52 * em)) - (229838.20 * emsq)) + (109377.94 * eoc)
    g521 := if em <. 0.7 then ((-822.71072 + (4568.6173 * em)) - (8491.4146 * emsq)) + (5337.524 * eoc)
      else ((-51752.104 + (218913.95 * em)) - (309468.16 * emsq)) + (146349.42 * eoc)
    g532 := if em <. 0.7 then ((-853.66600 + (4690.2500 * em)) - (8624.7700 * emsq)) + (5341.4 * eoc)
      else ((-40023.880 + (170470.89 * em)) - (242699.48 * emsq)) + (115605.82 * eoc) }

/-- The `f` functions of the inclination (`dsinit.rs:412-432`). -/
structure FCoef (F : Type) where
  f220 : F
  f221 : F
  f321 : F
  f322 : F
  f441 : F
  f442 : F
  f522 : F
  f523 : F
  f542 : F
  f543 : F

/-- `dsinit.rs:376,412-432` -/
def fCoef (sinim cosim : F) : FCoef F :=
  let cosisq := cosim * cosim
  let sini2 := sinim * sinim
  let f220 := 0.75 * (1.0 + (2.0 * cosim) + cosisq)
  { f220
    f221 := 1.5 * sini2
    f321 := 1.875 * sinim * (1.0 - (2.0 * cosim) - (3.0 * cosisq))
    f322 := -1.875 * sinim * ((1.0 + (2.0 * cosim)) - (3.0 * cosisq))
    f441 := 35.0 * sini2 * f220
    f442 := 39.3750 * sini2 * sini2
    f522 := 9.84375 * sinim * ((sini2 * (1.0 - (2.0 * cosim) - (5.0 * cosisq)))
      + (0.33333333 * (-2.0 + (4.0 * cosim) + (6.0 * cosisq))))
    f523 := sinim * ((4.92187512 * sini2 * ((-2.0 - (4.0 * cosim)) + (10.0 * cosisq)))
      + (6.56250012 * ((1.0 + (2.0 * cosim)) - (3.0 * cosisq))))
    f542 := 29.53125 * sinim
      * ((2.0 - (8.0 * cosim)) + (cosisq * (-12.0 + (8.0 * cosim) + (10.0 * cosisq))))
    f543 := 29.53125 * sinim
      * ((-2.0 - (8.0 * cosim)) + (cosisq * ((12.0 + (8.0 * cosim)) - (10.0 * cosisq)))) }

/-- `dsinit.rs:375-459`: twelve-hour resonance. -/
def halfDay (o : DsinitOptions F) (r : SecularRates F) (theta aonv : F) (k : Resonance F) : Resonance F :=
  let ROOT22 : F := 1.7891679e-6
  let ROOT44 : F := 7.3636953e-9
  let ROOT54 : F := 2.1765803e-9
  let RPTIM : F := 4.37526908801129966e-3
  let ROOT32 : F := 3.7393792e-7
  let ROOT52 : F := 1.1428639e-7
  let g := gCoef o.ecco o.eccsq
  let f := fCoef o.sinim o.cosim
  let xno2 := o.nm * o.nm
  let ainv2 := aonv * aonv
  let temp1 := 3.0 * xno2 * ainv2
  let temp := temp1 * ROOT22
  let d2201 := temp * f.f220 * g.g201
  let d2211 := temp * f.f221 * g.g211
  let temp1 := temp1 * aonv
  let temp := temp1 * ROOT32
  let d3210 := temp * f.f321 * g.g310
  let d3222 := temp * f.f322 * g.g322
  let temp1 := temp1 * aonv
  let temp := 2.0 * temp1 * ROOT44
  let d4410 := temp * f.f441 * g.g410
  let d4422 := temp * f.f442 * g.g422
  let temp1 := temp1 * aonv
  let temp := temp1 * ROOT52
  let d5220 := temp * f.f522 * g.g520
  let d5232 := temp * f.f523 * g.g532
  let temp := 2.0 * temp1 * ROOT54
  let d5421 := temp * f.f542 * g.g521
  let d5433 := temp * f.f543 * g.g533
  let xlamo := Arith.rem ((o.mo + o.nodeo + o.nodeo) - (theta + theta)) TWO_PI
  let xfact := (o.mdot + r.dmdt + (2.0 * ((o.nodedot + r.dnodt) - RPTIM))) - o.no
  { k with d2201, d2211, d3210, d3222, d4410, d4422, d5220, d5232, d5421, d5433, xlamo, xfact }

/-- `dsinit.rs:462-476`: synchronous resonance. -/
def synchronous (o : DsinitOptions F) (r : SecularRates F) (theta aonv : F) (k : Resonance F) : Resonance F :=
  let Q22 : F := 1.7891679e-6
  let Q31 : F := 2.1460748e-6
  let Q33 : F := 2.2123015e-7
  let RPTIM : F := 4.37526908801129966e-3
  let emsq := o.emsq
  let g200 := 1.0 + (emsq * (-2.5 + (0.8125 * emsq)))
  let g310 := 1.0 + (2.0 * emsq)
  let g300 := 1.0 + (emsq * (-6.0 + (6.60937 * emsq)))
  let f220 := 0.75 * (1.0 + o.cosim) * (1.0 + o.cosim)
  let f311 := (0.9375 * o.sinim * o.sinim * (1.0 + (3.0 * o.cosim))) - (0.75 * (1.0 + o.cosim))
  let f330 := 1.0 + o.cosim
  let f330 := f330 * (1.875 * f330 * f330)
  let del1 := 3.0 * o.nm * o.nm * aonv * aonv
  let del2 := 2.0 * del1 * f220 * g200 * Q22
  let del3 := 3.0 * del1 * f330 * g300 * Q33 * aonv
  let del1 := del1 * f311 * g310 * Q31 * aonv
  let xlamo := Arith.rem ((o.mo + o.nodeo + o.argpo) - theta) TWO_PI
  let xfact := (o.mdot + o.xpidot + r.dmdt + r.domdt + r.dnodt) - (o.no + RPTIM)
  { k with del1, del2, del3, xlamo, xfact }

/-- `dsinit.rs:191-524` -/
def dsinit (o : DsinitOptions F) (keep : Resonance F) : DinitResult F :=
  let RPTIM : F := 4.37526908801129966e-3
  let irez := resonanceClass o.nm o.em
  let r := secularRates o
  let dndt : F := 0.0
  let theta := Arith.rem (o.gsto + (o.tc * RPTIM)) TWO_PI
  let em := o.em + r.dedt * o.t
  let inclm := o.inclm + r.didt * o.t
  let argpm := o.argpm + r.domdt * o.t
  let nodem := o.nodem + r.dnodt * o.t
  let mm := o.mm + r.dmdt * o.t
  if irez ==. 0.0 then
    { em, argpm, inclm, mm, nm := o.nm, nodem, irez, dndt, rates := r, res := keep }
  else
    let aonv := Arith.powf (o.nm / XKE) X2O3
    let k := if irez ==. 2.0 then halfDay o r theta aonv keep else keep
    let k := if irez ==. 1.0 then synchronous o r theta aonv k else k
    { em, argpm, inclm, mm, nm := o.no + dndt, nodem, irez, dndt, rates := r,
      res := { k with xli := k.xlamo, xni := o.no, atime := 0.0 } }

end Sat
