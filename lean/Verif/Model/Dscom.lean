import Verif.Model.Satrec
/-! # `/repo/src/propogation/dscom.rs` -/

namespace Sat
variable {F : Type} [Arith F]

/-- `dscom.rs:3-11` -/
structure DscomOptions (F : Type) where
  epoch : F
  ep : F
  argpp : F
  tc : F
  inclp : F
  nodep : F
  np : F

/-- The orientation of the perturbing body used by one pass of the loop (`dscom.rs:275-281`, `358-364`). -/
structure BodyFrame (F : Type) where
  zcosg : F
  zsing : F
  zcosi : F
  zsini : F
  zcosh : F
  zsinh : F
  cc : F

/-- Sines and cosines of the satellite's elements (`dscom.rs:240-250`). -/
structure SatTrig (F : Type) where
  nm : F
  em : F
  snodm : F
  cnodm : F
  sinomm : F
  cosomm : F
  sinim : F
  cosim : F
  emsq : F
  betasq : F
  rtemsq : F

/-- `dscom.rs:240-250` -/
def satTrig (o : DscomOptions F) : SatTrig F :=
  let emsq := powi2 o.ep
  let betasq := 1.0 - emsq
  { nm := o.np, em := o.ep, snodm := Arith.sin o.nodep, cnodm := Arith.cos o.nodep,
    sinomm := Arith.sin o.argpp, cosomm := Arith.cos o.argpp,
    sinim := Arith.sin o.inclp, cosim := Arith.cos o.inclp, emsq, betasq, rtemsq := Arith.sqrt betasq }

/-- The moon's orientation (`dscom.rs:258-272`). -/
structure Lunar (F : Type) where
  day : F
  xnodce : F
  stem : F
  ctem : F
  zcosil : F
  zsinil : F
  zsinhl : F
  zcoshl : F
  gam : F
  zcosgl : F
  zsingl : F

/-- `dscom.rs:258-272` -/
def lunar (epoch tc : F) : Lunar F :=
  let day := epoch + 18261.5 + (tc / 1440.0)
  let xnodce := Arith.rem (4.5236020 - (9.2422029e-4 * day)) TWO_PI
  let stem := Arith.sin xnodce
  let ctem := Arith.cos xnodce
  let zcosil := 0.91375164 - (0.03568096 * ctem)
  let zsinil := Arith.sqrt (1.0 - (zcosil * zcosil))
  let zsinhl := (0.089683511 * stem) / zsinil
  let zcoshl := Arith.sqrt (1.0 - (zsinhl * zsinhl))
  let gam := 5.8351514 + (0.0019443680 * day)
  let zx := (0.39785416 * stem) / zsinil
  let zy := (zcoshl * ctem) + (0.91744867 * zsinhl * stem)
  let zx := Arith.atan2 zx zy
  let zx := zx + (gam - xnodce)
  { day, xnodce, stem, ctem, zcosil, zsinil, zsinhl, zcoshl, gam, zcosgl := Arith.cos zx, zsingl := Arith.sin zx }

/-- `dscom.rs:275-281`: the sun. -/
def solarFrame (q : SatTrig F) : BodyFrame F :=
  { zcosg := 0.1945905, zsing := -0.98088458, zcosi := 0.91744867, zsini := 0.39785416,
    zcosh := q.cnodm, zsinh := q.snodm, cc := 2.9864797e-6 }

/-- `dscom.rs:358-364`: the moon. -/
def lunarFrame (q : SatTrig F) (l : Lunar F) : BodyFrame F :=
  { zcosg := l.zcosgl, zsing := l.zsingl, zcosi := l.zcosil, zsini := l.zsinil,
    zcosh := (l.zcoshl * q.cnodm) + (l.zsinhl * q.snodm),
    zsinh := (q.snodm * l.zcoshl) - (q.cnodm * l.zsinhl), cc := 4.7968065e-7 }

/-- `a1 .. a10` (`dscom.rs:287-296`) -/
structure ACoef (F : Type) where
  a1 : F
  a2 : F
  a3 : F
  a4 : F
  a5 : F
  a6 : F
  a7 : F
  a8 : F
  a9 : F
  a10 : F

/-- `dscom.rs:287-296` -/
def aCoef (q : SatTrig F) (b : BodyFrame F) : ACoef F :=
  let a1 := (b.zcosg * b.zcosh) + (b.zsing * b.zcosi * b.zsinh)
  let a3 := (-b.zsing * b.zcosh) + (b.zcosg * b.zcosi * b.zsinh)
  let a7 := (-b.zcosg * b.zsinh) + (b.zsing * b.zcosi * b.zcosh)
  let a8 := b.zsing * b.zsini
  let a9 := (b.zsing * b.zsinh) + (b.zcosg * b.zcosi * b.zcosh)
  let a10 := b.zcosg * b.zsini
  let a2 := (q.cosim * a7) + (q.sinim * a8)
  let a4 := (q.cosim * a9) + (q.sinim * a10)
  let a5 := (-q.sinim * a7) + (q.cosim * a8)
  let a6 := (-q.sinim * a9) + (q.cosim * a10)
  { a1, a2, a3, a4, a5, a6, a7, a8, a9, a10 }

/-- `x1 .. x8` (`dscom.rs:298-305`) -/
structure XCoef (F : Type) where
  x1 : F
  x2 : F
  x3 : F
  x4 : F
  x5 : F
  x6 : F
  x7 : F
  x8 : F

/-- `dscom.rs:298-305` -/
def xCoef (q : SatTrig F) (a : ACoef F) : XCoef F :=
  { x1 := (a.a1 * q.cosomm) + (a.a2 * q.sinomm)
    x2 := (a.a3 * q.cosomm) + (a.a4 * q.sinomm)
    x3 := (-a.a1 * q.sinomm) + (a.a2 * q.cosomm)
    x4 := (-a.a3 * q.sinomm) + (a.a4 * q.cosomm)
    x5 := a.a5 * q.sinomm
    x6 := a.a6 * q.sinomm
    x7 := a.a5 * q.cosomm
    x8 := a.a6 * q.cosomm }

/-- What one pass of the loop leaves behind: `s1..s7`, `z1..z33` (`dscom.rs:307-335`). -/
structure PassOut (F : Type) where
  s1 : F
  s2 : F
  s3 : F
  s4 : F
  s5 : F
  s6 : F
  s7 : F
  z1 : F
  z2 : F
  z3 : F
  z11 : F
  z12 : F
  z13 : F
  z21 : F
  z22 : F
  z23 : F
  z31 : F
  z32 : F
  z33 : F

/-- `dscom.rs:307-335` -/
def passOut (q : SatTrig F) (a : ACoef F) (x : XCoef F) (cc xnoi : F) : PassOut F :=
  let emsq := q.emsq
  let z31 := (12.0 * x.x1 * x.x1) - (3.0 * x.x3 * x.x3)
  let z32 := (24.0 * x.x1 * x.x2) - (6.0 * x.x3 * x.x4)
  let z33 := (12.0 * x.x2 * x.x2) - (3.0 * x.x4 * x.x4)
  let z1 := (3.0 * ((a.a1 * a.a1) + (a.a2 * a.a2))) + (z31 * emsq)
  let z2 := (6.0 * ((a.a1 * a.a3) + (a.a2 * a.a4))) + (z32 * emsq)
  let z3 := (3.0 * ((a.a3 * a.a3) + (a.a4 * a.a4))) + (z33 * emsq)
  let z11 := (-6.0 * a.a1 * a.a5) + (emsq * ((-24.0 * x.x1 * x.x7) - (6.0 * x.x3 * x.x5)))
  let z12 := (-6.0 * ((a.a1 * a.a6) + (a.a3 * a.a5)))
      + (emsq * ((-24.0 * ((x.x2 * x.x7) + (x.x1 * x.x8))) + (-6.0 * ((x.x3 * x.x6) + (x.x4 * x.x5)))))
  let z13 := (-6.0 * a.a3 * a.a6) + (emsq * ((-24.0 * x.x2 * x.x8) - (6.0 * x.x4 * x.x6)))
  let z21 := (6.0 * a.a2 * a.a5) + (emsq * ((24.0 * x.x1 * x.x5) - (6.0 * x.x3 * x.x7)))
  let z22 := (6.0 * ((a.a4 * a.a5) + (a.a2 * a.a6)))
      + (emsq * ((24.0 * ((x.x2 * x.x5) + (x.x1 * x.x6))) - (6.0 * ((x.x4 * x.x7) + (x.x3 * x.x8)))))
  let z23 := (6.0 * a.a4 * a.a6) + (emsq * ((24.0 * x.x2 * x.x6) - (6.0 * x.x4 * x.x8)))
  let z1 := z1 + z1 + (q.betasq * z31)
  let z2 := z2 + z2 + (q.betasq * z32)
  let z3 := z3 + z3 + (q.betasq * z33)
  let s3 := cc * xnoi
  let s2 := (-0.5 * s3) / q.rtemsq
  let s4 := s3 * q.rtemsq
  let s1 := -15.0 * q.em * s4
  let s5 := (x.x1 * x.x3) + (x.x2 * x.x4)
  let s6 := (x.x2 * x.x3) + (x.x1 * x.x4)
  let s7 := (x.x2 * x.x4) - (x.x1 * x.x3)
  { s1, s2, s3, s4, s5, s6, s7, z1, z2, z3, z11, z12, z13, z21, z22, z23, z31, z32, z33 }

/-- One pass of the loop body `dscom.rs:285-366` for one perturbing body.  The two passes (`lsflg = 1`: sun,
`lsflg = 2`: moon) share no variable except those set at the end of the first (`lunarFrame`). -/
def pass (q : SatTrig F) (b : BodyFrame F) (xnoi : F) : PassOut F :=
  let a := aCoef q b
  passOut q a (xCoef q a) b.cc xnoi

/-- `dscom.rs:13-95`.  The solar `ss*`, `sz*` and lunar `s*`, `z*` are the two `PassOut`s. -/
structure DscomResult (F : Type) where
  q : SatTrig F
  l : Lunar F
  /-- `ss1..ss7, sz1..sz33` -/
  sun : PassOut F
  /-- `s1..s7, z1..z33` -/
  moon : PassOut F
  e3 : F
  ee2 : F
  peo : F
  pgho : F
  pho : F
  pinco : F
  plo : F
  se2 : F
  se3 : F
  sgh2 : F
  sgh3 : F
  sgh4 : F
  sh2 : F
  sh3 : F
  si2 : F
  si3 : F
  sl2 : F
  sl3 : F
  sl4 : F
  xgh2 : F
  xgh3 : F
  xgh4 : F
  xh2 : F
  xh3 : F
  xi2 : F
  xi3 : F
  xl2 : F
  xl3 : F
  xl4 : F
  zmol : F
  zmos : F

/-- `dscom.rs:164-498` -/
def dscom (o : DscomOptions F) : DscomResult F :=
  let ZES : F := 0.01675
  let ZEL : F := 0.05490
  let q := satTrig o
  let l := lunar o.epoch o.tc
  let xnoi := 1.0 / q.nm
  let sun := pass q (solarFrame q) xnoi
  let moon := pass q (lunarFrame q l) xnoi
  { q, l, sun, moon
    zmol := Arith.rem (4.7199672 + ((0.22997150 * l.day) - l.gam)) TWO_PI
    zmos := Arith.rem (6.2565837 + (0.017201977 * l.day)) TWO_PI
    se2 := 2.0 * sun.s1 * sun.s6
    se3 := 2.0 * sun.s1 * sun.s7
    si2 := 2.0 * sun.s2 * sun.z12
    si3 := 2.0 * sun.s2 * (sun.z13 - sun.z11)
    sl2 := -2.0 * sun.s3 * sun.z2
    sl3 := -2.0 * sun.s3 * (sun.z3 - sun.z1)
    sl4 := -2.0 * sun.s3 * (-21.0 - (9.0 * q.emsq)) * ZES
    sgh2 := 2.0 * sun.s4 * sun.z32
    sgh3 := 2.0 * sun.s4 * (sun.z33 - sun.z31)
    sgh4 := -18.0 * sun.s4 * ZES
    sh2 := -2.0 * sun.s2 * sun.z22
    sh3 := -2.0 * sun.s2 * (sun.z23 - sun.z21)
    ee2 := 2.0 * moon.s1 * moon.s6
    e3 := 2.0 * moon.s1 * moon.s7
    xi2 := 2.0 * moon.s2 * moon.z12
    xi3 := 2.0 * moon.s2 * (moon.z13 - moon.z11)
    xl2 := -2.0 * moon.s3 * moon.z2
    xl3 := -2.0 * moon.s3 * (moon.z3 - moon.z1)
    xl4 := -2.0 * moon.s3 * (-21.0 - (9.0 * q.emsq)) * ZEL
    xgh2 := 2.0 * moon.s4 * moon.z32
    xgh3 := 2.0 * moon.s4 * (moon.z33 - moon.z31)
    xgh4 := -18.0 * moon.s4 * ZEL
    xh2 := -2.0 * moon.s2 * moon.z22
    xh3 := -2.0 * moon.s2 * (moon.z23 - moon.z21)
    peo := 0.0, pinco := 0.0, plo := 0.0, pgho := 0.0, pho := 0.0 }

end Sat
