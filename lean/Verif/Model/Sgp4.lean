import Verif.Model.Dpper
import Verif.Model.Dspace
/-! # `/repo/src/propogation/sgp4.rs`

`sgp4(&mut satrec, tsince) -> Result<..>` is modelled as a function that returns the new record together with the
result; `none` means that one of its loops never exits. -/

namespace Sat
variable {F : Type} [Arith F]

/-- Values live after `sgp4.rs:162-187`. -/
structure SecularOut (F : Type) where
  argpm : F
  mm : F
  nodem : F
  tempa : F
  tempe : F
  templ : F

/-- `sgp4.rs:162-187`: secular gravity and atmospheric drag; reads the record after `t` has been set. -/
def secular (s : Satrec F) : SecularOut F :=
  let xmdf := s.mo + (s.mdot * s.t)
  let argpdf := s.argpo + (s.argpdot * s.t)
  let nodedf := s.nodeo + (s.nodedot * s.t)
  let t2 := s.t * s.t
  let nodem := nodedf + (s.nodecf * t2)
  let tempa := 1.0 - (s.cc1 * s.t)
  let tempe := s.bstar * s.cc4 * s.t
  let templ := s.t2cof * t2
  if s.isimp ≠ 1 then
    let delomg := s.omgcof * s.t
    let delmtemp := 1.0 + (s.eta * Arith.cos xmdf)
    let delm := s.xmcof * ((delmtemp * delmtemp * delmtemp) - s.delmo)
    let temp := delomg + delm
    let mm := xmdf + temp
    let argpm := argpdf - temp
    let t3 := t2 * s.t
    let t4 := t3 * s.t
    { argpm, mm, nodem
      tempa := tempa - (s.d2 * t2) - (s.d3 * t3) - (s.d4 * t4)
      tempe := tempe + s.bstar * s.cc5 * (Arith.sin mm - s.sinmao)
      templ := templ + (s.t3cof * t3) + (t4 * (s.t4cof + (s.t * s.t5cof))) }
  else
    { argpm := argpdf, mm := xmdf, nodem, tempa, tempe, templ }

/-- `sgp4.rs:192-231`: the options handed to `dspace`. -/
def dspaceOptions (s : Satrec F) (c : SecularOut F) : DspaceOptions F :=
  { irez := s.irez, d2201 := s.d2201, d2211 := s.d2211, d3210 := s.d3210, d3222 := s.d3222, d4410 := s.d4410,
    d4422 := s.d4422, d5220 := s.d5220, d5232 := s.d5232, d5421 := s.d5421, d5433 := s.d5433, dedt := s.dedt,
    del1 := s.del1, del2 := s.del2, del3 := s.del3, didt := s.didt, dmdt := s.dmdt, dnodt := s.dnodt,
    domdt := s.domdt, argpo := s.argpo, argpdot := s.argpdot, t := s.t, tc := s.t, gsto := s.gsto, xfact := s.xfact,
    xlamo := s.xlamo, no := s.no, atime := s.atime, em := s.ecco, argpm := c.argpm, inclm := s.inclo, xli := s.xli,
    mm := c.mm, xni := s.xni, nodem := c.nodem, nm := s.no }

/-- `sgp4.rs:189-244`: of everything `dspace` returns only `em` is used (lines 235-243 bind the rest to `_`). -/
def emAfterDspace (s : Satrec F) (c : SecularOut F) : Option F :=
  if s.method = .D then
    match dspace (dspaceOptions s c) with
    | none => none
    | some r => some r.em
  else some s.ecco

/-- Angles after `sgp4.rs:275-281`. -/
structure MeanAngles (F : Type) where
  nodem : F
  argpm : F
  mm : F

/-- `sgp4.rs:275-281` -/
def meanAngles (s : Satrec F) (c : SecularOut F) : MeanAngles F :=
  let mm := c.mm + s.no * c.templ
  let xlm := mm + c.argpm + c.nodem
  let nodem := Arith.rem c.nodem TWO_PI
  let argpm := Arith.rem c.argpm TWO_PI
  let xlm := Arith.rem xlm TWO_PI
  let mm := Arith.rem (xlm - argpm - nodem) TWO_PI
  { nodem, argpm, mm }

/-- `(-0.25 * J3OJ2 * sinip * (3.0 + 5.0 cosip)) / (1.0 + cosip)`, guarded (`sgp4.rs:340-344`, `sgp4init.rs:419-423`). -/
def xlcofOf (sinip cosip : F) : F :=
  if Arith.abs (cosip + 1.0) >. 1.5e-12 then
    (-0.25 * J3OJ2 * sinip * (3.0 + (5.0 * cosip))) / (1.0 + cosip)
  else
    (-0.25 * J3OJ2 * sinip * (3.0 + (5.0 * cosip))) / 1.5e-12

/-- `-0.5 * J3OJ2 * sinip` (`sgp4.rs:337`, `sgp4init.rs:424`) -/
def aycofOf (sinip : F) : F := -0.5 * J3OJ2 * sinip

/-- Values live after `sgp4.rs:347-353`. -/
structure LongPeriod (F : Type) where
  axnl : F
  aynl : F
  u : F

/-- `sgp4.rs:347-353` -/
def longPeriod (s : Satrec F) (am ep argpp nodep mp : F) : LongPeriod F :=
  let axnl := ep * Arith.cos argpp
  let temp := 1.0 / (am * (1.0 - (ep * ep)))
  let aynl := (ep * Arith.sin argpp) + (temp * s.aycof)
  let xl := mp + argpp + nodep + (temp * s.xlcof * axnl)
  { axnl, aynl, u := Arith.rem (xl - nodep) TWO_PI }

/-- Mutable variables of the Kepler loop `sgp4.rs:354-374`. -/
structure KeplerSt (F : Type) where
  eo1 : F
  tem5 : F
  sineo1 : F
  coseo1 : F
  ktr : Nat

/-- The Newton correction before clamping, `sgp4.rs:363-364`. -/
def keplerDelta (u axnl aynl sineo1 coseo1 eo1 : F) : F :=
  let tem5 := 1.0 - (coseo1 * axnl) - (sineo1 * aynl)
  (((u - (aynl * coseo1)) + (axnl * sineo1)) - eo1) / tem5

/-- `sgp4.rs:365-371` -/
def clampDelta (tem5 : F) : F :=
  if Arith.abs tem5 ≥. 0.95 then (if tem5 >. 0.0 then 0.95 else -0.95) else tem5

/-- Body of the loop, `sgp4.rs:361-373`. -/
def keplerBody (u axnl aynl : F) (k : KeplerSt F) : KeplerSt F :=
  let sineo1 := Arith.sin k.eo1
  let coseo1 := Arith.cos k.eo1
  let tem5 := clampDelta (keplerDelta u axnl aynl sineo1 coseo1 k.eo1)
  { eo1 := k.eo1 + tem5, tem5, sineo1, coseo1, ktr := k.ktr + 1 }

/-- `sgp4.rs:121-122,354-356` -/
def keplerStart (u : F) : KeplerSt F := { eo1 := u, tem5 := 9999.9, sineo1 := 0.0, coseo1 := 0.0, ktr := 1 }

/-- `sgp4.rs:360` -/
def keplerCond (k : KeplerSt F) : Bool := (Arith.abs k.tem5 ≥. 1.0e-12) && decide (k.ktr ≤ 10)

/-- `sgp4.rs:354-374` -/
def kepler (u axnl aynl : F) : Option (KeplerSt F) :=
  whileLoop keplerCond (keplerBody u axnl aynl) (keplerStart u)

/-- `sgp4.rs:379-380` -/
def semiLatus (am axnl aynl : F) : F :=
  let el2 := (axnl * axnl) + (aynl * aynl)
  am * (1.0 - el2)

/-- Values live after `sgp4.rs:377-402`. -/
structure ShortPrelim (F : Type) where
  rl : F
  rdotl : F
  rvdotl : F
  betal : F
  sin2u : F
  cos2u : F
  su : F
  temp1 : F
  temp2 : F

/-- `sgp4.rs:377-402` (the check on `pl` at 381-388 is in `sgp4Tail`) -/
def shortPrelim (am axnl aynl sineo1 coseo1 : F) : ShortPrelim F :=
  let ecose := (axnl * coseo1) + (aynl * sineo1)
  let esine := (axnl * sineo1) - (aynl * coseo1)
  let el2 := (axnl * axnl) + (aynl * aynl)
  let pl := semiLatus am axnl aynl
  let rl := am * (1.0 - ecose)
  let rdotl := (Arith.sqrt am * esine) / rl
  let rvdotl := Arith.sqrt pl / rl
  let betal := Arith.sqrt (1.0 - el2)
  let temp := esine / (1.0 + betal)
  let sinu := (am / rl) * (sineo1 - aynl - (axnl * temp))
  let cosu := (am / rl) * ((coseo1 - axnl) + (aynl * temp))
  let su := Arith.atan2 sinu cosu
  let sin2u := (cosu + cosu) * sinu
  let cos2u := 1.0 - (2.0 * sinu * sinu)
  let temp := 1.0 / pl
  let temp1 := 0.5 * J2 * temp
  let temp2 := temp1 * temp
  { rl, rdotl, rvdotl, betal, sin2u, cos2u, su, temp1, temp2 }

/-- Osculating quantities after `sgp4.rs:412-418`. -/
structure Osculating (F : Type) where
  mrt : F
  su : F
  xnode : F
  xinc : F
  mvt : F
  rvdot : F

/-- `sgp4.rs:412-418` -/
def shortPeriod (con41 x1mth2 x7thm1 : F) (p : ShortPrelim F) (nm nodep xincp sinip cosip : F) : Osculating F :=
  { mrt := (p.rl * (1.0 - (1.5 * p.temp2 * p.betal * con41))) + (0.5 * p.temp1 * x1mth2 * p.cos2u)
    su := p.su - 0.25 * p.temp2 * x7thm1 * p.sin2u
    xnode := nodep + (1.5 * p.temp2 * cosip * p.sin2u)
    xinc := xincp + (1.5 * p.temp2 * cosip * sinip * p.cos2u)
    mvt := p.rdotl - ((nm * p.temp1 * x1mth2 * p.sin2u) / XKE)
    rvdot := p.rvdotl + ((nm * p.temp1 * ((x1mth2 * p.cos2u) + (1.5 * con41))) / XKE) }

/-- `sgp4.rs:156,421-446` -/
def orient (o : Osculating F) : SGP4Result F :=
  let vkmpersec : F := (EARTH_RADIUS * XKE) / 60.0
  let sinsu := Arith.sin o.su
  let cossu := Arith.cos o.su
  let snod := Arith.sin o.xnode
  let cnod := Arith.cos o.xnode
  let sini := Arith.sin o.xinc
  let cosi := Arith.cos o.xinc
  let xmx := -snod * cosi
  let xmy := cnod * cosi
  let ux := (xmx * sinsu) + (cnod * cossu)
  let uy := (xmy * sinsu) + (snod * cossu)
  let uz := sini * sinsu
  let vx := (xmx * cossu) - (cnod * sinsu)
  let vy := (xmy * cossu) - (snod * sinsu)
  let vz := sini * cossu
  { position := { x := (o.mrt * ux) * EARTH_RADIUS, y := (o.mrt * uy) * EARTH_RADIUS, z := (o.mrt * uz) * EARTH_RADIUS }
    velocity :=
      { x := ((o.mvt * ux) + (o.rvdot * vx)) * vkmpersec
        y := ((o.mvt * uy) + (o.rvdot * vy)) * vkmpersec
        z := ((o.mvt * uz) + (o.rvdot * vz)) * vkmpersec } }

/-- `sgp4.rs:405-410` -/
def setShort (s : Satrec F) (cosip : F) : Satrec F :=
  if s.method = .D then
    let cosisq := cosip * cosip
    { s with con41 := (3.0 * cosisq) - 1.0, x1mth2 := 1.0 - cosisq, x7thm1 := (7.0 * cosisq) - 1.0 }
  else s

/-- What a call of `sgp4` leaves behind. -/
abbrev Sgp4Out (F : Type) := Satrec F × Except SGP4Error (SGP4Result F)

/-- `sgp4.rs:347-466` -/
def sgp4Tail (s : Satrec F) (am nm ep xincp sinip cosip argpp nodep mp : F) : Option (Sgp4Out F) :=
  let lp := longPeriod s am ep argpp nodep mp
  match kepler lp.u lp.axnl lp.aynl with
  | none => none
  | some k =>
    if semiLatus am lp.axnl lp.aynl <. 0.0 then some ({ s with error := 4 }, .error .Pl)
    else
      let p := shortPrelim am lp.axnl lp.aynl k.sineo1 k.coseo1
      let s := setShort s cosip
      let o := shortPeriod s.con41 s.x1mth2 s.x7thm1 p nm nodep xincp sinip cosip
      let r := orient o
      if o.mrt <. 1.0 then some ({ s with error := 6 }, .error .DecayCondition)
      else some (s, .ok r)

/-- `sgp4.rs:296-307`: lunar-solar periodics of a deep-space record. -/
def sgp4Dpper (s : Satrec F) (em : F) (m : MeanAngles F) : DpperResult F :=
  dpper s { init := .N, ep := em, inclp := s.inclo, nodep := m.nodem, argpp := m.argpm, mp := m.mm,
            opsmode := s.operationmode }

/-- `sgp4.rs:284-466`.  Lines 308-314 bind the `ep`, `nodep`, `argpp` returned by `dpper` to *new* variables that live
only until line 331; from line 333 on the names mean the values of lines 288-291 again.  Only `xincp` escapes. -/
def sgp4Periodics (s : Satrec F) (am nm em : F) (m : MeanAngles F) : Option (Sgp4Out F) :=
  if s.method = .D then
    let d := sgp4Dpper s em m
    let xincp := d.inclp
    let xincp := if xincp <. 0.0 then -xincp else xincp
    if (d.ep <. 0.0) || (d.ep >. 1.0) then some ({ s with error := 3 }, .error .Ep)
    else
      let sinip := Arith.sin xincp
      let cosip := Arith.cos xincp
      let s := { s with aycof := aycofOf sinip, xlcof := xlcofOf sinip cosip }
      sgp4Tail s am nm em xincp sinip cosip m.argpm m.nodem m.mm
  else
    sgp4Tail s am nm em s.inclo (Arith.sin s.inclo) (Arith.cos s.inclo) m.argpm m.nodem m.mm

/-- `sgp4.rs:255` -/
def sgp4Am (s : Satrec F) (c : SecularOut F) : F := (Arith.powf (XKE / s.no) X2O3) * c.tempa * c.tempa

/-- `sgp4.rs:246-466` -/
def sgp4Body (s : Satrec F) (c : SecularOut F) (em : F) : Option (Sgp4Out F) :=
  if s.no ≤. 0.0 then some ({ s with error := 2 }, .error .Nm)
  else
    let am := sgp4Am s c
    let nm := XKE / Arith.powf am 1.5
    let em := em - c.tempe
    if (em ≥. 1.0) || (em <. -0.001) then some ({ s with error := 1 }, .error .Eccentricty)
    else
      let em := if em <. 1.0e-6 then 1.0e-6 else em
      sgp4Periodics s am nm em (meanAngles s c)

/-- `sgp4.rs:120-466` -/
def sgp4 (satrec : Satrec F) (tsince : F) : Option (Sgp4Out F) :=
  let s := { satrec with t := tsince, error := 0 }
  let c := secular s
  match emAfterDspace s c with
  | none => none
  | some em => sgp4Body s c em

end Sat
