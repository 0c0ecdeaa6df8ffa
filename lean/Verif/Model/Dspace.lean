import Verif.Model.Satrec
/-! # `/repo/src/propogation/dspace.rs` -/

namespace Sat
variable {F : Type} [Arith F]

/-- `dspace.rs:4-41` -/
structure DspaceOptions (F : Type) where
  irez : F
  d2201 : F
  d2211 : F
  d3210 : F
  d3222 : F
  d4410 : F
  d4422 : F
  d5220 : F
  d5232 : F
  d5421 : F
  d5433 : F
  dedt : F
  del1 : F
  del2 : F
  del3 : F
  didt : F
  dmdt : F
  dnodt : F
  domdt : F
  argpo : F
  argpdot : F
  t : F
  tc : F
  gsto : F
  xfact : F
  xlamo : F
  no : F
  atime : F
  em : F
  argpm : F
  inclm : F
  xli : F
  mm : F
  xni : F
  nodem : F
  nm : F

/-- `dspace.rs:43-54` -/
structure DspaceResult (F : Type) where
  atime : F
  em : F
  argpm : F
  inclm : F
  xli : F
  mm : F
  xni : F
  nodem : F
  dndt : F
  nm : F

/-- `dspace.rs:242-244`: synchronous resonance, `xndt`. -/
def syncNdt (o : DspaceOptions F) (xli : F) : F :=
  let FASX2 : F := 0.13130908
  let FASX4 : F := 2.8843198
  let FASX6 : F := 0.37448087
  (o.del1 * Arith.sin (xli - FASX2)) + (o.del2 * Arith.sin (2.0 * (xli - FASX4)))
    + (o.del3 * Arith.sin (3.0 * (xli - FASX6)))

/-- `dspace.rs:246-248`: synchronous resonance, `xnddt` before the factor `xldot`. -/
def syncNddt (o : DspaceOptions F) (xli : F) : F :=
  let FASX2 : F := 0.13130908
  let FASX4 : F := 2.8843198
  let FASX6 : F := 0.37448087
  (o.del1 * Arith.cos (xli - FASX2)) + (2.0 * o.del2 * Arith.cos (2.0 * (xli - FASX4)))
    + (3.0 * o.del3 * Arith.cos (3.0 * (xli - FASX6)))

/-- `dspace.rs:252-264`: half-day resonance, `xndt`. -/
def halfNdt (o : DspaceOptions F) (xli atime : F) : F :=
  let G22 : F := 5.7686396
  let G32 : F := 0.95240898
  let G44 : F := 1.8014998
  let G52 : F := 1.0508330
  let G54 : F := 4.4108898
  let xomi := o.argpo + (o.argpdot * atime)
  let x2omi := xomi + xomi
  let x2li := xli + xli
  (o.d2201 * Arith.sin ((x2omi + xli) - G22))
    + (o.d2211 * Arith.sin (xli - G22))
    + (o.d3210 * Arith.sin ((xomi + xli) - G32))
    + (o.d3222 * Arith.sin ((-xomi + xli) - G32))
    + (o.d4410 * Arith.sin ((x2omi + x2li) - G44))
    + (o.d4422 * Arith.sin (x2li - G44))
    + (o.d5220 * Arith.sin ((xomi + xli) - G52))
    + (o.d5232 * Arith.sin ((-xomi + xli) - G52))
    + (o.d5421 * Arith.sin ((xomi + x2li) - G54))
    + (o.d5433 * Arith.sin ((-xomi + x2li) - G54))

/-- `dspace.rs:252-254,266-275`: half-day resonance, `xnddt` before the factor `xldot`. -/
def halfNddt (o : DspaceOptions F) (xli atime : F) : F :=
  let G22 : F := 5.7686396
  let G32 : F := 0.95240898
  let G44 : F := 1.8014998
  let G52 : F := 1.0508330
  let G54 : F := 4.4108898
  let xomi := o.argpo + (o.argpdot * atime)
  let x2omi := xomi + xomi
  let x2li := xli + xli
  (o.d2201 * Arith.cos ((x2omi + xli) - G22))
    + (o.d2211 * Arith.cos (xli - G22))
    + (o.d3210 * Arith.cos ((xomi + xli) - G32))
    + (o.d3222 * Arith.cos ((-xomi + xli) - G32))
    + (o.d5220 * Arith.cos ((xomi + xli) - G52))
    + (o.d5232 * Arith.cos ((-xomi + xli) - G52))
    + (2.0 * o.d4410 * Arith.cos ((x2omi + x2li) - G44))
    + (o.d4422 * Arith.cos (x2li - G44))
    + (o.d5421 * Arith.cos ((xomi + x2li) - G54))
    + (o.d5433 * Arith.cos ((-xomi + x2li) - G54))

/-- The mutable variables of the loop `dspace.rs:238-293`. -/
structure DspaceSt (F : Type) where
  xli : F
  xni : F
  atime : F
  xndt : F
  xldot : F
  xnddt : F
  ft : F
  iretn : Nat

/-- One pass of the loop body `dspace.rs:239-292`; `delt` is the step chosen at lines 231-235. -/
def dspaceBody (o : DspaceOptions F) (delt : F) (st : DspaceSt F) : DspaceSt F :=
  let xldot := st.xni + o.xfact
  let xndt := if o.irez ==. 2.0 then halfNdt o st.xli st.atime else syncNdt o st.xli
  let xnddt := (if o.irez ==. 2.0 then halfNddt o st.xli st.atime else syncNddt o st.xli) * xldot
  if Arith.abs (o.t - st.atime) ≥. 720.0 then
    { xli := st.xli + ((xldot * delt) + (xndt * 259200.0))
      xni := st.xni + ((xndt * delt) + (xnddt * 259200.0))
      atime := st.atime + delt
      xndt, xldot, xnddt, ft := st.ft, iretn := 381 }
  else
    { xli := st.xli, xni := st.xni, atime := st.atime, xndt, xldot, xnddt, ft := o.t - st.atime, iretn := 0 }

/-- `dspace.rs:189-194,222-237`: the state in which the loop is entered (with the epoch restart of lines 224-228). -/
def dspaceStart (o : DspaceOptions F) : DspaceSt F :=
  if (o.atime ==. 0.0) || (o.t * o.atime ≤. 0.0) || (Arith.abs o.t <. Arith.abs o.atime) then
    { xli := o.xlamo, xni := o.no, atime := 0.0, xndt := 0.0, xldot := 0.0, xnddt := 0.0, ft := 0.0, iretn := 381 }
  else
    { xli := o.xli, xni := o.xni, atime := o.atime, xndt := 0.0, xldot := 0.0, xnddt := 0.0, ft := 0.0, iretn := 381 }

/-- `dspace.rs:231-235` -/
def dspaceDelt (o : DspaceOptions F) : F := if o.t >. 0.0 then 720.0 else -720.0

/-- `dspace.rs:238-293` -/
def dspaceLoop (o : DspaceOptions F) : Option (DspaceSt F) :=
  whileLoop (fun st => st.iretn == 381) (dspaceBody o (dspaceDelt o)) (dspaceStart o)

/-- `dspace.rs:127-319`; `none` when the integration loop never exits. -/
def dspace (o : DspaceOptions F) : Option (DspaceResult F) :=
  let RPTIM : F := 4.37526908801129966e-3
  let theta := Arith.rem (o.gsto + (o.tc * RPTIM)) TWO_PI
  let em := o.em + o.dedt * o.t
  let inclm := o.inclm + o.didt * o.t
  let argpm := o.argpm + o.domdt * o.t
  let nodem := o.nodem + o.dnodt * o.t
  let mm := o.mm + o.dmdt * o.t
  if o.irez ==. 0.0 then
    some { atime := o.atime, em, argpm, inclm, xli := o.xli, mm, xni := o.xni, nodem, dndt := 0.0, nm := o.nm }
  else
    match dspaceLoop o with
    | none => none
    | some st =>
      let ft := st.ft
      let nm := st.xni + (st.xndt * ft) + (st.xnddt * ft * ft * 0.5)
      let xl := st.xli + (st.xldot * ft) + (st.xndt * ft * ft * 0.5)
      let mm := if o.irez ==. 1.0 then (xl - nodem - argpm) + theta else (xl - (2.0 * nodem)) + (2.0 * theta)
      let dndt := nm - o.no
      let nm := o.no + dndt
      some { atime := st.atime, em, argpm, inclm, xli := st.xli, mm, xni := st.xni, nodem, dndt, nm }

end Sat
