import Verif.Model.Sgp4init
/-!
# The near-earth initialisation as a chain of named quantities

Every intermediate value computed by `sgp4init` for a near-earth object whose perigee lies above 220 km, as a function of the elements, in any
arithmetic.  `initRecord_chain`: under the branch conditions, the record the program builds contains exactly these values.
-/

namespace Sat.Chain
variable {F : Type} [Arith F] (o : SGP4InitOptions F)

/-- `initl.rs:108`, `omeosq` -/
def ome : F := 1.0 - o.xecco * o.xecco
/-- `initl.rs:109`, `rteosq` -/
def rt : F := Arith.sqrt (ome o)
/-- `initl.rs:110`, `cosio` -/
def ci : F := Arith.cos o.xinclo
/-- `initl.rs:125`, `sinio` -/
def si : F := Arith.sin o.xinclo
/-- `initl.rs:111`, `cosio2` -/
def ci2 : F := ci o * ci o
/-- `initl.rs:114` -/
def ak : F := Arith.powf (XKE / o.xno) X2O3
/-- `initl.rs:115` -/
def d1 : F := (0.75 * J2 * ((3.0 * ci2 o) - 1.0)) / (rt o * ome o)
/-- `initl.rs:116`, the first `del` -/
def del : F := d1 o / (ak o * ak o)
/-- `initl.rs:117-120` -/
def adel : F := ak o * (1.0 - (del o * del o) - (del o * ((1.0 / 3.0) + ((134.0 * del o * del o) / 81.0))))
/-- `initl.rs:121`, the second `del` -/
def del2 : F := d1 o / (adel o * adel o)
/-- `initl.rs:122` -/
def no : F := o.xno / (1.0 + del2 o)
/-- `initl.rs:124` -/
def ao : F := Arith.powf (XKE / no o) X2O3
/-- `initl.rs:126-130` -/
def posq : F := (ao o * ome o) * (ao o * ome o)
/-- `initl.rs:127` -/
def con42 : F := 1.0 - (5.0 * ci2 o)
/-- `initl.rs:128` -/
def con41 : F := -con42 o - ci2 o - ci2 o
/-- `initl.rs:131` -/
def rp : F := ao o * (1.0 - o.xecco)
/-- `sgp4init.rs:359`, `pinvsq` -/
def pinv : F := 1.0 / posq o
/-- `sgp4init.rs:287` -/
def ss : F := (78.0 / EARTH_RADIUS) + 1.0
/-- `sgp4init.rs:289`, `qzms2ttemp` -/
def qt : F := (120.0 - 78.0) / EARTH_RADIUS
/-- `sgp4init.rs:290`, `qzms2t` -/
def qz : F := qt * qt * qt * qt
/-- `sgp4init.rs:361` -/
def tsi : F := 1.0 / (ao o - ss)
/-- `sgp4init.rs:362` -/
def eta : F := ao o * o.xecco * tsi o
/-- `sgp4init.rs:363` -/
def etasq : F := eta o * eta o
/-- `sgp4init.rs:364` -/
def eeta : F := o.xecco * eta o
/-- `sgp4init.rs:365`, `psisq` -/
def psi : F := Arith.abs (1.0 - etasq o)
/-- `sgp4init.rs:366` -/
def coef : F := qz * powi4 (tsi o)
/-- `sgp4init.rs:367` -/
def coef1 : F := coef o / Arith.powf (psi o) 3.5
/-- `sgp4init.rs:368-373`, the bracket of `cc2` -/
def b2 : F := (ao o * (1.0 + (1.5 * etasq o) + (eeta o * (4.0 + etasq o))))
  + (((0.375 * J2 * tsi o) / psi o) * con41 o * (8.0 + (3.0 * etasq o * (8.0 + etasq o))))
/-- `sgp4init.rs:368-373` -/
def cc2 : F := coef1 o * no o * b2 o
/-- `sgp4init.rs:374` -/
def cc1 : F := o.xbstar * cc2 o
/-- `sgp4init.rs:375-378` -/
def cc3 : F := if o.xecco >. 1.0e-4 then (-2.0 * coef o * tsi o * J3OJ2 * no o * si o) / o.xecco else 0.0
/-- `sgp4init.rs:379`, `x1mth2` -/
def x1m : F := 1.0 - ci2 o
/-- `sgp4init.rs:380-393`, the bracket of `cc4` -/
def b4 : F := ((eta o * (2.0 + (0.5 * etasq o))) + (o.xecco * (0.5 + (2.0 * etasq o))))
  - (((J2 * tsi o) / (ao o * psi o))
    * ((-3.0 * con41 o * ((1.0 - (2.0 * eeta o)) + (etasq o * (1.5 - (0.5 * eeta o)))))
      + (0.75 * x1m o * ((2.0 * etasq o) - (eeta o * (1.0 + etasq o))) * Arith.cos (2.0 * o.xargpo))))
/-- `sgp4init.rs:380-393` -/
def cc4 : F := 2.0 * no o * coef1 o * ao o * ome o * b4 o
/-- `sgp4init.rs:394` -/
def cc5 : F := 2.0 * coef1 o * ao o * ome o * (1.0 + (2.75 * (etasq o + eeta o)) + (eeta o * etasq o))
/-- `sgp4init.rs:395`, `cosio4` -/
def ci4 : F := ci2 o * ci2 o
/-- `sgp4init.rs:396` -/
def temp1 : F := 1.5 * J2 * pinv o * no o
/-- `sgp4init.rs:397` -/
def temp2 : F := 0.5 * temp1 o * J2 * pinv o
/-- `sgp4init.rs:398` -/
def temp3 : F := -0.46875 * J4 * pinv o * pinv o * no o
/-- `sgp4init.rs:399-401` -/
def mdot : F := no o + (0.5 * temp1 o * rt o * con41 o)
  + (0.0625 * temp2 o * rt o * ((13.0 - (78.0 * ci2 o)) + (137.0 * ci4 o)))
/-- `sgp4init.rs:402-404` -/
def argpdot : F := (-0.5 * temp1 o * con42 o)
  + (0.0625 * temp2 o * ((7.0 - (114.0 * ci2 o)) + (395.0 * ci4 o)))
  + (temp3 o * ((3.0 - (36.0 * ci2 o)) + (49.0 * ci4 o)))
/-- `sgp4init.rs:405` -/
def xhdot1 : F := -temp1 o * ci o
/-- `sgp4init.rs:406-409` -/
def nodedot : F := xhdot1 o
  + (((0.5 * temp2 o * (4.0 - (19.0 * ci2 o))) + (2.0 * temp3 o * (3.0 - (7.0 * ci2 o)))) * ci o)
/-- `sgp4init.rs:410` -/
def omgcof : F := o.xbstar * cc3 o * Arith.cos o.xargpo
/-- `sgp4init.rs:411-414` -/
def xmcof : F := if o.xecco >. 1.0e-4 then (-X2O3 * coef o * o.xbstar) / eeta o else 0.0
/-- `sgp4init.rs:415` -/
def nodecf : F := 3.5 * ome o * xhdot1 o * cc1 o
/-- `sgp4init.rs:416` -/
def t2cof : F := 1.5 * cc1 o
/-- `sgp4init.rs:427`, `delmotemp` -/
def delm : F := 1.0 + (eta o * Arith.cos o.xmo)
/-- `sgp4init.rs:428` -/
def delmo : F := delm o * delm o * delm o
/-- `sgp4init.rs:429` -/
def sinmao : F := Arith.sin o.xmo
/-- `sgp4init.rs:430`, `x7thm1` -/
def x7 : F := (7.0 * ci2 o) - 1.0
/-- `sgp4init.rs:700` -/
def cc1sq : F := cc1 o * cc1 o
/-- `sgp4init.rs:701` -/
def d2 : F := 4.0 * ao o * tsi o * cc1sq o
/-- `sgp4init.rs:702`, `temp` -/
def dtemp : F := (d2 o * tsi o * cc1 o) / 3.0
/-- `sgp4init.rs:703` -/
def d3 : F := ((17.0 * ao o) + ss) * dtemp o
/-- `sgp4init.rs:704` -/
def d4 : F := 0.5 * dtemp o * ao o * tsi o * ((221.0 * ao o) + (31.0 * ss)) * cc1 o
/-- `sgp4init.rs:705` -/
def t3cof : F := d2 o + (2.0 * cc1sq o)
/-- `sgp4init.rs:706-707` -/
def t4cof : F := 0.25 * ((3.0 * d3 o) + (cc1 o * ((12.0 * d2 o) + (10.0 * cc1sq o))))
/-- `sgp4init.rs:708-712` -/
def t5cof : F := 0.2 * ((3.0 * d4 o) + (12.0 * cc1 o * d3 o) + (6.0 * d2 o * d2 o) + (15.0 * cc1sq o * ((2.0 * d2 o) + cc1sq o)))

/-- the branch conditions: positive `omeosq`, perigee above 156 km and 220 km, period below 225 minutes -/
structure Branch : Prop where
  guard : (ome o ≥. 0.0) = true
  high : ((rp o - 1.0) * EARTH_RADIUS <. 156.0) = false
  full : (rp o <. (220.0 / EARTH_RADIUS) + 1.0) = false
  near : (TWO_PI / no o ≥. 225.0) = false

/-- the record with the values of the chain -/
def record (s : Satrec F) : Satrec F :=
  { initStart s o with
    isimp := 0, no := no o, con41 := con41 o, eta := eta o, cc1 := cc1 o, x1mth2 := x1m o, cc4 := cc4 o, cc5 := cc5 o, mdot := mdot o,
    argpdot := argpdot o, nodedot := nodedot o, omgcof := omgcof o, xmcof := xmcof o, nodecf := nodecf o, t2cof := t2cof o,
    xlcof := xlcofOf (si o) (ci o), aycof := aycofOf (si o), delmo := delmo o, sinmao := sinmao o, x7thm1 := x7 o,
    d2 := d2 o, d3 := d3 o, d4 := d4 o, t3cof := t3cof o, t4cof := t4cof o, t5cof := t5cof o }

variable {o}

theorem initRecord_chain (s : Satrec F) (h : Branch o) : initRecord s o = record o s := by
  have hd : dragParams (rp o) = ((ss : F), (qz : F)) := by
    unfold dragParams
    simp only [h.high]
    rfl
  have hg : (((initlOf (resetSatrec s o) o.epoch).omeosq ≥. 0.0) || ((initStart s o).no ≥. 0.0)) = true := by
    have : ((initlOf (resetSatrec s o) o.epoch).omeosq ≥. 0.0) = true := h.guard
    rw [this]; rfl
  unfold initRecord initFinish
  rw [if_pos hg]
  have hn : (TWO_PI / (initNear (initStart s o) (initlOf (resetSatrec s o) o.epoch)).1.no ≥. 225.0) = false := h.near
  have hr : ((initlOf (resetSatrec s o) o.epoch).rp <. (220.0 / EARTH_RADIUS) + 1.0) = false := h.full
  have hd' : dragParams (initlOf (resetSatrec s o) o.epoch).rp = ((ss : F), (qz : F)) := hd
  show initDrag (initDeep _ _ _ _) _ _ = _
  unfold initDeep
  simp only [hn]
  unfold initNear
  simp only [hr, hd']
  rfl

end Sat.Chain
