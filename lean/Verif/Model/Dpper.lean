import Verif.Model.Satrec
/-! # `/repo/src/propogation/dpper.rs` -/

namespace Sat
variable {F : Type} [Arith F]

/-- `dpper.rs:4` (a second `TWO_PI`, with the factors in the other order) -/
def dpperTWO_PI : F := 2.0 * Arith.pi

/-- `dpper.rs:6-12` -/
structure DpperResult (F : Type) where
  ep : F
  inclp : F
  nodep : F
  argpp : F
  mp : F

/-- `dpper.rs:27-37`.  Simplification: `inclo`, which `dpper` never reads, is left out. -/
structure DpperOptions (F : Type) where
  init : DpperInit
  opsmode : DpperOpsMode
  ep : F
  inclp : F
  nodep : F
  argpp : F
  mp : F

/-- The five sums of `dpper.rs:214-218` -/
structure Periodics (F : Type) where
  pe : F
  pinc : F
  pl : F
  pgh : F
  ph : F

/-- `dpper.rs:186-189` / `203-206`: `(sinzf, f2, f3)` from the mean longitude `zm` and the eccentricity `ze`. -/
def lsTerms (ze zm : F) : F × F × F :=
  let zf := zm + (2.0 * ze * Arith.sin zm)
  let sinzf := Arith.sin zf
  let f2 := (0.5 * sinzf * sinzf) - 0.25
  let f3 := -0.5 * sinzf * Arith.cos zf
  (sinzf, f2, f3)

/-- `dpper.rs:173-218` -/
def periodics (s : Satrec F) (init : DpperInit) : Periodics F :=
  let ZNS : F := 1.19459e-5
  let ZES : F := 0.01675
  let ZNL : F := 1.5835218e-4
  let ZEL : F := 0.05490
  let zm := if init = .Y then s.zmos else s.zmos + (ZNS * s.t)
  let q := lsTerms ZES zm
  let sinzf := q.1
  let f2 := q.2.1
  let f3 := q.2.2
  let ses := (s.se2 * f2) + (s.se3 * f3)
  let sis := (s.si2 * f2) + (s.si3 * f3)
  let sls := (s.sl2 * f2) + (s.sl3 * f3) + (s.sl4 * sinzf)
  let sghs := (s.sgh2 * f2) + (s.sgh3 * f3) + (s.sgh4 * sinzf)
  let shs := (s.sh2 * f2) + (s.sh3 * f3)
  let zm := if init = .Y then s.zmol else s.zmol + (ZNL * s.t)
  let q := lsTerms ZEL zm
  let sinzf := q.1
  let f2 := q.2.1
  let f3 := q.2.2
  let sel := (s.ee2 * f2) + (s.e3 * f3)
  let sil := (s.xi2 * f2) + (s.xi3 * f3)
  let sll := (s.xl2 * f2) + (s.xl3 * f3) + (s.xl4 * sinzf)
  let sghl := (s.xgh2 * f2) + (s.xgh3 * f3) + (s.xgh4 * sinzf)
  let shll := (s.xh2 * f2) + (s.xh3 * f3)
  { pe := ses + sel, pinc := sis + sil, pl := sls + sll, pgh := sghs + sghl, ph := shs + shll }

/-- `dpper.rs:248-283`: the Lyddane modification.  `inclp`, `sinip`, `cosip` are the perturbed inclination and its sine
and cosine; `p` holds the periodics after subtraction of the epoch values. -/
def lyddane (opsmode : DpperOpsMode) (p : Periodics F) (ep inclp sinip cosip nodep argpp mp : F) : DpperResult F :=
  let sinop := Arith.sin nodep
  let cosop := Arith.cos nodep
  let alfdp := sinip * sinop
  let betdp := sinip * cosop
  let dalf := (p.ph * cosop) + (p.pinc * cosip * sinop)
  let dbet := (-p.ph * sinop) + (p.pinc * cosip * cosop)
  let alfdp := alfdp + dalf
  let betdp := betdp + dbet
  let nodep := Arith.rem nodep dpperTWO_PI
  let nodep := if (nodep <. 0.0) && (opsmode == .A) then nodep + dpperTWO_PI else nodep
  let xls := mp + argpp + (cosip * nodep)
  let dls := (p.pl + p.pgh) - (p.pinc * nodep * sinip)
  let xls := xls + dls
  let xnoh := nodep
  let nodep := Arith.atan2 alfdp betdp
  let nodep := if (nodep <. 0.0) && (opsmode == .A) then nodep + dpperTWO_PI else nodep
  let nodep :=
    if Arith.abs (xnoh - nodep) >. Arith.pi then
      (if nodep <. xnoh then nodep + dpperTWO_PI else nodep - dpperTWO_PI)
    else nodep
  let mp := mp + p.pl
  let argpp := xls - mp - (cosip * nodep)
  { ep, inclp, nodep, argpp, mp }

/-- `dpper.rs:241-245`: periodics applied directly. -/
def applyDirect (p : Periodics F) (ep inclp sinip cosip nodep argpp mp : F) : DpperResult F :=
  let ph := p.ph / sinip
  let pgh := p.pgh - cosip * ph
  { ep, inclp, nodep := nodep + ph, argpp := argpp + pgh, mp := mp + p.pl }

/-- `dpper.rs:105-293` -/
def dpper (satrec : Satrec F) (options : DpperOptions F) : DpperResult F :=
  let p := periodics satrec options.init
  if options.init = .N then
    let p : Periodics F :=
      { pe := p.pe - satrec.peo, pinc := p.pinc - satrec.pinco, pl := p.pl - satrec.plo,
        pgh := p.pgh - satrec.pgho, ph := p.ph - satrec.pho }
    let inclp := options.inclp + p.pinc
    let ep := options.ep + p.pe
    let sinip := Arith.sin inclp
    let cosip := Arith.cos inclp
    if inclp ≥. 0.2 then
      applyDirect p ep inclp sinip cosip options.nodep options.argpp options.mp
    else
      lyddane options.opsmode p ep inclp sinip cosip options.nodep options.argpp options.mp
  else
    { ep := options.ep, inclp := options.inclp, nodep := options.nodep, argpp := options.argpp, mp := options.mp }

end Sat
