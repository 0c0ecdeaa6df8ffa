import Verif.Spec.Sdp4
import Verif.Props.EndToEnd
import Verif.Props.LunarSolar
import Verif.Props.DeepInit
/-!
# The deep-space coefficients computed by initialisation: C61, C63
-/

namespace Sat

theorem initDrag_deep {F : Type} [Arith F] (s : Satrec F) (i : InitlReturn F) (n : NearTmp F) :
    (initDrag s i n).toSatDeep = s.toSatDeep := by
  unfold initDrag; split <;> rfl

/-- the resonance fields when `dsinit` is called: all zero -/
def zeroRes {F : Type} [Arith F] : Resonance F :=
  { atime := 0.0, d2201 := 0.0, d2211 := 0.0, d3210 := 0.0, d3222 := 0.0, d4410 := 0.0, d4422 := 0.0, d5220 := 0.0, d5232 := 0.0,
    d5421 := 0.0, d5433 := 0.0, del1 := 0.0, del2 := 0.0, del3 := 0.0, xfact := 0.0, xlamo := 0.0, xli := 0.0, xni := 0.0 }

/-- the options with which initialisation calls `dscom` -/
def dscomArgs {F : Type} [Arith F] (o : SGP4InitOptions F) (no : F) : DscomOptions F :=
  { epoch := o.epoch, ep := o.xecco, argpp := o.xargpo, tc := 0.0, inclp := o.xinclo, nodep := o.xnodeo, np := no }

/-- the options with which initialisation calls `dsinit` -/
def dsinitArgs {F : Type} [Arith F] (o : SGP4InitOptions F) (no gsto mdot argpdot nodedot : F) : DsinitOptions F :=
  let d := dscom (dscomArgs o no)
  { cosim := d.q.cosim, emsq := d.q.emsq, argpo := o.xargpo, sun := d.sun, moon := d.moon, sinim := d.q.sinim,
    t := 0.0, tc := 0.0, gsto := gsto, mo := o.xmo, mdot := mdot, no := no, nodeo := o.xnodeo, nodedot := nodedot,
    xpidot := argpdot + nodedot, ecco := o.xecco, eccsq := o.xecco * o.xecco, em := o.xecco, argpm := 0.0, inclm := o.xinclo,
    mm := 0.0, nm := no, nodem := 0.0 }

theorem store_base {F : Type} [Arith F] {x y : Satrec F} (h : x.gsto = y.gsto) (d : DscomResult F) (q : DinitResult F) :
    (storeDsinit (storeDscom x d) q).toSatDeep = (storeDsinit (storeDscom y d) q).toSatDeep := by
  unfold storeDsinit storeDscom; dsimp only; rw [h]

theorem stored_deep {F : Type} [Arith F] {s s' : Satrec F} {o : SGP4InitOptions F} {r} (h : sgp4init s o = some (s', r))
    (guard : (1.0 - o.xecco * o.xecco ≥. 0.0) = true) (hD : s'.method = .D) :
    s'.toSatDeep = (storeDsinit (storeDscom s' (dscom (dscomArgs o s'.no)))
      (dsinit (dsinitArgs o s'.no s'.gsto s'.mdot s'.argpdot s'.nodedot) zeroRes)).toSatDeep := by
  have hm : (TWO_PI / s'.no ≥. 225.0) = true := (C07_classification s s' o r h (Or.inl guard)).1.mp hD
  obtain ⟨h1, h2⟩ := initRecord_near s o guard
  have hl := (sgp4init_left h).1
  have hno : s'.no = (initStart s o).no := by
    have h0 : s'.no = (initRecord s o).no := (congrArg (fun x : Satrec F => x.no) hl).trans rfl
    rw [h0, initRecord_elements]; rfl
  have hdeep : s'.toSatDeep = (initRecord s o).toSatDeep := (congrArg (fun x : Satrec F => x.toSatDeep) hl).trans rfl
  have hmd : s'.mdot = (initRecord s o).mdot := (congrArg (fun x : Satrec F => x.mdot) hl).trans rfl
  have had : s'.argpdot = (initRecord s o).argpdot := (congrArg (fun x : Satrec F => x.argpdot) hl).trans rfl
  have hnd : s'.nodedot = (initRecord s o).nodedot := (congrArg (fun x : Satrec F => x.nodedot) hl).trans rfl
  dsimp only at h1 h2
  set i := initlOf (resetSatrec s o) o.epoch with hi
  have hg : s'.gsto = (initStart s o).gsto := by
    have h0 : s'.gsto = (initRecord s o).gsto := (congrArg (fun x : Satrec F => x.gsto) hl).trans rfl
    rw [h0, h1]
    have h3 : ∀ (s : Satrec F) (i : InitlReturn F) (e x : F), (initDeep s i e x).gsto = s.gsto := by
      intro s i e x; unfold initDeep; split <;> rfl
    rw [initDrag_deep, h3]; rfl
  have hnear : ∀ (s : Satrec F) (i : InitlReturn F) (n : NearTmp F) (e x : F),
      (initDrag (initDeep s i e x) i n).mdot = s.mdot ∧ (initDrag (initDeep s i e x) i n).argpdot = s.argpdot ∧
      (initDrag (initDeep s i e x) i n).nodedot = s.nodedot := by
    intro s i n e x
    have hd : ∀ t : Satrec F, (initDrag t i n).mdot = t.mdot ∧ (initDrag t i n).argpdot = t.argpdot ∧
      (initDrag t i n).nodedot = t.nodedot := by intro t; unfold initDrag; split <;> exact ⟨rfl, rfl, rfl⟩
    have he : (initDeep s i e x).mdot = s.mdot ∧ (initDeep s i e x).argpdot = s.argpdot ∧
      (initDeep s i e x).nodedot = s.nodedot := by unfold initDeep; split <;> exact ⟨rfl, rfl, rfl⟩
    rw [(hd _).1, (hd _).2.1, (hd _).2.2]; exact he
  obtain ⟨n1, n2, n3⟩ := hnear (initNear (initStart s o) i).1 i (initNear (initStart s o) i).2 o.epoch
    (initNear (initStart s o) i).2.xpidot
  rw [← h1, ← hmd] at n1
  rw [← h1, ← had] at n2
  rw [← h1, ← hnd] at n3
  have hkey : s'.toSatDeep = (initDeep (initNear (initStart s o) i).1 i o.epoch (initNear (initStart s o) i).2.xpidot).toSatDeep := by
    rw [hdeep, h1, initDrag_deep]
  have hxp : (initNear (initStart s o) i).2.xpidot = s'.argpdot + s'.nodedot := by rw [n2, n3]; rfl
  have hstart : (initNear (initStart s o) i).1.toSatDeep = (initStart s o).toSatDeep := rfl
  have hstartE : (initNear (initStart s o) i).1.toSatElements = (initStart s o).toSatElements := rfl
  refine hkey.trans ?_
  rw [hno] at hm
  unfold initDeep
  rw [if_pos (show (TWO_PI / (initNear (initStart s o) i).1.no ≥. 225.0) = true from hm)]
  dsimp only
  rw [initDpper_id (by rfl)]
  refine (store_base (y := s') hg.symm _ _).trans ?_
  have e1 : dscom ⟨o.epoch, (initNear (initStart s o) i).1.ecco, (initNear (initStart s o) i).1.argpo, 0.0,
      (initNear (initStart s o) i).1.inclo, (initNear (initStart s o) i).1.nodeo, (initNear (initStart s o) i).1.no⟩
      = dscom (dscomArgs o s'.no) := by rw [hno]; rfl
  rw [e1]
  congr 2
  rw [hxp, dsinitArgs, hno, hg, n1, n3]
  rfl

/-! ## The sums of `dscom` as forms -/
open Spec Spec.R3 Spec.SDP

theorem frame_sum (node inc : ℝ) (V W : Vec3 ℝ) : dot V W = dot V (nodeDir node) * dot W (nodeDir node)
    + dot V (aheadDir node inc) * dot W (aheadDir node inc) + dot V (normalDir node inc) * dot W (normalDir node inc) := by
  have pn := Real.sin_sq_add_cos_sq node
  have pi' := Real.sin_sq_add_cos_sq inc
  simp only [dot, nodeDir, aheadDir, normalDir]
  generalize Real.sin node = sn at *
  generalize Real.cos node = cn at *
  generalize Real.sin inc = si at *
  generalize Real.cos inc = ci at *
  linear_combination (-(V.x * W.x) - V.y * W.y) * pn
    + (-(V.z * W.z) - sn ^ 2 * V.x * W.x - cn ^ 2 * V.y * W.y + sn * cn * (V.x * W.y + V.y * W.x)) * pi'

/-- the orbit for which `dscom` is called -/
def targetOf (o : DscomOptions ℝ) : Target := ⟨o.np, o.ep, o.inclp, o.argpp, o.nodep⟩

/-- what one pass of `dscom` computes, in terms of the forms -/
structure Forms (T : Target) (b : Perturber) (p : PassOut ℝ) : Prop where
  s1 : p.s1 = T.s1 b
  s2 : p.s2 = T.s2 b
  s3 : p.s3 = T.s3 b
  s4 : p.s4 = T.s4 b
  s5 : p.s5 = T.formE b.X b.X + T.formE b.Y b.Y
  s6 : p.s6 = T.formE b.X b.Y + T.formE b.Y b.X
  s7 : p.s7 = T.formE b.Y b.Y - T.formE b.X b.X
  z31 : p.z31 = T.formG b.X b.X
  z32 : p.z32 = T.formG b.X b.Y + T.formG b.Y b.X
  z33 : p.z33 = T.formG b.Y b.Y
  z1 : p.z1 = T.formL b.X b.X
  z2 : p.z2 = T.formL b.X b.Y + T.formL b.Y b.X
  z3 : p.z3 = T.formL b.Y b.Y
  z11 : p.z11 = T.formI b.X b.X
  z12 : p.z12 = T.formI b.X b.Y + T.formI b.Y b.X
  z13 : p.z13 = T.formI b.Y b.Y
  z21 : p.z21 = T.formH b.X b.X
  z22 : p.z22 = T.formH b.X b.Y + T.formH b.Y b.X
  z23 : p.z23 = T.formH b.Y b.Y

theorem forms_of_thirdBody {o : DscomOptions ℝ} {b : Perturber} {p : PassOut ℝ} (h : ThirdBody o b.X b.Y p)
    (h1 : p.s1 = (targetOf o).s1 b) (h2 : p.s2 = (targetOf o).s2 b) (h3 : p.s3 = (targetOf o).s3 b) (h4 : p.s4 = (targetOf o).s4 b) :
    Forms (targetOf o) b p := by
  have hN : (targetOf o).N = nodeDir o.nodep := by simp [Target.N, planeDir, nodeDir, targetOf]
  have hA : (targetOf o).A = aheadDir o.nodep o.inclp := by
    simp [Target.A, planeDir, aheadDir, targetOf]; ring_nf; trivial
  have hP : (targetOf o).P = perigeeDir o.nodep o.inclp o.argpp := by
    simp [Target.P, planeDir, perigeeDir, nodeDir, aheadDir, along, scale, targetOf]; constructor <;> ring
  have hQ : (targetOf o).Q = latusDir o.nodep o.inclp o.argpp := by
    simp [Target.Q, planeDir, latusDir, nodeDir, aheadDir, along, scale, targetOf]; constructor <;> ring
  have hW : (targetOf o).W = normalDir o.nodep o.inclp := rfl
  have he : (targetOf o).e = o.ep := rfl
  have hw : (targetOf o).argp = o.argpp := rfl
  have hXX := frame_sum o.nodep o.inclp b.X b.X
  have hXY := frame_sum o.nodep o.inclp b.X b.Y
  have hYY := frame_sum o.nodep o.inclp b.Y b.Y
  refine ⟨h1, h2, h3, h4, ?_, ?_, ?_, ?_, ?_, ?_, ?_, ?_, ?_, ?_, ?_, ?_, ?_, ?_, ?_⟩ <;>
    simp only [Target.formE, Target.formG, Target.formL, Target.formI, Target.formH, hN, hA, hP, hQ, hW, he, hw]
  · rw [h.s5]
  · rw [h.s6]; ring
  · rw [h.s7]
  · rw [h.z31]; ring
  · rw [h.z32]; ring
  · rw [h.z33]; ring
  · rw [h.z1, h.z31]; linear_combination 6 * hXX
  · rw [h.z2, h.z32]; linear_combination 12 * hXY
  · rw [h.z3, h.z33]; linear_combination 6 * hYY
  · rw [h.z11]
  · rw [h.z12]; ring
  · rw [h.z13]
  · rw [h.z21]
  · rw [h.z22]; ring
  · rw [h.z23]

theorem amplitudes (o : DscomOptions ℝ) (f : BodyFrame ℝ) (b : Perturber) (hcc : f.cc = b.cc) (he : 0 ≤ o.ep ∧ o.ep < 1) :
    let p := pass (satTrig o) f (1.0 / o.np)
    p.s1 = (targetOf o).s1 b ∧ p.s2 = (targetOf o).s2 b ∧ p.s3 = (targetOf o).s3 b ∧ p.s4 = (targetOf o).s4 b := by
  intro p
  have hβ : (satTrig o).rtemsq = (targetOf o).β := by
    unfold satTrig Target.β
    simp only [real_sqrt, real_powi2]
    norm_num1; rfl
  have h3 : p.s3 = (targetOf o).s3 b := by
    show f.cc * (1.0 / o.np) = b.cc / o.np
    rw [hcc]; norm_num1; ring
  have h4 : p.s4 = (targetOf o).s4 b := by
    show p.s3 * (satTrig o).rtemsq = _
    rw [h3, hβ]; rfl
  have h2 : p.s2 = (targetOf o).s2 b := by
    show (-0.5 * p.s3) / (satTrig o).rtemsq = -(targetOf o).s3 b / (2 * (targetOf o).β)
    rw [h3, hβ]
    have hb : (targetOf o).β ≠ 0 := by
      have : 0 < (targetOf o).β := Real.sqrt_pos.mpr (by show 0 < 1 - o.ep ^ 2; nlinarith [he.1, he.2])
      exact this.ne'
    generalize (targetOf o).β = B at *
    norm_num1; field_simp
  refine ⟨?_, h2, h3, h4⟩
  show -15.0 * o.ep * p.s4 = _
  rw [h4]; unfold Target.s1; norm_num1; rfl

theorem sun_forms (o : DscomOptions ℝ) (he : 0 ≤ o.ep ∧ o.ep < 1) : Forms (targetOf o) sun (dscom o).sun := by
  have hX : sun.X = bodyX 0.1945905 (-0.98088458) 0.91744867 0.39785416 1 0 := rfl
  have hY : sun.Y = bodyY 0.1945905 (-0.98088458) 0.91744867 0.39785416 1 0 := by
    unfold sun planeDir bodyY; norm_num
  obtain ⟨a1, a2, a3, a4⟩ := amplitudes o (solarFrame (satTrig o)) sun (by unfold solarFrame sun; norm_num) he
  refine forms_of_thirdBody (p := (dscom o).sun) ?_ a1 a2 a3 a4
  rw [hX, hY]
  exact thirdBody_of_frame o (solarFrame (satTrig o)) _ 1 0 (by simp [solarFrame, satTrig]) (by simp [solarFrame, satTrig])

/-- days from 1900 January 0.5, for an epoch counted in days from 1949 December 31.0 -/
def dayOf (epoch : ℝ) : ℝ := epoch + 18261.5

theorem lunar_moon (epoch tc : ℝ) :
    let l := lunar epoch tc
    let d := dayOf epoch + tc / 1440
    l.day = d ∧ l.gam = moonPerigee d ∧ l.zcosil = moonCosInc d ∧ l.zsinil = moonSinInc d ∧ l.zsinhl = moonSinRaan d ∧
    l.zcoshl = moonCosRaan d ∧ l.zcosgl = Real.cos (moonArgp d) ∧ l.zsingl = Real.sin (moonArgp d) := by
  intro l d
  have hd : l.day = d := by
    show epoch + 18261.5 + tc / 1440.0 = dayOf epoch + tc / 1440
    unfold dayOf; norm_num
  have hx : SameAngle l.xnodce (moonNode d) := by
    show SameAngle (remR (4.5236020 - 9.2422029e-4 * l.day) TWO_PI) _
    rw [real_TWO_PI, hd]
    refine sameAngle_trans (sameAngle_rem _) ⟨0, ?_⟩
    unfold moonNode; norm_num
  have hs : l.stem = Real.sin (moonNode d) := sameAngle_sin hx
  have hc : l.ctem = Real.cos (moonNode d) := sameAngle_cos hx
  have hg : l.gam = moonPerigee d := by
    show 5.8351514 + 0.0019443680 * l.day = _
    rw [hd]; rfl
  have hci : l.zcosil = moonCosInc d := by
    show 0.91375164 - 0.03568096 * l.ctem = _
    rw [hc]; rfl
  have hsi : l.zsinil = moonSinInc d := by
    show Real.sqrt (1.0 - l.zcosil * l.zcosil) = _
    rw [hci]; unfold moonSinInc; congr 1; norm_num1; ring
  have hsh : l.zsinhl = moonSinRaan d := by
    show (0.089683511 * l.stem) / l.zsinil = _
    rw [hs, hsi]; rfl
  have hch : l.zcoshl = moonCosRaan d := by
    show Real.sqrt (1.0 - l.zsinhl * l.zsinhl) = _
    rw [hsh]; unfold moonCosRaan; congr 1; norm_num1; ring
  have hz : SameAngle (atan2R ((0.39785416 * l.stem) / l.zsinil) ((l.zcoshl * l.ctem) + (0.91744867 * l.zsinhl * l.stem))
      + (l.gam - l.xnodce)) (moonArgp d) := by
    rw [hs, hc, hsi, hch, hsh, hg]
    exact sameAngle_add (sameAngle_refl _) (sameAngle_sub (sameAngle_refl _) hx)
  exact ⟨hd, hg, hci, hsi, hsh, hch, sameAngle_cos hz, sameAngle_sin hz⟩

theorem moon_forms (o : DscomOptions ℝ) (he : 0 ≤ o.ep ∧ o.ep < 1) :
    Forms (targetOf o) (moon (dayOf o.epoch + o.tc / 1440)) (dscom o).moon := by
  obtain ⟨-, -, hci, hsi, hsh, hch, hcg, hsg⟩ := lunar_moon o.epoch o.tc
  obtain ⟨a1, a2, a3, a4⟩ := amplitudes o (lunarFrame (satTrig o) (lunar o.epoch o.tc)) (moon (dayOf o.epoch + o.tc / 1440))
    (by unfold lunarFrame moon; norm_num) he
  refine forms_of_thirdBody (p := (dscom o).moon) ?_ a1 a2 a3 a4
  have ht := thirdBody_of_frame o (lunarFrame (satTrig o) (lunar o.epoch o.tc)) (1.0 / o.np)
    (lunar o.epoch o.tc).zcoshl (lunar o.epoch o.tc).zsinhl rfl rfl
  have hX : (moon (dayOf o.epoch + o.tc / 1440)).X =
      bodyX (lunar o.epoch o.tc).zcosgl (lunar o.epoch o.tc).zsingl (lunar o.epoch o.tc).zcosil (lunar o.epoch o.tc).zsinil
        (lunar o.epoch o.tc).zcoshl (lunar o.epoch o.tc).zsinhl := by
    rw [hci, hsi, hsh, hch, hcg, hsg]; rfl
  have hY : (moon (dayOf o.epoch + o.tc / 1440)).Y =
      bodyY (lunar o.epoch o.tc).zcosgl (lunar o.epoch o.tc).zsingl (lunar o.epoch o.tc).zcosil (lunar o.epoch o.tc).zsinil
        (lunar o.epoch o.tc).zcoshl (lunar o.epoch o.tc).zsinhl := by
    rw [hci, hsi, hsh, hch, hcg, hsg]; unfold moon planeDir bodyY; simp
  rw [hX, hY]
  exact ht

/-- **C61.** The lunar-solar coefficients stored for a deep-space element set: the coefficient of each of the three functions of the
perturbing body's position (`f2`, `f3`, `sin ζ`), for each of the five elements, first the Sun's, then the Moon's; the epoch values
to be subtracted are zero; the phases are the bodies' mean anomalies at epoch. -/
theorem C61_lunar_solar_coefficients (s s' : Satrec ℝ) (o : SGP4InitOptions ℝ) (r : Except SGP4Error (SGP4Result ℝ))
    (h : sgp4init s o = some (s', r)) (he : 0 ≤ o.xecco ∧ o.xecco < 1) (hD : s'.method = .D) :
    let T : Target := ⟨recoveredMotion o.xno o.xecco o.xinclo, o.xecco, o.xinclo, o.xargpo, o.xnodeo⟩
    let day := o.epoch + 18261.5
    let m := moon day
    (s'.se2 = 2 * T.s1 sun * (T.formE sun.X sun.Y + T.formE sun.Y sun.X) ∧
      s'.se3 = 2 * T.s1 sun * (T.formE sun.Y sun.Y - T.formE sun.X sun.X)) ∧
    (s'.si2 = 2 * T.s2 sun * (T.formI sun.X sun.Y + T.formI sun.Y sun.X) ∧
      s'.si3 = 2 * T.s2 sun * (T.formI sun.Y sun.Y - T.formI sun.X sun.X)) ∧
    (s'.sl2 = -2 * T.s3 sun * (T.formL sun.X sun.Y + T.formL sun.Y sun.X) ∧
      s'.sl3 = -2 * T.s3 sun * (T.formL sun.Y sun.Y - T.formL sun.X sun.X) ∧
      s'.sl4 = 2 * T.s3 sun * (21 + 9 * T.e ^ 2) * sun.ze) ∧
    (s'.sgh2 = 2 * T.s4 sun * (T.formG sun.X sun.Y + T.formG sun.Y sun.X) ∧
      s'.sgh3 = 2 * T.s4 sun * (T.formG sun.Y sun.Y - T.formG sun.X sun.X) ∧ s'.sgh4 = -18 * T.s4 sun * sun.ze) ∧
    (s'.sh2 = -2 * T.s2 sun * (T.formH sun.X sun.Y + T.formH sun.Y sun.X) ∧
      s'.sh3 = -2 * T.s2 sun * (T.formH sun.Y sun.Y - T.formH sun.X sun.X)) ∧
    (s'.ee2 = 2 * T.s1 m * (T.formE m.X m.Y + T.formE m.Y m.X) ∧ s'.e3 = 2 * T.s1 m * (T.formE m.Y m.Y - T.formE m.X m.X)) ∧
    (s'.xi2 = 2 * T.s2 m * (T.formI m.X m.Y + T.formI m.Y m.X) ∧ s'.xi3 = 2 * T.s2 m * (T.formI m.Y m.Y - T.formI m.X m.X)) ∧
    (s'.xl2 = -2 * T.s3 m * (T.formL m.X m.Y + T.formL m.Y m.X) ∧ s'.xl3 = -2 * T.s3 m * (T.formL m.Y m.Y - T.formL m.X m.X) ∧
      s'.xl4 = 2 * T.s3 m * (21 + 9 * T.e ^ 2) * m.ze) ∧
    (s'.xgh2 = 2 * T.s4 m * (T.formG m.X m.Y + T.formG m.Y m.X) ∧ s'.xgh3 = 2 * T.s4 m * (T.formG m.Y m.Y - T.formG m.X m.X) ∧
      s'.xgh4 = -18 * T.s4 m * m.ze) ∧
    (s'.xh2 = -2 * T.s2 m * (T.formH m.X m.Y + T.formH m.Y m.X) ∧ s'.xh3 = -2 * T.s2 m * (T.formH m.Y m.Y - T.formH m.X m.X)) ∧
    (s'.peo = 0 ∧ s'.pinco = 0 ∧ s'.plo = 0 ∧ s'.pgho = 0 ∧ s'.pho = 0) ∧
    SameAngle s'.zmos (sunAnomaly day 0) ∧ SameAngle s'.zmol (moonAnomaly day 0) := by
  intro T day m
  have hs := stored_deep h (guard_real he) hD
  rw [C56_recovered_motion s s' o r h he] at hs
  set a := dscomArgs o (recoveredMotion o.xno o.xecco o.xinclo) with ha
  have hT : targetOf a = T := rfl
  have hday : dayOf a.epoch + a.tc / 1440 = day := by
    show o.epoch + 18261.5 + (0.0 : ℝ) / 1440 = o.epoch + 18261.5
    norm_num
  have hsun := sun_forms a he
  have hmoon := moon_forms a he
  rw [hT] at hsun
  rw [hT, hday] at hmoon
  have hem : (dscom a).q.emsq = T.e ^ 2 := by
    show powi2 o.xecco = o.xecco ^ 2
    rw [real_powi2]
  obtain ⟨ld, lg, -⟩ := lunar_moon a.epoch a.tc
  rw [hday] at ld lg
  have l2 : (2.0 : ℝ) = 2 ∧ (-2.0 : ℝ) = -2 ∧ (21.0 : ℝ) = 21 ∧ (9.0 : ℝ) = 9 ∧ (18.0 : ℝ) = 18 := by norm_num
  have g : ∀ f : SatDeep ℝ → ℝ, f s'.toSatDeep = f (storeDsinit (storeDscom s' (dscom a))
      (dsinit (dsinitArgs o (recoveredMotion o.xno o.xecco o.xinclo) s'.gsto s'.mdot s'.argpdot s'.nodedot) zeroRes)).toSatDeep :=
    fun f => congrArg f hs
  refine ⟨⟨?_, ?_⟩, ⟨?_, ?_⟩, ⟨?_, ?_, ?_⟩, ⟨?_, ?_, ?_⟩, ⟨?_, ?_⟩, ⟨?_, ?_⟩, ⟨?_, ?_⟩, ⟨?_, ?_, ?_⟩, ⟨?_, ?_, ?_⟩, ⟨?_, ?_⟩,
    ⟨?_, ?_, ?_, ?_, ?_⟩, ?_, ?_⟩
  · rw [g (·.se2)]; show 2.0 * (dscom a).sun.s1 * (dscom a).sun.s6 = _; rw [hsun.s1, hsun.s6, l2.1]
  · rw [g (·.se3)]; show 2.0 * (dscom a).sun.s1 * (dscom a).sun.s7 = _; rw [hsun.s1, hsun.s7, l2.1]
  · rw [g (·.si2)]; show 2.0 * (dscom a).sun.s2 * (dscom a).sun.z12 = _; rw [hsun.s2, hsun.z12, l2.1]
  · rw [g (·.si3)]; show 2.0 * (dscom a).sun.s2 * ((dscom a).sun.z13 - (dscom a).sun.z11) = _
    rw [hsun.s2, hsun.z13, hsun.z11, l2.1]
  · rw [g (·.sl2)]; show -2.0 * (dscom a).sun.s3 * (dscom a).sun.z2 = _; rw [hsun.s3, hsun.z2, l2.1]
  · rw [g (·.sl3)]; show -2.0 * (dscom a).sun.s3 * ((dscom a).sun.z3 - (dscom a).sun.z1) = _
    rw [hsun.s3, hsun.z3, hsun.z1, l2.1]
  · rw [g (·.sl4)]; show -2.0 * (dscom a).sun.s3 * (-21.0 - 9.0 * (dscom a).q.emsq) * 0.01675 = _
    rw [hsun.s3, hem, l2.1, l2.2.2.1, l2.2.2.2.1]
    show _ = 2 * T.s3 sun * (21 + 9 * T.e ^ 2) * 0.01675
    norm_num1; ring
  · rw [g (·.sgh2)]; show 2.0 * (dscom a).sun.s4 * (dscom a).sun.z32 = _; rw [hsun.s4, hsun.z32, l2.1]
  · rw [g (·.sgh3)]; show 2.0 * (dscom a).sun.s4 * ((dscom a).sun.z33 - (dscom a).sun.z31) = _
    rw [hsun.s4, hsun.z33, hsun.z31, l2.1]
  · rw [g (·.sgh4)]; show -18.0 * (dscom a).sun.s4 * 0.01675 = _
    rw [hsun.s4, l2.2.2.2.2]; rfl
  · rw [g (·.sh2)]; show -2.0 * (dscom a).sun.s2 * (dscom a).sun.z22 = _; rw [hsun.s2, hsun.z22, l2.1]
  · rw [g (·.sh3)]; show -2.0 * (dscom a).sun.s2 * ((dscom a).sun.z23 - (dscom a).sun.z21) = _
    rw [hsun.s2, hsun.z23, hsun.z21, l2.1]
  · rw [g (·.ee2)]; show 2.0 * (dscom a).moon.s1 * (dscom a).moon.s6 = _; rw [hmoon.s1, hmoon.s6, l2.1]
  · rw [g (·.e3)]; show 2.0 * (dscom a).moon.s1 * (dscom a).moon.s7 = _; rw [hmoon.s1, hmoon.s7, l2.1]
  · rw [g (·.xi2)]; show 2.0 * (dscom a).moon.s2 * (dscom a).moon.z12 = _; rw [hmoon.s2, hmoon.z12, l2.1]
  · rw [g (·.xi3)]; show 2.0 * (dscom a).moon.s2 * ((dscom a).moon.z13 - (dscom a).moon.z11) = _
    rw [hmoon.s2, hmoon.z13, hmoon.z11, l2.1]
  · rw [g (·.xl2)]; show -2.0 * (dscom a).moon.s3 * (dscom a).moon.z2 = _; rw [hmoon.s3, hmoon.z2, l2.1]
  · rw [g (·.xl3)]; show -2.0 * (dscom a).moon.s3 * ((dscom a).moon.z3 - (dscom a).moon.z1) = _
    rw [hmoon.s3, hmoon.z3, hmoon.z1, l2.1]
  · rw [g (·.xl4)]; show -2.0 * (dscom a).moon.s3 * (-21.0 - 9.0 * (dscom a).q.emsq) * 0.05490 = _
    rw [hmoon.s3, hem, l2.1, l2.2.2.1, l2.2.2.2.1]
    show _ = 2 * T.s3 m * (21 + 9 * T.e ^ 2) * 0.0549
    norm_num1; ring
  · rw [g (·.xgh2)]; show 2.0 * (dscom a).moon.s4 * (dscom a).moon.z32 = _; rw [hmoon.s4, hmoon.z32, l2.1]
  · rw [g (·.xgh3)]; show 2.0 * (dscom a).moon.s4 * ((dscom a).moon.z33 - (dscom a).moon.z31) = _
    rw [hmoon.s4, hmoon.z33, hmoon.z31, l2.1]
  · rw [g (·.xgh4)]; show -18.0 * (dscom a).moon.s4 * 0.05490 = _
    rw [hmoon.s4, l2.2.2.2.2]; show _ = -18 * T.s4 m * 0.0549; norm_num1; rfl
  · rw [g (·.xh2)]; show -2.0 * (dscom a).moon.s2 * (dscom a).moon.z22 = _; rw [hmoon.s2, hmoon.z22, l2.1]
  · rw [g (·.xh3)]; show -2.0 * (dscom a).moon.s2 * ((dscom a).moon.z23 - (dscom a).moon.z21) = _
    rw [hmoon.s2, hmoon.z23, hmoon.z21, l2.1]
  · rw [g (·.peo)]; show (0.0 : ℝ) = 0; norm_num
  · rw [g (·.pinco)]; show (0.0 : ℝ) = 0; norm_num
  · rw [g (·.plo)]; show (0.0 : ℝ) = 0; norm_num
  · rw [g (·.pgho)]; show (0.0 : ℝ) = 0; norm_num
  · rw [g (·.pho)]; show (0.0 : ℝ) = 0; norm_num
  · rw [g (·.zmos)]
    show SameAngle (remR (6.2565837 + 0.017201977 * (lunar a.epoch a.tc).day) TWO_PI) _
    rw [real_TWO_PI, ld]
    refine sameAngle_trans (sameAngle_rem _) ⟨0, ?_⟩
    unfold sunAnomaly; norm_num
  · rw [g (·.zmol)]
    show SameAngle (remR (4.7199672 + (0.22997150 * (lunar a.epoch a.tc).day - (lunar a.epoch a.tc).gam)) TWO_PI) _
    rw [real_TWO_PI, ld, lg]
    refine sameAngle_trans (sameAngle_rem _) ⟨0, ?_⟩
    unfold moonAnomaly; norm_num1; ring

open Classical in
/-- The secular rates of `dsinit`, in terms of the forms. -/
theorem secularRates_forms (b : DsinitOptions ℝ) (T : Target) (p q : Perturber) (hp : Forms T p b.sun) (hq : Forms T q b.moon)
    (hi : b.inclm = T.inc) (hsi : b.sinim = Real.sin T.inc) (hci : b.cosim = Real.cos T.inc) (he : b.emsq = T.e ^ 2)
    (zp : p.zn = 1.19459e-5) (zq : q.zn = 1.5835218e-4) :
    (secularRates b).dedt = T.rateE p + T.rateE q ∧ (secularRates b).didt = T.rateI p + T.rateI q ∧
    (secularRates b).dmdt = T.rateM p + T.rateM q ∧ (secularRates b).dnodt = T.rateΩ p + T.rateΩ q ∧
    (secularRates b).domdt = T.rateω p + T.rateω q := by
  have hflat : ((b.inclm <. 5.2359877e-2) || (b.inclm >. (Arith.pi - 5.2359877e-2))) = decide T.nearEquator := by
    rw [hi]
    show (decide (T.inc < 5.2359877e-2) || decide (Real.pi - 5.2359877e-2 < T.inc)) = _
    unfold Target.nearEquator
    rw [Bool.eq_iff_iff]
    simp only [Bool.or_eq_true, decide_eq_true_eq]
    norm_num
  have l : (14.0 : ℝ) = 14 ∧ (6.0 : ℝ) = 6 ∧ (0.0 : ℝ) = 0 := by norm_num
  have hz : ∀ x : ℝ, (x ==. (0 : ℝ)) = decide (x = 0) := fun x => rfl
  unfold secularRates
  simp only [hflat, hz, ← zp, ← zq, hp.s1, hp.s2, hp.s3, hp.s4, hp.s5, hp.z11, hp.z13, hp.z1, hp.z3, hp.z31, hp.z33, hp.z21, hp.z23,
    hq.s1, hq.s2, hq.s3, hq.s4, hq.s5, hq.z11, hq.z13, hq.z1, hq.z3, hq.z31, hq.z33, hq.z21, hq.z23, hsi, hci, he, l.1, l.2.1, l.2.2]
  unfold Target.rateE Target.rateI Target.rateM Target.rateω Target.rateΩ Target.rateG Target.rateH
  refine ⟨by ring, by ring, by ring, ?_, ?_⟩
  · by_cases hf : T.nearEquator
    · by_cases h0 : Real.sin T.inc = 0 <;> simp [hf, h0]
    · have hpos : 0 < Real.sin T.inc := by
        unfold Target.nearEquator at hf
        push Not at hf
        exact Real.sin_pos_of_pos_of_lt_pi (by linarith [hf.1]) (by linarith [hf.2])
      simp only [hf, hpos.ne', decide_false, if_false, Bool.false_eq_true]
  · by_cases hf : T.nearEquator
    · by_cases h0 : Real.sin T.inc = 0 <;> simp [hf, h0] <;> ring
    · have hpos : 0 < Real.sin T.inc := by
        unfold Target.nearEquator at hf
        push Not at hf
        exact Real.sin_pos_of_pos_of_lt_pi (by linarith [hf.1]) (by linarith [hf.2])
      simp only [hf, hpos.ne', decide_false, if_false, Bool.false_eq_true]
      ring

/-- **C61.** The lunar-solar secular rates stored for a deep-space element set are the sums of the Sun's and the Moon's. -/
theorem C61_lunar_solar_rates (s s' : Satrec ℝ) (o : SGP4InitOptions ℝ) (r : Except SGP4Error (SGP4Result ℝ))
    (h : sgp4init s o = some (s', r)) (he : 0 ≤ o.xecco ∧ o.xecco < 1) (hD : s'.method = .D) :
    let T : Target := ⟨recoveredMotion o.xno o.xecco o.xinclo, o.xecco, o.xinclo, o.xargpo, o.xnodeo⟩
    let m := moon (o.epoch + 18261.5)
    s'.dedt = T.rateE sun + T.rateE m ∧ s'.didt = T.rateI sun + T.rateI m ∧ s'.dmdt = T.rateM sun + T.rateM m ∧
    s'.dnodt = T.rateΩ sun + T.rateΩ m ∧ s'.domdt = T.rateω sun + T.rateω m := by
  intro T m
  have hs := stored_deep h (guard_real he) hD
  rw [C56_recovered_motion s s' o r h he] at hs
  set a := dscomArgs o (recoveredMotion o.xno o.xecco o.xinclo) with ha
  have hT : targetOf a = T := rfl
  have hday : dayOf a.epoch + a.tc / 1440 = o.epoch + 18261.5 := by
    show o.epoch + 18261.5 + (0.0 : ℝ) / 1440 = o.epoch + 18261.5
    norm_num
  have hsun := sun_forms a he
  have hmoon := moon_forms a he
  rw [hT] at hsun
  rw [hT, hday] at hmoon
  set b := dsinitArgs o (recoveredMotion o.xno o.xecco o.xinclo) s'.gsto s'.mdot s'.argpdot s'.nodedot with hb
  have g : ∀ f : SatDeep ℝ → ℝ, f s'.toSatDeep = f (storeDsinit (storeDscom s' (dscom a)) (dsinit b zeroRes)).toSatDeep :=
    fun f => congrArg f hs
  have hr : (dsinit b zeroRes).rates = secularRates b := by
    unfold dsinit; dsimp only; split <;> rfl
  have hbs : b.sun = (dscom a).sun := rfl
  have hbm : b.moon = (dscom a).moon := rfl
  have hbi : b.inclm = T.inc := rfl
  have hbsi : b.sinim = Real.sin T.inc := rfl
  have hbci : b.cosim = Real.cos T.inc := rfl
  have hbe : b.emsq = T.e ^ 2 := by
    show powi2 o.xecco = o.xecco ^ 2
    rw [real_powi2]
  have gE : s'.dedt = (secularRates b).dedt := by rw [g (·.dedt)]; show (dsinit b zeroRes).rates.dedt = _; rw [hr]
  have gI : s'.didt = (secularRates b).didt := by rw [g (·.didt)]; show (dsinit b zeroRes).rates.didt = _; rw [hr]
  have gM : s'.dmdt = (secularRates b).dmdt := by rw [g (·.dmdt)]; show (dsinit b zeroRes).rates.dmdt = _; rw [hr]
  have gN : s'.dnodt = (secularRates b).dnodt := by rw [g (·.dnodt)]; show (dsinit b zeroRes).rates.dnodt = _; rw [hr]
  have gW : s'.domdt = (secularRates b).domdt := by rw [g (·.domdt)]; show (dsinit b zeroRes).rates.domdt = _; rw [hr]
  rw [gE, gI, gM, gN, gW]
  clear gE gI gM gN gW g hs
  exact secularRates_forms b T sun m hsun hmoon hbi hbsi hbci hbe (by unfold sun; norm_num) (by show (moon _).zn = _; unfold moon; norm_num)

end Sat
