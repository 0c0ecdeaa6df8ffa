import Verif.Props.Propagate
/-!
# C10: which deep-space corrections reach the result (every arithmetic)

`SatDeep` holds the 56 deep-space fields of the record: secular rates (`dedt didt dmdt dnodt domdt`), resonance
coefficients, integrator state, and the coefficients of the lunar-solar periodics of eccentricity (`se2 se3 ee2 e3 peo`),
inclination (`si2 si3 xi2 xi3 pinco`), mean anomaly (`sl* xl* plo`), perigee (`sgh* xgh* pgho`) and node (`sh* xh* pho`).
-/

set_option linter.unusedSectionVars false

namespace Sat
variable {F : Type} [Arith F]

theorem dpper_ep_incl (s : Satrec F) (o : DpperOptions F) (h : o.init = .N) :
    (dpper s o).ep = o.ep + ((periodics s .N).pe - s.peo) ∧
    (dpper s o).inclp = o.inclp + ((periodics s .N).pinc - s.pinco) := by
  unfold dpper
  dsimp only
  rw [if_pos h, h]
  split
  · exact ⟨rfl, rfl⟩
  · exact ⟨rfl, rfl⟩

/-- The two lunar-solar sums that matter: eccentricity and inclination, minus their epoch values. -/
theorem perturbed_ep_incl (s : Satrec F) (t : F) :
    (Spec.perturbed s t).ep = Spec.ecc s t + ((periodics { s with t := t } .N).pe - s.peo) ∧
    (Spec.perturbed s t).inclp = s.inclo + ((periodics { s with t := t } .N).pinc - s.pinco) :=
  dpper_ep_incl _ _ rfl

theorem spec_deepfields (s : Satrec F) (t : F) (p : SatDeep F) (h1 : p.dedt = s.dedt)
    (h4 : (Spec.perturbed { s with toSatDeep := p } t).inclp = (Spec.perturbed s t).inclp) :
    Spec.semiLatus { s with toSatDeep := p } t = Spec.semiLatus s t ∧
    Spec.radius { s with toSatDeep := p } t = Spec.radius s t ∧
    Spec.position { s with toSatDeep := p } t = Spec.position s t ∧
    Spec.velocity { s with toSatDeep := p } t = Spec.velocity s t ∧
    Spec.ecc { s with toSatDeep := p } t = Spec.ecc s t ∧
    Spec.meanEcc { s with toSatDeep := p } t = Spec.meanEcc s t := by
  have hme : Spec.meanEcc { s with toSatDeep := p } t = Spec.meanEcc s t := by
    show (if s.method = .D then s.ecco + p.dedt * t else s.ecco) - Spec.dragE s t = _
    rw [h1]; rfl
  have hec : Spec.ecc { s with toSatDeep := p } t = Spec.ecc s t := by unfold Spec.ecc; rw [hme]
  have hin : Spec.incl { s with toSatDeep := p } t = Spec.incl s t := by
    show (if s.method = .D then _ else s.inclo) = _
    rw [h4]; rfl
  have hsm : Spec.semiMajor { s with toSatDeep := p } t = Spec.semiMajor s t := rfl
  have hpr : Spec.perigeeR { s with toSatDeep := p } t = Spec.perigeeR s t := rfl
  have hnr : Spec.nodeR { s with toSatDeep := p } t = Spec.nodeR s t := rfl
  have har : Spec.anomalyR { s with toSatDeep := p } t = Spec.anomalyR s t := rfl
  have hay : Spec.ayCoef { s with toSatDeep := p } t = Spec.ayCoef s t := by
    unfold Spec.ayCoef; rw [hin]
  have hxl : Spec.xlCoef { s with toSatDeep := p } t = Spec.xlCoef s t := by
    unfold Spec.xlCoef; rw [hin]
  have hip : Spec.invP { s with toSatDeep := p } t = Spec.invP s t := by unfold Spec.invP; rw [hec, hsm]
  have hax : Spec.axn { s with toSatDeep := p } t = Spec.axn s t := by unfold Spec.axn; rw [hec, hpr]
  have hyn : Spec.ayn { s with toSatDeep := p } t = Spec.ayn s t := by unfold Spec.ayn; rw [hec, hpr, hip, hay]
  have hku : Spec.keplerU { s with toSatDeep := p } t = Spec.keplerU s t := by
    unfold Spec.keplerU; rw [har, hpr, hnr, hip, hxl, hax]
  have hsc : Spec.sinCosE { s with toSatDeep := p } t = Spec.sinCosE s t := by
    unfold Spec.sinCosE; rw [hku, hax, hyn]
  have hsl : Spec.semiLatus { s with toSatDeep := p } t = Spec.semiLatus s t := by
    unfold Spec.semiLatus; rw [hsm, hax, hyn]
  have hr0 : Spec.radius0 { s with toSatDeep := p } t = Spec.radius0 s t := by
    unfold Spec.radius0; rw [hsm, hax, hyn, hsc]
  have hbe : Spec.beta { s with toSatDeep := p } t = Spec.beta s t := by unfold Spec.beta; rw [hax, hyn]
  have hes : Spec.esinE { s with toSatDeep := p } t = Spec.esinE s t := by
    unfold Spec.esinE; rw [hax, hyn, hsc, hbe]
  have hsu : Spec.sinU { s with toSatDeep := p } t = Spec.sinU s t := by
    unfold Spec.sinU; rw [hsm, hr0, hsc, hyn, hax, hes]
  have hcu : Spec.cosU { s with toSatDeep := p } t = Spec.cosU s t := by
    unfold Spec.cosU; rw [hsm, hr0, hsc, hyn, hax, hes]
  have hk1 : Spec.k1 { s with toSatDeep := p } t = Spec.k1 s t := by unfold Spec.k1; rw [hsl]
  have hk2 : Spec.k2 { s with toSatDeep := p } t = Spec.k2 s t := by unfold Spec.k2; rw [hsl, hk1]
  have htc : Spec.threeCos { s with toSatDeep := p } t = Spec.threeCos s t := by unfold Spec.threeCos; rw [hin]
  have hoc : Spec.oneMinusCos { s with toSatDeep := p } t = Spec.oneMinusCos s t := by
    unfold Spec.oneMinusCos; rw [hin]
  have h7c : Spec.sevenCos { s with toSatDeep := p } t = Spec.sevenCos s t := by unfold Spec.sevenCos; rw [hin]
  have hc2 : Spec.cos2u { s with toSatDeep := p } t = Spec.cos2u s t := by unfold Spec.cos2u; rw [hsu]
  have hs2 : Spec.sin2u { s with toSatDeep := p } t = Spec.sin2u s t := by unfold Spec.sin2u; rw [hsu, hcu]
  have hra : Spec.radius { s with toSatDeep := p } t = Spec.radius s t := by
    unfold Spec.radius; rw [hr0, hk2, hbe, htc, hk1, hoc, hc2]
  have hal : Spec.argLat { s with toSatDeep := p } t = Spec.argLat s t := by
    unfold Spec.argLat; rw [hsu, hcu, hk2, h7c, hs2]
  have hns : Spec.nodeS { s with toSatDeep := p } t = Spec.nodeS s t := by
    unfold Spec.nodeS; rw [hnr, hk2, hin, hs2]
  have his : Spec.inclS { s with toSatDeep := p } t = Spec.inclS s t := by
    unfold Spec.inclS; rw [hin, hk2, hc2]
  have hmo : Spec.motion { s with toSatDeep := p } t = Spec.motion s t := rfl
  have hrd : Spec.rdot { s with toSatDeep := p } t = Spec.rdot s t := by
    unfold Spec.rdot; rw [hsm, hax, hyn, hsc, hr0, hmo, hk1, hoc, hs2]
  have hrf : Spec.rfdot { s with toSatDeep := p } t = Spec.rfdot s t := by
    unfold Spec.rfdot; rw [hsl, hr0, hmo, hk1, hoc, hc2, htc]
  refine ⟨hsl, hra, ?_, ?_, hec, hme⟩
  · unfold Spec.position; rw [hra, hal, hns, his]
  · unfold Spec.velocity; rw [hrd, hrf, hal, hns, his]

/-- **C10 is violated.**  Change every deep-space field of a record arbitrarily — secular rates of node, perigee, inclination
and mean anomaly, all resonance coefficients and the integrator state, the periodics of node, perigee and mean anomaly —
except the eccentricity drift `dedt` and the periodics of eccentricity and inclination (with the phases `zmos`, `zmol`):
`sgp4` still returns the same result at every time (whenever both calls return). -/
theorem C10_violated_corrections_discarded (s a b : Satrec F) (t : F) (r q : Except SGP4Error (SGP4Result F))
    (p : SatDeep F)
    (hdedt : p.dedt = s.dedt) (hphase : p.zmos = s.zmos ∧ p.zmol = s.zmol)
    (hecc : p.se2 = s.se2 ∧ p.se3 = s.se3 ∧ p.ee2 = s.ee2 ∧ p.e3 = s.e3 ∧ p.peo = s.peo)
    (hincl : p.si2 = s.si2 ∧ p.si3 = s.si3 ∧ p.xi2 = s.xi2 ∧ p.xi3 = s.xi3 ∧ p.pinco = s.pinco)
    (h : sgp4 s t = some (a, r)) (h' : sgp4 { s with toSatDeep := p } t = some (b, q)) :
    q = r := by
  obtain ⟨e1, e2, e3, e4, e5⟩ := hecc
  obtain ⟨i1, i2, i3, i4, i5⟩ := hincl
  rw [C16_outcome _ _ _ _ h, C16_outcome _ _ _ _ h']
  have hpe : (periodics { s with toSatDeep := p, t := t } .N).pe = (periodics { s with t := t } .N).pe := by
    simp only [periodics, hphase.1, hphase.2, e1, e2, e3, e4]
  have hpi : (periodics { s with toSatDeep := p, t := t } .N).pinc = (periodics { s with t := t } .N).pinc := by
    simp only [periodics, hphase.1, hphase.2, i1, i2, i3, i4]
  have hin : (Spec.perturbed { s with toSatDeep := p } t).inclp = (Spec.perturbed s t).inclp := by
    rw [(perturbed_ep_incl s t).2, (perturbed_ep_incl { s with toSatDeep := p } t).2]
    show s.inclo + ((periodics { s with toSatDeep := p, t := t } .N).pinc - p.pinco) = _
    rw [hpi, i5]
  obtain ⟨f1, f2, f3, f4, f5, f6⟩ := spec_deepfields s t p hdedt hin
  have hep : (Spec.perturbed { s with toSatDeep := p } t).ep = (Spec.perturbed s t).ep := by
    rw [(perturbed_ep_incl s t).1, (perturbed_ep_incl { s with toSatDeep := p } t).1, f5]
    show Spec.ecc s t + ((periodics { s with toSatDeep := p, t := t } .N).pe - p.peo) = _
    rw [hpe, e5]
  unfold Spec.result
  rw [f1, f2, f3, f4, f6, hep]

/-- C10 is violated also for the eccentricity periodics: they can only turn the result into the error `Ep`; two successful
calls give the same position and velocity whatever these periodics are. -/
theorem C10_violated_ecc_periodics_discarded (s a b : Satrec F) (t : F) (v w : SGP4Result F) (p : SatDeep F)
    (hdedt : p.dedt = s.dedt) (hphase : p.zmos = s.zmos ∧ p.zmol = s.zmol)
    (hincl : p.si2 = s.si2 ∧ p.si3 = s.si3 ∧ p.xi2 = s.xi2 ∧ p.xi3 = s.xi3 ∧ p.pinco = s.pinco)
    (h : sgp4 s t = some (a, .ok v)) (h' : sgp4 { s with toSatDeep := p } t = some (b, .ok w)) :
    w = v := by
  obtain ⟨i1, i2, i3, i4, i5⟩ := hincl
  have hpi : (periodics { s with toSatDeep := p, t := t } .N).pinc = (periodics { s with t := t } .N).pinc := by
    simp only [periodics, hphase.1, hphase.2, i1, i2, i3, i4]
  have hin : (Spec.perturbed { s with toSatDeep := p } t).inclp = (Spec.perturbed s t).inclp := by
    rw [(perturbed_ep_incl s t).2, (perturbed_ep_incl { s with toSatDeep := p } t).2]
    show s.inclo + ((periodics { s with toSatDeep := p, t := t } .N).pinc - p.pinco) = _
    rw [hpi, i5]
  obtain ⟨f1, f2, f3, f4, f5, f6⟩ := spec_deepfields s t p hdedt hin
  have ok : ∀ (x : Satrec F) (v : SGP4Result F), Except.ok v = Spec.result x t →
      v = { position := Spec.position x t, velocity := Spec.velocity x t } := by
    intro x v hx
    unfold Spec.result at hx
    split at hx
    · cases hx
    split at hx
    · cases hx
    split at hx
    · cases hx
    split at hx
    · cases hx
    split at hx
    · cases hx
    exact Except.ok.inj hx
  rw [ok _ _ (C16_outcome _ _ _ _ h), ok _ _ (C16_outcome _ _ _ _ h'), f3, f4]

end Sat
