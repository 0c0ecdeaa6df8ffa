import Verif.Proofs.Sgp4Lemmas
import Verif.Spec.Sgp4Spec
/-! `sgp4` refines `Spec.result` (every arithmetic). -/

set_option linter.unusedSectionVars false

namespace Sat
variable {F : Type} [Arith F]

/-- The Kepler loop, started with `n` of its ten passes left. -/
theorem kepler_newton (u ax ay : F) (n : Nat) (k : KeplerSt F) (hk : k.ktr + n = 11) :
    ∃ k', whileLoop keplerCond (keplerBody u ax ay) k = some k' ∧
      (k'.sineo1, k'.coseo1) = Spec.newton u ax ay n k.eo1 k.tem5 (k.sineo1, k.coseo1) ∧
      k.ktr ≤ k'.ktr ∧ k'.ktr ≤ 11 ∧ (k'.ktr = 11 ∨ (Arith.abs k'.tem5 ≥. 1.0e-12) = false) := by
  induction n generalizing k with
  | zero =>
    refine ⟨k, whileLoop_false ?_, rfl, Nat.le_refl _, by omega, Or.inl (by omega)⟩
    simp only [keplerCond, Bool.and_eq_false_iff, decide_eq_false_iff_not]
    right; omega
  | succ n ih =>
    by_cases hc : (Arith.abs k.tem5 ≥. 1.0e-12) = true
    · have hcond : keplerCond k = true := by
        simp only [keplerCond, hc, Bool.true_and, decide_eq_true_eq]; omega
      obtain ⟨k', h1, h2, h3, h4, h5⟩ := ih (keplerBody u ax ay k) (by simp only [keplerBody]; omega)
      refine ⟨k', ?_, ?_, ?_, h4, h5⟩
      · rw [whileLoop_true hcond]; exact h1
      · rw [h2]
        simp only [Spec.newton, hc, if_true]
        rfl
      · have : k.ktr + 1 ≤ k'.ktr := h3
        omega
    · refine ⟨k, whileLoop_false ?_, ?_, Nat.le_refl _, by omega, Or.inr (by simpa using hc)⟩
      · simp only [keplerCond, Bool.and_eq_false_iff]; left; simpa using hc
      · simp only [Spec.newton, hc]
        rfl

theorem kepler_spec (u ax ay : F) : ∃ k', kepler u ax ay = some k' ∧
    (k'.sineo1, k'.coseo1) = Spec.newton u ax ay 10 u 9999.9 (0.0, 0.0) ∧
      1 ≤ k'.ktr ∧ k'.ktr ≤ 11 ∧ (k'.ktr = 11 ∨ (Arith.abs k'.tem5 ≥. 1.0e-12) = false) :=
  kepler_newton u ax ay 10 (keplerStart u) rfl

/-- record as seen by the stages of a call at time `t` -/
abbrev atTime (s : Satrec F) (t : F) : Satrec F := { s with t := t, error := 0 }

theorem secular_spec (s : Satrec F) (t : F) :
    secular (atTime s t) =
    { argpm := Spec.perigee s t, mm := Spec.anomaly s t, nodem := Spec.node s t,
      tempa := Spec.dragA s t, tempe := Spec.dragE s t, templ := Spec.dragL s t } := by
  by_cases h : s.isimp = 1
  · simp only [secular, Spec.perigee, Spec.anomaly, Spec.node, Spec.dragA, Spec.dragE, Spec.dragL,
      Spec.anomalyGravity, h, ne_eq, not_true_eq_false, if_false, if_true]
  · simp only [secular, Spec.perigee, Spec.anomaly, Spec.node, Spec.dragA, Spec.dragE, Spec.dragL,
      Spec.anomalyGravity, Spec.dragAngle, h, ne_eq, not_false_eq_true, if_false, if_true]

/-- the deep-space integrator returns -/
def DspaceReturns (s : Satrec F) (t : F) : Prop :=
  s.method = .D → ∃ r, dspace (dspaceOptions (atTime s t) (secular (atTime s t))) = some r

theorem dspace_em {o : DspaceOptions F} {r : DspaceResult F} (h : dspace o = some r) : r.em = o.em + o.dedt * o.t := by
  unfold dspace at h
  dsimp only at h
  split at h
  · cases h; rfl
  split at h
  · cases h
  · cases h; rfl

/-- The `em` variable after the deep-space stage. -/
theorem emAfterDspace_spec (s : Satrec F) (t : F) (hd : DspaceReturns s t) :
    emAfterDspace (atTime s t) (secular (atTime s t)) =
      some (if s.method = .D then s.ecco + s.dedt * t else s.ecco) := by
  unfold emAfterDspace
  by_cases h : s.method = .D
  · obtain ⟨r, hr⟩ := hd h
    rw [if_pos h, if_pos h, hr]
    exact congrArg some (dspace_em hr)
  · rw [if_neg h, if_neg h]

/-- conversely, a call that returns has passed the deep-space stage -/
theorem dspaceReturns_of_sgp4 {s : Satrec F} {t : F} (h : sgp4 s t ≠ none) : DspaceReturns s t := by
  intro hD
  unfold sgp4 at h
  dsimp only at h
  unfold emAfterDspace at h
  rw [if_pos hD] at h
  cases hr : dspace (dspaceOptions (atTime s t) (secular (atTime s t))) with
  | none =>
    exfalso; apply h
    show (match (match dspace (dspaceOptions (atTime s t) (secular (atTime s t))) with
      | none => none | some r => some r.em) with
      | none => none | some em => sgp4Body (atTime s t) (secular (atTime s t)) em) = none
    rw [hr]
  | some r => exact ⟨r, rfl⟩

theorem meanAngles_spec (s : Satrec F) (t : F) :
    meanAngles (atTime s t) (secular (atTime s t)) =
    { nodem := Spec.nodeR s t, argpm := Spec.perigeeR s t, mm := Spec.anomalyR s t } := by
  rw [secular_spec]; rfl

theorem tail_spec (s s1 : Satrec F) (t : F) (ha : s1.aycof = Spec.ayCoef s t) (hx : s1.xlcof = Spec.xlCoef s t)
    (h1 : (setShort s1 (Arith.cos (Spec.incl s t))).con41 = Spec.threeCos s t)
    (h2 : (setShort s1 (Arith.cos (Spec.incl s t))).x1mth2 = Spec.oneMinusCos s t)
    (h3 : (setShort s1 (Arith.cos (Spec.incl s t))).x7thm1 = Spec.sevenCos s t) :
    resultOf (sgp4Tail s1 (Spec.semiMajor s t) (Spec.motion s t) (Spec.ecc s t) (Spec.incl s t)
      (Arith.sin (Spec.incl s t)) (Arith.cos (Spec.incl s t)) (Spec.perigeeR s t) (Spec.nodeR s t) (Spec.anomalyR s t)) =
    some (if Spec.semiLatus s t <. 0.0 then .error .Pl
      else if Spec.radius s t <. 1.0 then .error .DecayCondition
      else .ok { position := Spec.position s t, velocity := Spec.velocity s t }) := by
  have hlp : longPeriod s1 (Spec.semiMajor s t) (Spec.ecc s t) (Spec.perigeeR s t) (Spec.nodeR s t) (Spec.anomalyR s t) =
      { axnl := Spec.axn s t, aynl := Spec.ayn s t, u := Spec.keplerU s t } := by
    simp only [longPeriod, ha, hx]
    rfl
  obtain ⟨k, hk, hsc, -⟩ := kepler_spec (Spec.keplerU s t) (Spec.axn s t) (Spec.ayn s t)
  have e1 : k.sineo1 = (Spec.sinCosE s t).1 := congrArg Prod.fst hsc
  have e2 : k.coseo1 = (Spec.sinCosE s t).2 := congrArg Prod.snd hsc
  unfold sgp4Tail
  simp only [hlp, hk, h1, h2, h3, e1, e2]
  have hpl : semiLatus (Spec.semiMajor s t) (Spec.axn s t) (Spec.ayn s t) = Spec.semiLatus s t := rfl
  rw [hpl]
  by_cases c1 : (Spec.semiLatus s t <. 0.0) = true
  · simp only [if_pos c1]; rfl
  · simp only [if_neg c1]
    have hr : (shortPeriod (Spec.threeCos s t) (Spec.oneMinusCos s t) (Spec.sevenCos s t)
      (shortPrelim (Spec.semiMajor s t) (Spec.axn s t) (Spec.ayn s t) (Spec.sinCosE s t).1 (Spec.sinCosE s t).2)
      (Spec.motion s t) (Spec.nodeR s t) (Spec.incl s t) (Arith.sin (Spec.incl s t)) (Arith.cos (Spec.incl s t))) =
      { mrt := Spec.radius s t, su := Spec.argLat s t, xnode := Spec.nodeS s t, xinc := Spec.inclS s t,
        mvt := Spec.rdot s t, rvdot := Spec.rfdot s t } := rfl
    rw [hr]
    by_cases c2 : (Spec.radius s t <. 1.0) = true
    · simp only [if_pos c2]; rfl
    · simp only [if_neg c2]; rfl

theorem periodics_spec (s : Satrec F) (t : F) :
    resultOf (sgp4Periodics (atTime s t) (Spec.semiMajor s t) (Spec.motion s t) (Spec.ecc s t)
      { nodem := Spec.nodeR s t, argpm := Spec.perigeeR s t, mm := Spec.anomalyR s t }) =
    some (if s.method = .D ∧ (((Spec.perturbed s t).ep <. 0.0) || ((Spec.perturbed s t).ep >. 1.0)) then .error .Ep
      else if Spec.semiLatus s t <. 0.0 then .error .Pl
      else if Spec.radius s t <. 1.0 then .error .DecayCondition
      else .ok { position := Spec.position s t, velocity := Spec.velocity s t }) := by
  unfold sgp4Periodics
  by_cases hD : s.method = .D
  · rw [if_pos (show (atTime s t).method = .D from hD)]
    have hp : sgp4Dpper (atTime s t) (Spec.ecc s t)
      { nodem := Spec.nodeR s t, argpm := Spec.perigeeR s t, mm := Spec.anomalyR s t } = Spec.perturbed s t := rfl
    simp only [hp, hD, true_and]
    by_cases hc : (((Spec.perturbed s t).ep <. 0.0) || ((Spec.perturbed s t).ep >. 1.0)) = true
    · rw [if_pos hc, if_pos hc]; rfl
    · rw [if_neg hc, if_neg hc]
      have hi : (if ((Spec.perturbed s t).inclp <. 0.0) = true then -(Spec.perturbed s t).inclp
          else (Spec.perturbed s t).inclp) = Spec.incl s t := by
        rw [Spec.incl, if_pos hD]
      rw [hi]
      refine tail_spec s _ t ?_ ?_ ?_ ?_ ?_
      · rw [Spec.ayCoef, if_pos hD]; rfl
      · rw [Spec.xlCoef, if_pos hD]; rfl
      · rw [Spec.threeCos, if_pos hD]; exact (setShort_D (by first | exact hD | rfl) _).1
      · rw [Spec.oneMinusCos, if_pos hD]; exact (setShort_D (by first | exact hD | rfl) _).2.1
      · rw [Spec.sevenCos, if_pos hD]; exact (setShort_D (by first | exact hD | rfl) _).2.2
  · rw [if_neg (show ¬ (atTime s t).method = .D from hD)]
    simp only [hD, false_and, if_false]
    have hi : s.inclo = Spec.incl s t := by rw [Spec.incl, if_neg hD]
    show resultOf (sgp4Tail (atTime s t) _ _ _ s.inclo (Arith.sin s.inclo) (Arith.cos s.inclo) _ _ _) = _
    rw [hi]
    refine tail_spec s _ t ?_ ?_ ?_ ?_ ?_
    · rw [Spec.ayCoef, if_neg hD]
    · rw [Spec.xlCoef, if_neg hD]
    · rw [Spec.threeCos, if_neg hD, setShort_N (by first | exact hD | rfl)]
    · rw [Spec.oneMinusCos, if_neg hD, setShort_N (by first | exact hD | rfl)]
    · rw [Spec.sevenCos, if_neg hD, setShort_N (by first | exact hD | rfl)]

/-- A call whose deep-space stage returns has exactly the outcome of the specification. -/
theorem sgp4_refines (s : Satrec F) (t : F) (hd : DspaceReturns s t) :
    resultOf (sgp4 s t) = some (Spec.result s t) := by
  have h : sgp4 s t = sgp4Body (atTime s t) (secular (atTime s t))
      (if s.method = .D then s.ecco + s.dedt * t else s.ecco) := by
    have := emAfterDspace_spec s t hd
    show (match emAfterDspace (atTime s t) (secular (atTime s t)) with
      | none => none
      | some em => sgp4Body (atTime s t) (secular (atTime s t)) em) = _
    rw [this]
  rw [h]
  unfold sgp4Body Spec.result
  have hm := meanAngles_spec s t
  rw [secular_spec] at hm ⊢
  by_cases c1 : (s.no ≤. 0.0) = true
  · simp only [if_pos c1]; rfl
  simp only [if_neg c1]
  have he : (if s.method = .D then s.ecco + s.dedt * t else s.ecco) - Spec.dragE s t = Spec.meanEcc s t := rfl
  rw [he, hm]
  by_cases c2 : ((Spec.meanEcc s t ≥. 1.0) || (Spec.meanEcc s t <. -0.001)) = true
  · rw [if_pos c2, if_pos c2]; rfl
  · rw [if_neg c2, if_neg c2]
    exact periodics_spec s t

end Sat
