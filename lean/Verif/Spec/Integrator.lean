import Verif.Spec.DeepSpec
import Mathlib.Analysis.Calculus.Deriv.Basic
/-!
# Specification side of C74: the resonance integrator

The published scheme: from epoch, whole steps of 720 minutes towards `t`, then one step over the rest; each step is the Taylor
expansion to second order of resonance longitude and mean motion.  Only the record of coefficients is taken from the model.
-/

namespace Sat.Spec

/-- time, resonance longitude, mean motion -/
structure ResPoint where
  time : ℝ
  lam : ℝ
  n : ℝ

/-- rate of the mean motion at a time and longitude -/
noncomputable def resRate (o : DspaceOptions ℝ) (time lam : ℝ) : ℝ :=
  if o.irez = 2 then halfDayRate o (o.argpo + o.argpdot * time) lam else syncRate o lam

/-- derivative of that rate with respect to the longitude, less what the code leaves out (C50) -/
noncomputable def resSlope (o : DspaceOptions ℝ) (time lam : ℝ) : ℝ :=
  deriv (resRate o time) lam - if o.irez = 2 then halfDayMissing o (o.argpo + o.argpdot * time) lam else 0

/-- one step of length `h` -/
noncomputable def resStep (o : DspaceOptions ℝ) (h : ℝ) (p : ResPoint) : ResPoint :=
  { time := p.time + h
    lam := p.lam + (p.n + o.xfact) * h + resRate o p.time p.lam * h ^ 2 / 2
    n := p.n + resRate o p.time p.lam * h + resSlope o p.time p.lam * (p.n + o.xfact) * h ^ 2 / 2 }

/-- the whole steps towards `t`, from epoch -/
noncomputable def resGrid (o : DspaceOptions ℝ) (t : ℝ) : ResPoint :=
  (resStep o (if 0 < t then 720 else -720))^[⌊|t| / 720⌋₊] ⟨0, o.xlamo, o.no⟩

/-- and the step over the rest -/
noncomputable def resAt (o : DspaceOptions ℝ) (t : ℝ) : ResPoint :=
  resStep o (t - (resGrid o t).time) (resGrid o t)

end Sat.Spec
