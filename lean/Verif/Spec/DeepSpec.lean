import Verif.Spec.Geometry
import Verif.Model.Dspace
import Verif.Model.Dscom
/-!
# Specification side of the deep-space properties C09, C49-C52

Only the records of coefficients (`DspaceOptions`, `DscomOptions`, `PassOut`) are taken from the model; no function is.
-/

namespace Sat.Spec

/-- The point of the 720-minute grid nearest to `t` on the epoch side. -/
noncomputable def gridPoint (t : ℝ) : ℝ := if 0 < t then 720 * ⌊t / 720⌋₊ else -(720 * ⌊-t / 720⌋₊)

/-- Rate of change of the mean motion in synchronous resonance, as a function of the resonance longitude. -/
noncomputable def syncRate (o : DspaceOptions ℝ) (lam : ℝ) : ℝ :=
  o.del1 * Real.sin (lam - 0.13130908) + o.del2 * Real.sin (2 * (lam - 2.8843198))
    + o.del3 * Real.sin (3 * (lam - 0.37448087))

/-- Rate of change of the mean motion in half-day resonance: ten terms `d_lmpq * sin (m' lam + q' w - G)`, as a function of
the resonance longitude `lam` and the argument of perigee `w`. -/
noncomputable def halfDayRate (o : DspaceOptions ℝ) (w lam : ℝ) : ℝ :=
  o.d2201 * Real.sin (lam + 2 * w - 5.7686396) + o.d2211 * Real.sin (lam - 5.7686396)
    + o.d3210 * Real.sin (lam + w - 0.95240898) + o.d3222 * Real.sin (lam - w - 0.95240898)
    + o.d4410 * Real.sin (2 * lam + 2 * w - 1.8014998) + o.d4422 * Real.sin (2 * lam - 1.8014998)
    + o.d5220 * Real.sin (lam + w - 1.0508330) + o.d5232 * Real.sin (lam - w - 1.0508330)
    + o.d5421 * Real.sin (2 * lam + w - 4.4108898) + o.d5433 * Real.sin (2 * lam - w - 4.4108898)

/-- What the code leaves out of the derivative of `halfDayRate`. -/
noncomputable def halfDayMissing (o : DspaceOptions ℝ) (w lam : ℝ) : ℝ :=
  o.d4422 * Real.cos (2 * lam - 1.8014998) + o.d5421 * Real.cos (2 * lam + w - 4.4108898)
    + o.d5433 * Real.cos (2 * lam - w - 4.4108898)

/-- Two unit vectors at right angles. -/
def Orthonormal2 (a b : Vec3 ℝ) : Prop := dot a a = 1 ∧ dot b b = 1 ∧ dot a b = 0

/-- direction of the ascending node of an orbit -/
noncomputable def nodeDir (node : ℝ) : Vec3 ℝ := ⟨Real.cos node, Real.sin node, 0⟩
/-- direction in the orbital plane, 90 degrees ahead of the node -/
noncomputable def aheadDir (node inc : ℝ) : Vec3 ℝ :=
  ⟨-Real.sin node * Real.cos inc, Real.cos node * Real.cos inc, Real.sin inc⟩
/-- normal of the orbital plane -/
noncomputable def normalDir (node inc : ℝ) : Vec3 ℝ :=
  ⟨Real.sin node * Real.sin inc, -Real.cos node * Real.sin inc, Real.cos inc⟩
/-- direction of perigee -/
noncomputable def perigeeDir (node inc argp : ℝ) : Vec3 ℝ :=
  along (scale (Real.cos argp) (nodeDir node)) (Real.sin argp) (aheadDir node inc)
/-- direction in the orbital plane, 90 degrees ahead of perigee -/
noncomputable def latusDir (node inc argp : ℝ) : Vec3 ℝ :=
  along (scale (-Real.sin argp) (nodeDir node)) (Real.cos argp) (aheadDir node inc)

/-- The third-body sums `s5..s7`, `z1..z33` of an orbit and a body whose orbital plane is spanned by `X`, `Y` (`X` towards
the body's reference direction), written with direction cosines. -/
structure ThirdBody (o : DscomOptions ℝ) (X Y : Vec3 ℝ) (p : PassOut ℝ) : Prop where
  s5 : p.s5 = dot X (perigeeDir o.nodep o.inclp o.argpp) * dot X (latusDir o.nodep o.inclp o.argpp)
    + dot Y (perigeeDir o.nodep o.inclp o.argpp) * dot Y (latusDir o.nodep o.inclp o.argpp)
  s6 : p.s6 = dot Y (perigeeDir o.nodep o.inclp o.argpp) * dot X (latusDir o.nodep o.inclp o.argpp)
    + dot X (perigeeDir o.nodep o.inclp o.argpp) * dot Y (latusDir o.nodep o.inclp o.argpp)
  s7 : p.s7 = dot Y (perigeeDir o.nodep o.inclp o.argpp) * dot Y (latusDir o.nodep o.inclp o.argpp)
    - dot X (perigeeDir o.nodep o.inclp o.argpp) * dot X (latusDir o.nodep o.inclp o.argpp)
  z31 : p.z31 = 12 * dot X (perigeeDir o.nodep o.inclp o.argpp) ^ 2 - 3 * dot X (latusDir o.nodep o.inclp o.argpp) ^ 2
  z32 : p.z32 = 24 * dot X (perigeeDir o.nodep o.inclp o.argpp) * dot Y (perigeeDir o.nodep o.inclp o.argpp)
    - 6 * dot X (latusDir o.nodep o.inclp o.argpp) * dot Y (latusDir o.nodep o.inclp o.argpp)
  z33 : p.z33 = 12 * dot Y (perigeeDir o.nodep o.inclp o.argpp) ^ 2 - 3 * dot Y (latusDir o.nodep o.inclp o.argpp) ^ 2
  /-- `3 (1 - (X.w)^2)` is three times the squared length of the part of `X` in the orbital plane -/
  z1 : p.z1 = 6 * (dot X X - dot X (normalDir o.nodep o.inclp) ^ 2) + (1 + o.ep ^ 2) * p.z31
  z2 : p.z2 = 12 * (dot X Y - dot X (normalDir o.nodep o.inclp) * dot Y (normalDir o.nodep o.inclp))
    + (1 + o.ep ^ 2) * p.z32
  z3 : p.z3 = 6 * (dot Y Y - dot Y (normalDir o.nodep o.inclp) ^ 2) + (1 + o.ep ^ 2) * p.z33
  z11 : p.z11 = -6 * dot X (nodeDir o.nodep) * dot X (normalDir o.nodep o.inclp)
    - o.ep ^ 2 * dot X (normalDir o.nodep o.inclp) * (24 * Real.cos o.argpp * dot X (perigeeDir o.nodep o.inclp o.argpp)
      + 6 * Real.sin o.argpp * dot X (latusDir o.nodep o.inclp o.argpp))
  z13 : p.z13 = -6 * dot Y (nodeDir o.nodep) * dot Y (normalDir o.nodep o.inclp)
    - o.ep ^ 2 * dot Y (normalDir o.nodep o.inclp) * (24 * Real.cos o.argpp * dot Y (perigeeDir o.nodep o.inclp o.argpp)
      + 6 * Real.sin o.argpp * dot Y (latusDir o.nodep o.inclp o.argpp))
  z21 : p.z21 = 6 * dot X (aheadDir o.nodep o.inclp) * dot X (normalDir o.nodep o.inclp)
    + o.ep ^ 2 * dot X (normalDir o.nodep o.inclp) * (24 * Real.sin o.argpp * dot X (perigeeDir o.nodep o.inclp o.argpp)
      - 6 * Real.cos o.argpp * dot X (latusDir o.nodep o.inclp o.argpp))
  z23 : p.z23 = 6 * dot Y (aheadDir o.nodep o.inclp) * dot Y (normalDir o.nodep o.inclp)
    + o.ep ^ 2 * dot Y (normalDir o.nodep o.inclp) * (24 * Real.sin o.argpp * dot Y (perigeeDir o.nodep o.inclp o.argpp)
      - 6 * Real.cos o.argpp * dot Y (latusDir o.nodep o.inclp o.argpp))
  z12 : p.z12 = -6 * (dot X (nodeDir o.nodep) * dot Y (normalDir o.nodep o.inclp)
      + dot Y (nodeDir o.nodep) * dot X (normalDir o.nodep o.inclp))
    - o.ep ^ 2 * (24 * Real.cos o.argpp * (dot Y (perigeeDir o.nodep o.inclp o.argpp) * dot X (normalDir o.nodep o.inclp)
        + dot X (perigeeDir o.nodep o.inclp o.argpp) * dot Y (normalDir o.nodep o.inclp))
      + 6 * Real.sin o.argpp * (dot X (latusDir o.nodep o.inclp o.argpp) * dot Y (normalDir o.nodep o.inclp)
        + dot Y (latusDir o.nodep o.inclp o.argpp) * dot X (normalDir o.nodep o.inclp)))
  z22 : p.z22 = 6 * (dot Y (aheadDir o.nodep o.inclp) * dot X (normalDir o.nodep o.inclp)
      + dot X (aheadDir o.nodep o.inclp) * dot Y (normalDir o.nodep o.inclp))
    + o.ep ^ 2 * (24 * Real.sin o.argpp * (dot Y (perigeeDir o.nodep o.inclp o.argpp) * dot X (normalDir o.nodep o.inclp)
        + dot X (perigeeDir o.nodep o.inclp o.argpp) * dot Y (normalDir o.nodep o.inclp))
      - 6 * Real.cos o.argpp * (dot Y (latusDir o.nodep o.inclp o.argpp) * dot X (normalDir o.nodep o.inclp)
        + dot X (latusDir o.nodep o.inclp o.argpp) * dot Y (normalDir o.nodep o.inclp)))

end Sat.Spec
