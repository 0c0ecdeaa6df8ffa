import Mathlib.Analysis.SpecialFunctions.Pow.Real
import Mathlib.Analysis.SpecialFunctions.Trigonometric.Basic
/-!
# The coefficients of SGP4 as published

F. R. Hoots, R. L. Roehrich, *Spacetrack Report No. 3* (1980), section 6, in the notation of the report: `k2 = J2/2`,
`k4 = -3 J4/8`, `A30 = -J3`, `θ = cos i`, `β = sqrt (1 - e²)`, distances in earth radii, times in minutes.  Nothing here refers
to the program; the constants are written out again.
-/

noncomputable section
namespace Sat.Spec.R3

/-- `sqrt (G M)` in earth radii^1.5 per minute -/
def ke : ℝ := 0.07436685316871385
/-- equatorial radius in km -/
def kmPerRadius : ℝ := 6378.137
/-- zonal harmonics of the gravity field (WGS-84 values) -/
def j2 : ℝ := 0.00108262998905
def j3 : ℝ := -0.00000253215306
def j4 : ℝ := -0.00000161098761
def k2 : ℝ := j2 / 2
def k4 : ℝ := -3 * j4 / 8
def a30 : ℝ := -j3

/-- The mean elements the coefficients depend on; `n` is the recovered (un-Kozai'd) mean motion in rad/min. -/
structure Orbit where
  n : ℝ
  e : ℝ
  inc : ℝ
  argp : ℝ
  anom : ℝ
  bstar : ℝ

/-- Recovery of the mean motion: `n₀'' = n₀ / (1 + δ₀)` from the mean motion `n` of the element set. -/
def recoveredMotion (n e inc : ℝ) : ℝ :=
  let a1 := (ke / n) ^ (2 / 3 : ℝ)
  let c := (3 * Real.cos inc ^ 2 - 1) / Real.sqrt (1 - e ^ 2) ^ 3
  let δ1 := 3 / 2 * k2 / a1 ^ 2 * c
  let a0 := a1 * (1 - δ1 / 3 - δ1 ^ 2 - 134 / 81 * δ1 ^ 3)
  let δ0 := 3 / 2 * k2 / a0 ^ 2 * c
  n / (1 + δ0)

/-- long-period coefficient of the eccentricity vector: `a_yNL = longAy / (a β²)` -/
def longAy (inc : ℝ) : ℝ := a30 * Real.sin inc / (4 * k2)
/-- long-period coefficient of the mean longitude: `L_L = longL / (a β²) * e cos ω`; the singularity at `i = 180°` is cut off -/
def longL (inc : ℝ) : ℝ :=
  a30 * Real.sin inc / (8 * k2) * ((3 + 5 * Real.cos inc) / max (1 + Real.cos inc) (1.5 / 10 ^ 12))

namespace Orbit
variable (o : Orbit)

/-- semi-major axis: `a³ n² = ke²` -/
def a : ℝ := (ke / o.n) ^ (2 / 3 : ℝ)
def θ : ℝ := Real.cos o.inc
def β : ℝ := Real.sqrt (1 - o.e ^ 2)

/-- secular rate of the mean anomaly -/
def rateAnomaly : ℝ :=
  o.n * (1 + 3 * k2 * (-1 + 3 * o.θ ^ 2) / (2 * o.a ^ 2 * o.β ^ 3)
    + 3 * k2 ^ 2 * (13 - 78 * o.θ ^ 2 + 137 * o.θ ^ 4) / (16 * o.a ^ 4 * o.β ^ 7))
/-- secular rate of the argument of perigee -/
def ratePerigee : ℝ :=
  o.n * (-3 * k2 * (1 - 5 * o.θ ^ 2) / (2 * o.a ^ 2 * o.β ^ 4)
    + 3 * k2 ^ 2 * (7 - 114 * o.θ ^ 2 + 395 * o.θ ^ 4) / (16 * o.a ^ 4 * o.β ^ 8)
    + 5 * k4 * (3 - 36 * o.θ ^ 2 + 49 * o.θ ^ 4) / (4 * o.a ^ 4 * o.β ^ 8))
/-- secular rate of the node -/
def rateNode : ℝ :=
  o.n * (-3 * k2 * o.θ / (o.a ^ 2 * o.β ^ 4)
    + 3 * k2 ^ 2 * (4 * o.θ - 19 * o.θ ^ 3) / (2 * o.a ^ 4 * o.β ^ 8)
    + 5 * k4 * o.θ * (3 - 7 * o.θ ^ 2) / (2 * o.a ^ 4 * o.β ^ 8))

/-- height of perigee in km -/
def perigeeKm : ℝ := (o.a * (1 - o.e) - 1) * kmPerRadius
/-- The parameter `s` of the density function, as a height in km: 78 km, lowered for perigees below 156 km. -/
def sKm : ℝ := if o.perigeeKm < 98 then 20 else if o.perigeeKm < 156 then o.perigeeKm - 78 else 78
def s : ℝ := 1 + o.sKm / kmPerRadius
/-- `(q₀ - s)⁴` with `q₀` at 120 km -/
def q4 : ℝ := (1 + 120 / kmPerRadius - o.s) ^ 4
def ξ : ℝ := 1 / (o.a - o.s)
def η : ℝ := o.a * o.e * o.ξ
/-- `|1 - η²|` -/
def ψ : ℝ := |1 - o.η ^ 2|

def C2 : ℝ :=
  o.q4 * o.ξ ^ 4 * o.n / o.ψ ^ (7 / 2 : ℝ)
    * (o.a * (1 + 3 / 2 * o.η ^ 2 + 4 * o.e * o.η + o.e * o.η ^ 3)
      + 3 / 2 * (k2 * o.ξ / o.ψ) * (-1 / 2 + 3 / 2 * o.θ ^ 2) * (8 + 24 * o.η ^ 2 + 3 * o.η ^ 4))
def C1 : ℝ := o.bstar * o.C2
/-- zero for nearly circular orbits -/
def C3 : ℝ := if 1 / 10000 < o.e then o.q4 * o.ξ ^ 5 * a30 * o.n * Real.sin o.inc / (k2 * o.e) else 0
def C4 : ℝ :=
  2 * o.n * o.q4 * o.ξ ^ 4 * o.a * o.β ^ 2 / o.ψ ^ (7 / 2 : ℝ)
    * ((2 * o.η * (1 + o.e * o.η) + 1 / 2 * o.e + 1 / 2 * o.η ^ 3)
      - 2 * k2 * o.ξ / (o.a * o.ψ)
        * (3 * (1 - 3 * o.θ ^ 2) * (1 + 3 / 2 * o.η ^ 2 - 2 * o.e * o.η - 1 / 2 * o.e * o.η ^ 3)
          + 3 / 4 * (1 - o.θ ^ 2) * (2 * o.η ^ 2 - o.e * o.η - o.e * o.η ^ 3) * Real.cos (2 * o.argp)))
def C5 : ℝ :=
  2 * o.q4 * o.ξ ^ 4 * o.a * o.β ^ 2 / o.ψ ^ (7 / 2 : ℝ)
    * (1 + 11 / 4 * o.η * (o.η + o.e) + o.e * o.η ^ 3)
def D2 : ℝ := 4 * o.a * o.ξ * o.C1 ^ 2
def D3 : ℝ := 4 / 3 * o.a * o.ξ ^ 2 * (17 * o.a + o.s) * o.C1 ^ 3
def D4 : ℝ := 2 / 3 * o.a ^ 2 * o.ξ ^ 3 * (221 * o.a + 31 * o.s) * o.C1 ^ 4

/-- coefficient of `t` in the drag perturbation `δω` -/
def dω : ℝ := o.bstar * o.C3 * Real.cos o.argp
/-- coefficient of `(1 + η cos M)³ - (1 + η cos M₀)³` in `δM`; zero for nearly circular orbits -/
def dM : ℝ := if 1 / 10000 < o.e then -2 / 3 * o.q4 * o.bstar * o.ξ ^ 4 / (o.e * o.η) else 0
/-- coefficient of `t²` in the node -/
def dΩ : ℝ := -21 / 2 * o.n * k2 * o.θ / (o.a ^ 2 * o.β ^ 2) * o.C1

/-! ## Secular perturbations: the mean elements at time `t` (minutes since epoch) -/

/-- Drag is modelled in full for perigees of at least 220 km, and in simplified form below. -/
def fullDrag : Prop := 220 ≤ o.perigeeKm
def MDF (t : ℝ) : ℝ := o.anom + o.rateAnomaly * t
def ωDF (t : ℝ) : ℝ := o.argp + o.ratePerigee * t
open Classical in
/-- `δω + δM` -/
def δωM (t : ℝ) : ℝ :=
  if o.fullDrag then o.dω * t + o.dM * ((1 + o.η * Real.cos (o.MDF t)) ^ 3 - (1 + o.η * Real.cos o.anom) ^ 3) else 0
def Mp (t : ℝ) : ℝ := o.MDF t + o.δωM t
def ω (t : ℝ) : ℝ := o.ωDF t - o.δωM t
def Ω (node t : ℝ) : ℝ := node + o.rateNode * t + o.dΩ * t ^ 2
open Classical in
/-- the eccentricity before the lower limit is applied -/
def eRaw (t : ℝ) : ℝ :=
  if o.fullDrag then o.e - o.bstar * o.C4 * t - o.bstar * o.C5 * (Real.sin (o.Mp t) - Real.sin o.anom)
  else o.e - o.bstar * o.C4 * t
open Classical in
def aT (t : ℝ) : ℝ :=
  if o.fullDrag then o.a * (1 - o.C1 * t - o.D2 * t ^ 2 - o.D3 * t ^ 3 - o.D4 * t ^ 4) ^ 2 else o.a * (1 - o.C1 * t) ^ 2
open Classical in
/-- drag term of the mean longitude, in units of `n` -/
def dL (t : ℝ) : ℝ :=
  if o.fullDrag then
    3 / 2 * o.C1 * t ^ 2 + (o.D2 + 2 * o.C1 ^ 2) * t ^ 3 + 1 / 4 * (3 * o.D3 + 12 * o.C1 * o.D2 + 10 * o.C1 ^ 3) * t ^ 4
      + 1 / 5 * (3 * o.D4 + 12 * o.C1 * o.D3 + 6 * o.D2 ^ 2 + 30 * o.C1 ^ 2 * o.D2 + 15 * o.C1 ^ 4) * t ^ 5
  else 3 / 2 * o.C1 * t ^ 2
def L (node t : ℝ) : ℝ := o.Mp t + o.ω t + o.Ω node t + o.n * o.dL t
end Orbit

/-- Mean elements at one instant: semi-major axis, eccentricity, perigee, node, mean longitude, inclination. -/
structure Mean where
  a : ℝ
  e : ℝ
  ω : ℝ
  Ω : ℝ
  L : ℝ
  i : ℝ

/-- the mean elements at time `t`; eccentricities below 1e-6 are raised to 1e-6 -/
def Orbit.mean (o : Orbit) (node t : ℝ) : Mean :=
  { a := o.aT t, e := max (o.eRaw t) (1 / 10 ^ 6), ω := o.ω t, Ω := o.Ω node t, L := o.L node t, i := o.inc }

namespace Mean
variable (m : Mean)

/-! ## Long-period periodics and Kepler's equation -/
def axN : ℝ := m.e * Real.cos m.ω
def ayN : ℝ := m.e * Real.sin m.ω + longAy m.i / (m.a * (1 - m.e ^ 2))
def U : ℝ := m.L + longL m.i / (m.a * (1 - m.e ^ 2)) * m.axN - m.Ω
/-- `eL²` -/
def eL2 : ℝ := m.axN ^ 2 + m.ayN ^ 2
/-- residual of Kepler's equation at the eccentric longitude `E` -/
def kepler (E : ℝ) : ℝ := m.U - m.ayN * Real.cos E + m.axN * Real.sin E - E
/-- Newton's correction, limited to 0.95 in size -/
def correction (E : ℝ) : ℝ :=
  let d := m.kepler E / (1 - m.axN * Real.cos E - m.ayN * Real.sin E)
  if 0.95 ≤ d then 0.95 else if d ≤ -0.95 then -0.95 else d
/-- the `k`-th approximation to the eccentric longitude -/
def newton : ℕ → ℝ
  | 0 => m.U
  | k + 1 => newton k + m.correction (newton k)

/-! ## Short-period preliminary quantities and periodics, for the eccentric longitude `E` -/
variable (E : ℝ)
def ecosE : ℝ := m.axN * Real.cos E + m.ayN * Real.sin E
def esinE : ℝ := m.axN * Real.sin E - m.ayN * Real.cos E
def pL : ℝ := m.a * (1 - m.eL2)
def r : ℝ := m.a * (1 - m.ecosE E)
def rdot : ℝ := ke * Real.sqrt m.a * m.esinE E / m.r E
def rfdot : ℝ := ke * Real.sqrt m.pL / m.r E
def cosu : ℝ := m.a / m.r E * (Real.cos E - m.axN + m.ayN * m.esinE E / (1 + Real.sqrt (1 - m.eL2)))
def sinu : ℝ := m.a / m.r E * (Real.sin E - m.ayN - m.axN * m.esinE E / (1 + Real.sqrt (1 - m.eL2)))
def u : ℝ := Complex.arg ⟨m.cosu E, m.sinu E⟩
def sin2u : ℝ := 2 * m.sinu E * m.cosu E
def cos2u : ℝ := 1 - 2 * m.sinu E ^ 2
def θ : ℝ := Real.cos m.i
/-- mean motion -/
def n : ℝ := ke / m.a ^ (3 / 2 : ℝ)

def rk : ℝ := m.r E * (1 - 3 / 2 * k2 * Real.sqrt (1 - m.eL2) / m.pL ^ 2 * (3 * m.θ ^ 2 - 1))
  + k2 / (2 * m.pL) * (1 - m.θ ^ 2) * m.cos2u E
def uk : ℝ := m.u E - k2 / (4 * m.pL ^ 2) * (7 * m.θ ^ 2 - 1) * m.sin2u E
def Ωk : ℝ := m.Ω + 3 * k2 * m.θ / (2 * m.pL ^ 2) * m.sin2u E
def ik : ℝ := m.i + 3 * k2 * m.θ / (2 * m.pL ^ 2) * Real.sin m.i * m.cos2u E
def rdotk : ℝ := m.rdot E - k2 * m.n / m.pL * (1 - m.θ ^ 2) * m.sin2u E
def rfdotk : ℝ := m.rfdot E + k2 * m.n / m.pL * ((1 - m.θ ^ 2) * m.cos2u E - 3 / 2 * (1 - 3 * m.θ ^ 2))

/-- component `j` (0, 1, 2) of the unit vector towards the satellite -/
def Uvec : Fin 3 → ℝ :=
  ![-Real.sin (m.Ωk E) * Real.cos (m.ik E) * Real.sin (m.uk E) + Real.cos (m.Ωk E) * Real.cos (m.uk E),
    Real.cos (m.Ωk E) * Real.cos (m.ik E) * Real.sin (m.uk E) + Real.sin (m.Ωk E) * Real.cos (m.uk E),
    Real.sin (m.ik E) * Real.sin (m.uk E)]
/-- the unit vector ninety degrees ahead in the orbital plane -/
def Vvec : Fin 3 → ℝ :=
  ![-Real.sin (m.Ωk E) * Real.cos (m.ik E) * Real.cos (m.uk E) - Real.cos (m.Ωk E) * Real.sin (m.uk E),
    Real.cos (m.Ωk E) * Real.cos (m.ik E) * Real.cos (m.uk E) - Real.sin (m.Ωk E) * Real.sin (m.uk E),
    Real.sin (m.ik E) * Real.cos (m.uk E)]

/-- position in km -/
def positionKm (j : Fin 3) : ℝ := m.rk E * m.Uvec E j * kmPerRadius
/-- velocity in km/s -/
def velocityKmS (j : Fin 3) : ℝ := (m.rdotk E * m.Uvec E j + m.rfdotk E * m.Vvec E j) * (kmPerRadius / 60)
end Mean

end Sat.Spec.R3
