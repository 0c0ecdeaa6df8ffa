import Verif.Spec.Report3
import Verif.Spec.Geometry
/-!
# Lunar-solar perturbations of deep-space orbits as published

R. S. Hujsak, *A restricted four body solution for resonating satellites without drag* (Spacetrack Report No. 1, 1979) in the form
of Hoots, Schumacher, Glover (2004), appendix: the third body is described by the two orthonormal vectors `X` (towards its perigee)
and `Y` spanning its orbital plane, the satellite by its own orbital frame.  Nothing here refers to the program (only the record
`Vec3` of three coordinates and the inner product `dot` are shared); the constants are written out again.  Angles in radians, time
in minutes, days counted from 1900 January 0.5.
-/

noncomputable section
namespace Sat.Spec.SDP

/-- direction at angle `g` (given by cosine and sine) from the ascending node, in a plane with inclination `i` and node `h` -/
def planeDir (cg sg ci si ch sh : ℝ) : Vec3 ℝ := ⟨cg * ch - sg * ci * sh, cg * sh + sg * ci * ch, sg * si⟩

/-- A perturbing body: mean motion (rad/min), eccentricity, strength of the perturbation (rad/min), perigee direction and the
direction 90° ahead of it. -/
structure Perturber where
  zn : ℝ
  ze : ℝ
  cc : ℝ
  X : Vec3 ℝ
  Y : Vec3 ℝ

/-- The Sun (obliquity: cosine 0.91744867, sine 0.39785416; perigee: cosine 0.1945905, sine -0.98088458). -/
def sun : Perturber :=
  { zn := 1.19459 / 10 ^ 5, ze := 0.01675, cc := 2.9864797 / 10 ^ 6
    X := planeDir 0.1945905 (-0.98088458) 0.91744867 0.39785416 1 0
    Y := planeDir 0.98088458 0.1945905 0.91744867 0.39785416 1 0 }
/-- mean anomaly of the Sun -/
def sunAnomaly (day t : ℝ) : ℝ := 6.2565837 + 0.017201977 * day + sun.zn * t

/-- longitude of the Moon's node on the ecliptic -/
def moonNode (day : ℝ) : ℝ := 4.5236020 - 9.2422029 / 10 ^ 4 * day
/-- longitude of the Moon's perigee -/
def moonPerigee (day : ℝ) : ℝ := 5.8351514 + 0.0019443680 * day
/-- cosine of the inclination of the Moon's orbit to the equator -/
def moonCosInc (day : ℝ) : ℝ := 0.91375164 - 0.03568096 * Real.cos (moonNode day)
def moonSinInc (day : ℝ) : ℝ := Real.sqrt (1 - moonCosInc day ^ 2)
/-- right ascension of the node of the Moon's orbit on the equator -/
def moonSinRaan (day : ℝ) : ℝ := 0.089683511 * Real.sin (moonNode day) / moonSinInc day
def moonCosRaan (day : ℝ) : ℝ := Real.sqrt (1 - moonSinRaan day ^ 2)
/-- arc from the equatorial to the ecliptic node along the Moon's orbit -/
def moonArc (day : ℝ) : ℝ :=
  Complex.arg ⟨moonCosRaan day * Real.cos (moonNode day) + 0.91744867 * moonSinRaan day * Real.sin (moonNode day),
    0.39785416 * Real.sin (moonNode day) / moonSinInc day⟩
/-- argument of perigee of the Moon, from the equatorial node -/
def moonArgp (day : ℝ) : ℝ := moonArc day + (moonPerigee day - moonNode day)
def moon (day : ℝ) : Perturber :=
  { zn := 1.5835218 / 10 ^ 4, ze := 0.0549, cc := 4.7968065 / 10 ^ 7
    X := planeDir (Real.cos (moonArgp day)) (Real.sin (moonArgp day)) (moonCosInc day) (moonSinInc day) (moonCosRaan day) (moonSinRaan day)
    Y := planeDir (-Real.sin (moonArgp day)) (Real.cos (moonArgp day)) (moonCosInc day) (moonSinInc day) (moonCosRaan day) (moonSinRaan day) }
/-- mean anomaly of the Moon -/
def moonAnomaly (day t : ℝ) : ℝ := 4.7199672 + 0.22997150 * day - moonPerigee day + (moon day).zn * t

/-- The perturbed orbit: mean motion, eccentricity, inclination, argument of perigee, node. -/
structure Target where
  n : ℝ
  e : ℝ
  inc : ℝ
  argp : ℝ
  node : ℝ

namespace Target
variable (o : Target)
/-- direction of the node -/
def N : Vec3 ℝ := planeDir 1 0 (Real.cos o.inc) (Real.sin o.inc) (Real.cos o.node) (Real.sin o.node)
/-- direction 90° ahead of the node -/
def A : Vec3 ℝ := planeDir 0 1 (Real.cos o.inc) (Real.sin o.inc) (Real.cos o.node) (Real.sin o.node)
/-- direction of perigee -/
def P : Vec3 ℝ := planeDir (Real.cos o.argp) (Real.sin o.argp) (Real.cos o.inc) (Real.sin o.inc) (Real.cos o.node) (Real.sin o.node)
/-- direction 90° ahead of perigee -/
def Q : Vec3 ℝ := planeDir (-Real.sin o.argp) (Real.cos o.argp) (Real.cos o.inc) (Real.sin o.inc) (Real.cos o.node) (Real.sin o.node)
/-- normal of the orbit -/
def W : Vec3 ℝ := ⟨Real.sin o.node * Real.sin o.inc, -Real.cos o.node * Real.sin o.inc, Real.cos o.inc⟩
def β : ℝ := Real.sqrt (1 - o.e ^ 2)

variable (b : Perturber)

/-! Amplitudes of the four kinds of perturbation. -/
def s3 : ℝ := b.cc / o.n
def s2 : ℝ := -(o.s3 b) / (2 * o.β)
def s4 : ℝ := o.s3 b * o.β
def s1 : ℝ := -15 * o.e * o.s4 b

/-! Quadratic forms in the direction cosines.  Each is the polarisation of a form at `(X, X)`, `(X, Y)` or `(Y, Y)`. -/
/-- form of the eccentricity terms -/
def formE (U V : Vec3 ℝ) : ℝ := dot U o.P * dot V o.Q
/-- form of the perigee terms -/
def formG (U V : Vec3 ℝ) : ℝ := 12 * dot U o.P * dot V o.P - 3 * dot U o.Q * dot V o.Q
/-- form of the anomaly terms -/
def formL (U V : Vec3 ℝ) : ℝ := 6 * (dot U o.N * dot V o.N + dot U o.A * dot V o.A) + (1 + o.e ^ 2) * o.formG U V
/-- form of the inclination terms -/
def formI (U V : Vec3 ℝ) : ℝ :=
  -6 * dot U o.N * dot V o.W
    - o.e ^ 2 * dot V o.W * (24 * Real.cos o.argp * dot U o.P + 6 * Real.sin o.argp * dot U o.Q)
/-- form of the node terms -/
def formH (U V : Vec3 ℝ) : ℝ :=
  6 * dot U o.A * dot V o.W
    + o.e ^ 2 * dot V o.W * (24 * Real.sin o.argp * dot U o.P - 6 * Real.cos o.argp * dot U o.Q)

/-! Secular rates (per minute) due to one body. -/
def rateE : ℝ := b.zn * o.s1 b * (o.formE b.X b.X + o.formE b.Y b.Y)
def rateI : ℝ := b.zn * o.s2 b * (o.formI b.X b.X + o.formI b.Y b.Y)
def rateM : ℝ := -b.zn * o.s3 b * (o.formL b.X b.X + o.formL b.Y b.Y - 14 - 6 * o.e ^ 2)
/-- rate of `ω + Ω cos i` -/
def rateG : ℝ := b.zn * o.s4 b * (o.formG b.X b.X + o.formG b.Y b.Y - 6)
/-- rate of `Ω sin i` -/
def rateH : ℝ := -b.zn * o.s2 b * (o.formH b.X b.X + o.formH b.Y b.Y)
/-- The node rate is not formed within 3° of the equatorial plane. -/
def nearEquator : Prop := o.inc < 5.2359877 / 10 ^ 2 ∨ Real.pi - 5.2359877 / 10 ^ 2 < o.inc
open Classical in
def rateΩ : ℝ := if o.nearEquator then 0 else o.rateH b / Real.sin o.inc
open Classical in
def rateω : ℝ := o.rateG b - Real.cos o.inc * o.rateΩ b

/-! Periodics due to one body at its mean anomaly `M`. -/
/-- approximate true anomaly -/
def _root_.Sat.Spec.SDP.Perturber.ζ (b : Perturber) (M : ℝ) : ℝ := M + 2 * b.ze * Real.sin M
/-- `sin²ζ/2 - 1/4` -/
def _root_.Sat.Spec.SDP.Perturber.f2 (b : Perturber) (M : ℝ) : ℝ := Real.sin (b.ζ M) ^ 2 / 2 - 1 / 4
/-- `-sin ζ cos ζ / 2` -/
def _root_.Sat.Spec.SDP.Perturber.f3 (b : Perturber) (M : ℝ) : ℝ := -(Real.sin (b.ζ M) * Real.cos (b.ζ M)) / 2

/-- `2 (q(X,Y)+q(Y,X)) f2 / 2 + (q(Y,Y) - q(X,X)) f3`, the oscillating part of a form along the body's orbit -/
def osc (q : Vec3 ℝ → Vec3 ℝ → ℝ) (M : ℝ) : ℝ := (q b.X b.Y + q b.Y b.X) * b.f2 M + (q b.Y b.Y - q b.X b.X) * b.f3 M

def perE (M : ℝ) : ℝ := 2 * o.s1 b * osc b o.formE M
def perI (M : ℝ) : ℝ := 2 * o.s2 b * osc b o.formI M
def perL (M : ℝ) : ℝ := -2 * o.s3 b * (osc b o.formL M - (21 + 9 * o.e ^ 2) * b.ze * Real.sin (b.ζ M))
def perG (M : ℝ) : ℝ := 2 * o.s4 b * (osc b o.formG M - 9 * b.ze * Real.sin (b.ζ M))
def perH (M : ℝ) : ℝ := -2 * o.s2 b * osc b o.formH M
end Target

/-- The orbit which perturbs, for elements in the notation of Report No. 3. -/
def targetAt (q : R3.Orbit) (node : ℝ) : Target := ⟨q.n, q.e, q.inc, q.argp, node⟩

/-- The eccentricity with the lunar-solar secular rate and simplified drag, before the lower limit is applied. -/
def eccentricityRaw (q : R3.Orbit) (node day t : ℝ) : ℝ :=
  q.e + ((targetAt q node).rateE sun + (targetAt q node).rateE (moon day)) * t - q.bstar * q.C4 * t

/-- The mean elements at time `t` of a deep-space orbit as far as this program carries the theory: secular gravity terms,
simplified drag, of the lunar-solar terms the secular rate of the eccentricity and the periodics of the inclination.  (The published
theory adds the other secular rates, the other periodics and the resonance terms.) -/
def carriedMean (q : R3.Orbit) (node day t : ℝ) : R3.Mean :=
  { a := q.a * (1 - q.C1 * t) ^ 2
    e := max (eccentricityRaw q node day t) (1 / 10 ^ 6)
    ω := q.ωDF t
    Ω := q.Ω node t
    L := q.MDF t + q.ωDF t + q.Ω node t + q.n * (3 / 2 * q.C1 * t ^ 2)
    i := |q.inc + ((targetAt q node).perI sun (sunAnomaly day t) + (targetAt q node).perI (moon day) (moonAnomaly day t))| }

end Sat.Spec.SDP
