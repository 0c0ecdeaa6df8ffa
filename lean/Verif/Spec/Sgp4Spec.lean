import Verif.Model.Dpper
/-!
# What SGP4 computes, quantity by quantity

A flat restatement of the propagation formulas as functions of an initialised record `s` and a time `t` (minutes since
epoch), written from the theory (Vallado's SGP4; names of the physical quantities) without mutable state, early returns or
loops.  Used by the statements of C08, C10 and C16.  The parenthesisation is that of the program, because for floating point
it matters.
-/

namespace Sat.Spec
variable {F : Type} [Arith F]

/-- mean anomaly under secular gravity only -/
def anomalyGravity (s : Satrec F) (t : F) : F := s.mo + (s.mdot * t)

/-- periodic drag perturbation of mean anomaly and perigee (full drag model only) -/
def dragAngle (s : Satrec F) (t : F) : F :=
  let w := 1.0 + (s.eta * Arith.cos (anomalyGravity s t))
  (s.omgcof * t) + (s.xmcof * ((w * w * w) - s.delmo))

/-- mean anomaly under gravity and drag -/
def anomaly (s : Satrec F) (t : F) : F :=
  if s.isimp = 1 then anomalyGravity s t else anomalyGravity s t + dragAngle s t

/-- argument of perigee under gravity and drag -/
def perigee (s : Satrec F) (t : F) : F :=
  if s.isimp = 1 then s.argpo + (s.argpdot * t) else (s.argpo + (s.argpdot * t)) - dragAngle s t

/-- right ascension of the ascending node under gravity and drag -/
def node (s : Satrec F) (t : F) : F := (s.nodeo + (s.nodedot * t)) + (s.nodecf * (t * t))

/-- drag factor of the semi-major axis -/
def dragA (s : Satrec F) (t : F) : F :=
  if s.isimp = 1 then 1.0 - (s.cc1 * t)
  else (1.0 - (s.cc1 * t)) - (s.d2 * (t * t)) - (s.d3 * ((t * t) * t)) - (s.d4 * (((t * t) * t) * t))

/-- drag decrease of the eccentricity -/
def dragE (s : Satrec F) (t : F) : F :=
  if s.isimp = 1 then s.bstar * s.cc4 * t
  else s.bstar * s.cc4 * t + s.bstar * s.cc5 * (Arith.sin (anomaly s t) - s.sinmao)

/-- drag advance of the mean longitude, in units of the mean motion -/
def dragL (s : Satrec F) (t : F) : F :=
  if s.isimp = 1 then s.t2cof * (t * t)
  else (s.t2cof * (t * t)) + (s.t3cof * ((t * t) * t)) + ((((t * t) * t) * t) * (s.t4cof + (t * s.t5cof)))

/-- eccentricity after lunar-solar secular drift (deep space) and drag -/
def meanEcc (s : Satrec F) (t : F) : F :=
  (if s.method = .D then s.ecco + s.dedt * t else s.ecco) - dragE s t

/-- the eccentricity actually used: `meanEcc`, but not below 1e-6 -/
def ecc (s : Satrec F) (t : F) : F := if meanEcc s t <. 1.0e-6 then 1.0e-6 else meanEcc s t

/-- semi-major axis -/
def semiMajor (s : Satrec F) (t : F) : F := (Arith.powf (XKE / s.no) X2O3) * dragA s t * dragA s t

/-- node reduced to one turn -/
def nodeR (s : Satrec F) (t : F) : F := Arith.rem (node s t) TWO_PI
/-- perigee reduced to one turn -/
def perigeeR (s : Satrec F) (t : F) : F := Arith.rem (perigee s t) TWO_PI
/-- mean anomaly reduced to one turn -/
def anomalyR (s : Satrec F) (t : F) : F :=
  Arith.rem (Arith.rem ((anomaly s t + s.no * dragL s t) + perigee s t + node s t) TWO_PI - perigeeR s t - nodeR s t)
    TWO_PI

/-- the elements with the lunar-solar periodics of time `t` added (deep space) -/
def perturbed (s : Satrec F) (t : F) : DpperResult F :=
  dpper { s with t := t }
    { init := .N, opsmode := s.operationmode, ep := ecc s t, inclp := s.inclo, nodep := nodeR s t, argpp := perigeeR s t,
      mp := anomalyR s t }

/-- inclination -/
def incl (s : Satrec F) (t : F) : F :=
  if s.method = .D then (if (perturbed s t).inclp <. 0.0 then -(perturbed s t).inclp else (perturbed s t).inclp)
  else s.inclo

/-- long-period coefficient of the eccentricity vector: recomputed for deep space, stored otherwise -/
def ayCoef (s : Satrec F) (t : F) : F :=
  if s.method = .D then -0.5 * J3OJ2 * Arith.sin (incl s t) else s.aycof

/-- long-period coefficient of the mean longitude -/
def xlCoef (s : Satrec F) (t : F) : F :=
  if s.method = .D then
    (if Arith.abs (Arith.cos (incl s t) + 1.0) >. 1.5e-12 then
      (-0.25 * J3OJ2 * Arith.sin (incl s t) * (3.0 + (5.0 * Arith.cos (incl s t)))) / (1.0 + Arith.cos (incl s t))
    else (-0.25 * J3OJ2 * Arith.sin (incl s t) * (3.0 + (5.0 * Arith.cos (incl s t)))) / 1.5e-12)
  else s.xlcof

/-- `1 / (a (1 - e^2))` -/
def invP (s : Satrec F) (t : F) : F := 1.0 / (semiMajor s t * (1.0 - (ecc s t * ecc s t)))

/-- eccentricity vector, component along the node -/
def axn (s : Satrec F) (t : F) : F := ecc s t * Arith.cos (perigeeR s t)
/-- eccentricity vector, component orthogonal to the node, with long-period term -/
def ayn (s : Satrec F) (t : F) : F := (ecc s t * Arith.sin (perigeeR s t)) + (invP s t * ayCoef s t)

/-- right-hand side of Kepler's equation -/
def keplerU (s : Satrec F) (t : F) : F :=
  Arith.rem ((anomalyR s t + perigeeR s t + nodeR s t + (invP s t * xlCoef s t * axn s t)) - nodeR s t) TWO_PI

/-- `(sin E, cos E)` used by the program: Newton's method started at `E`, previous correction `d`, at most `n` more
steps, each correction clamped to 0.95, stopped as soon as a correction is below 1e-12; the sine and cosine are those at the
*start* of the last step made (`sc` if none is made). -/
def newton (U ax ay : F) : Nat → F → F → F × F → F × F
  | 0, _, _, sc => sc
  | n + 1, E, d, sc =>
    if Arith.abs d ≥. 1.0e-12 then
      let raw := (((U - (ay * Arith.cos E)) + (ax * Arith.sin E)) - E)
        / (1.0 - (Arith.cos E * ax) - (Arith.sin E * ay))
      let step := if Arith.abs raw ≥. 0.95 then (if raw >. 0.0 then 0.95 else -0.95) else raw
      newton U ax ay n (E + step) step (Arith.sin E, Arith.cos E)
    else sc

/-- `(sin E, cos E)`: at most ten Newton steps from `E = U` -/
def sinCosE (s : Satrec F) (t : F) : F × F := newton (keplerU s t) (axn s t) (ayn s t) 10 (keplerU s t) 9999.9 (0.0, 0.0)

/-- semi-latus rectum -/
def semiLatus (s : Satrec F) (t : F) : F := semiMajor s t * (1.0 - ((axn s t * axn s t) + (ayn s t * ayn s t)))

/-- distance before short-period terms -/
def radius0 (s : Satrec F) (t : F) : F :=
  semiMajor s t * (1.0 - ((axn s t * (sinCosE s t).2) + (ayn s t * (sinCosE s t).1)))

/-- `sqrt (1 - e_L^2)` -/
def beta (s : Satrec F) (t : F) : F := Arith.sqrt (1.0 - ((axn s t * axn s t) + (ayn s t * ayn s t)))

/-- `e sin E / (1 + beta)` -/
def esinE (s : Satrec F) (t : F) : F :=
  ((axn s t * (sinCosE s t).1) - (ayn s t * (sinCosE s t).2)) / (1.0 + beta s t)

/-- sine of the argument of latitude -/
def sinU (s : Satrec F) (t : F) : F :=
  (semiMajor s t / radius0 s t) * ((sinCosE s t).1 - ayn s t - (axn s t * esinE s t))

/-- `cos 2u` -/
def cos2u (s : Satrec F) (t : F) : F := 1.0 - (2.0 * sinU s t * sinU s t)

/-- `J2 / (2 p)` -/
def k1 (s : Satrec F) (t : F) : F := 0.5 * J2 * (1.0 / semiLatus s t)
/-- `J2 / (2 p^2)` -/
def k2 (s : Satrec F) (t : F) : F := k1 s t * (1.0 / semiLatus s t)

/-- `3 cos^2 i - 1` -/
def threeCos (s : Satrec F) (t : F) : F :=
  if s.method = .D then (3.0 * (Arith.cos (incl s t) * Arith.cos (incl s t))) - 1.0 else s.con41
/-- `1 - cos^2 i` -/
def oneMinusCos (s : Satrec F) (t : F) : F :=
  if s.method = .D then 1.0 - (Arith.cos (incl s t) * Arith.cos (incl s t)) else s.x1mth2
/-- `7 cos^2 i - 1` -/
def sevenCos (s : Satrec F) (t : F) : F :=
  if s.method = .D then (7.0 * (Arith.cos (incl s t) * Arith.cos (incl s t))) - 1.0 else s.x7thm1

/-- distance from the earth's centre in earth radii, with short-period terms -/
def radius (s : Satrec F) (t : F) : F :=
  (radius0 s t * (1.0 - (1.5 * k2 s t * beta s t * threeCos s t))) + (0.5 * k1 s t * oneMinusCos s t * cos2u s t)

/-- cosine of the argument of latitude -/
def cosU (s : Satrec F) (t : F) : F :=
  (semiMajor s t / radius0 s t) * (((sinCosE s t).2 - axn s t) + (ayn s t * esinE s t))

/-- `sin 2u` -/
def sin2u (s : Satrec F) (t : F) : F := (cosU s t + cosU s t) * sinU s t

/-- argument of latitude with short-period terms -/
def argLat (s : Satrec F) (t : F) : F :=
  Arith.atan2 (sinU s t) (cosU s t) - 0.25 * k2 s t * sevenCos s t * sin2u s t

/-- node with short-period terms -/
def nodeS (s : Satrec F) (t : F) : F := nodeR s t + (1.5 * k2 s t * Arith.cos (incl s t) * sin2u s t)

/-- inclination with short-period terms -/
def inclS (s : Satrec F) (t : F) : F :=
  incl s t + (1.5 * k2 s t * Arith.cos (incl s t) * Arith.sin (incl s t) * cos2u s t)

/-- mean motion after drag -/
def motion (s : Satrec F) (t : F) : F := XKE / Arith.powf (semiMajor s t) 1.5

/-- radial velocity -/
def rdot (s : Satrec F) (t : F) : F :=
  (Arith.sqrt (semiMajor s t) * ((axn s t * (sinCosE s t).1) - (ayn s t * (sinCosE s t).2))) / radius0 s t
    - ((motion s t * k1 s t * oneMinusCos s t * sin2u s t) / XKE)

/-- transverse velocity -/
def rfdot (s : Satrec F) (t : F) : F :=
  Arith.sqrt (semiLatus s t) / radius0 s t
    + ((motion s t * k1 s t * ((oneMinusCos s t * cos2u s t) + (1.5 * threeCos s t))) / XKE)

/-- unit vector towards the satellite for argument of latitude `u`, node `n`, inclination `i` -/
def unitU (u n i : F) : Vec3 F :=
  { x := (-Arith.sin n * Arith.cos i * Arith.sin u) + (Arith.cos n * Arith.cos u)
    y := (Arith.cos n * Arith.cos i * Arith.sin u) + (Arith.sin n * Arith.cos u)
    z := Arith.sin i * Arith.sin u }

/-- unit vector in the orbital plane, ninety degrees ahead of `unitU` -/
def unitV (u n i : F) : Vec3 F :=
  { x := (-Arith.sin n * Arith.cos i * Arith.cos u) - (Arith.cos n * Arith.sin u)
    y := (Arith.cos n * Arith.cos i * Arith.cos u) - (Arith.sin n * Arith.sin u)
    z := Arith.sin i * Arith.cos u }

/-- position in km -/
def position (s : Satrec F) (t : F) : Vec3 F :=
  let U := unitU (argLat s t) (nodeS s t) (inclS s t)
  { x := (radius s t * U.x) * EARTH_RADIUS, y := (radius s t * U.y) * EARTH_RADIUS, z := (radius s t * U.z) * EARTH_RADIUS }

/-- velocity in km/s -/
def velocity (s : Satrec F) (t : F) : Vec3 F :=
  let U := unitU (argLat s t) (nodeS s t) (inclS s t)
  let V := unitV (argLat s t) (nodeS s t) (inclS s t)
  { x := ((rdot s t * U.x) + (rfdot s t * V.x)) * ((EARTH_RADIUS * XKE) / 60.0)
    y := ((rdot s t * U.y) + (rfdot s t * V.y)) * ((EARTH_RADIUS * XKE) / 60.0)
    z := ((rdot s t * U.z) + (rfdot s t * V.z)) * ((EARTH_RADIUS * XKE) / 60.0) }

/-- The outcome: the first error condition that holds, otherwise position and velocity. -/
def result (s : Satrec F) (t : F) : Except SGP4Error (SGP4Result F) :=
  if s.no ≤. 0.0 then .error .Nm
  else if (meanEcc s t ≥. 1.0) || (meanEcc s t <. -0.001) then .error .Eccentricty
  else if s.method = .D ∧ (((perturbed s t).ep <. 0.0) || ((perturbed s t).ep >. 1.0)) then .error .Ep
  else if semiLatus s t <. 0.0 then .error .Pl
  else if radius s t <. 1.0 then .error .DecayCondition
  else .ok { position := position s t, velocity := velocity s t }

end Sat.Spec
