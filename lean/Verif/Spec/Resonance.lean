import Verif.Spec.Report3
import Mathlib.Data.Nat.Choose.Basic
import Mathlib.Algebra.BigOperators.Intervals
/-!
# Resonance with the tesseral harmonics, as published

Hujsak (Spacetrack Report No. 1), Hoots–Schumacher–Glover (2004).  The inclination functions are those of W. M. Kaula, *Theory of
Satellite Geodesy* (1966), eq. 3.62, written for every degree, order and index; the eccentricity functions are the polynomials tabulated
for SDP4.  Nothing here refers to the program; the constants are written out again.
-/

noncomputable section
namespace Sat.Spec.Res
open Finset

/-- Kaula's inclination function `F_lmp(i)`. -/
def kaulaF (l m p : ℕ) (i : ℝ) : ℝ :=
  let k := (l - m) / 2
  ∑ t ∈ range (min p k + 1),
    ((2 * l - 2 * t).factorial : ℝ) / (t.factorial * (l - t).factorial * (l - m - 2 * t).factorial * 2 ^ (2 * l - 2 * t))
      * Real.sin i ^ (l - m - 2 * t)
      * ∑ s ∈ range (m + 1), (m.choose s : ℝ) * Real.cos i ^ s
        * ∑ c ∈ range (p - t + 1), ((l - m - 2 * t + s).choose c : ℝ) * ((m - s).choose (p - t - c) : ℝ) * (-1) ^ (c + k)

/-- rotation of the Earth, rad/min -/
def earthRate : ℝ := 4.37526908801129966 / 10 ^ 3

/-! ## Half-day orbits -/

/-- normalised magnitudes of the tesseral harmonics -/
def root22 : ℝ := 1.7891679 / 10 ^ 6
def root32 : ℝ := 3.7393792 / 10 ^ 7
def root44 : ℝ := 7.3636953 / 10 ^ 9
def root52 : ℝ := 1.1428639 / 10 ^ 7
def root54 : ℝ := 2.1765803 / 10 ^ 9

/-! Eccentricity functions `G_lpq` of a half-day orbit. -/
def G201 (e : ℝ) : ℝ := -0.306 - 0.44 * (e - 0.64)
def G211 (e : ℝ) : ℝ :=
  if e ≤ 0.65 then 3.616 - 13.247 * e + 16.29 * e ^ 2 else -72.099 + 331.819 * e - 508.738 * e ^ 2 + 266.724 * e ^ 3
def G310 (e : ℝ) : ℝ :=
  if e ≤ 0.65 then -19.302 + 117.39 * e - 228.419 * e ^ 2 + 156.591 * e ^ 3
  else -346.844 + 1582.851 * e - 2415.925 * e ^ 2 + 1246.113 * e ^ 3
def G322 (e : ℝ) : ℝ :=
  if e ≤ 0.65 then -18.9068 + 109.7927 * e - 214.6334 * e ^ 2 + 146.5816 * e ^ 3
  else -342.585 + 1554.908 * e - 2366.899 * e ^ 2 + 1215.972 * e ^ 3
def G410 (e : ℝ) : ℝ :=
  if e ≤ 0.65 then -41.122 + 242.694 * e - 471.094 * e ^ 2 + 313.953 * e ^ 3
  else -1052.797 + 4758.686 * e - 7193.992 * e ^ 2 + 3651.957 * e ^ 3
def G422 (e : ℝ) : ℝ :=
  if e ≤ 0.65 then -146.407 + 841.88 * e - 1629.014 * e ^ 2 + 1083.435 * e ^ 3
  else -3581.69 + 16178.11 * e - 24462.77 * e ^ 2 + 12422.52 * e ^ 3
def G520 (e : ℝ) : ℝ :=
  if e ≤ 0.65 then -532.114 + 3017.977 * e - 5740.032 * e ^ 2 + 3708.276 * e ^ 3
  else if e ≤ 0.715 then 1464.74 - 4664.75 * e + 3763.64 * e ^ 2
  else -5149.66 + 29936.92 * e - 54087.36 * e ^ 2 + 31324.56 * e ^ 3
def G533 (e : ℝ) : ℝ :=
  if e < 0.7 then -919.2277 + 4988.61 * e - 9064.77 * e ^ 2 + 5542.21 * e ^ 3
  else -37995.78 + 161616.52 * e - 229838.2 * e ^ 2 + 109377.94 * e ^ 3
def G521 (e : ℝ) : ℝ :=
  if e < 0.7 then -822.71072 + 4568.6173 * e - 8491.4146 * e ^ 2 + 5337.524 * e ^ 3
  else -51752.104 + 218913.95 * e - 309468.16 * e ^ 2 + 146349.42 * e ^ 3
def G532 (e : ℝ) : ℝ :=
  if e < 0.7 then -853.666 + 4690.25 * e - 8624.77 * e ^ 2 + 5341.4 * e ^ 3
  else -40023.88 + 170470.89 * e - 242699.48 * e ^ 2 + 115605.82 * e ^ 3

/-- The coefficient `D` of a half-day resonance term of degree `l`, order `m` (2 or 4): `(m/2) 3 n² / a^l` times the magnitude of the
harmonic, the inclination function and the eccentricity function. -/
def D (n a : ℝ) (l m : ℕ) (root F G : ℝ) : ℝ := (m / 2 : ℝ) * 3 * n ^ 2 / a ^ l * root * F * G

/-! ## One-day orbits -/

def q22 : ℝ := 1.7891679 / 10 ^ 6
def q31 : ℝ := 2.1460748 / 10 ^ 6
def q33 : ℝ := 2.2123015 / 10 ^ 7

/-- eccentricity functions of a one-day orbit: truncated expansions -/
def G200 (e : ℝ) : ℝ := 1 - 5 / 2 * e ^ 2 + 13 / 16 * e ^ 4
def G310s (e : ℝ) : ℝ := 1 + 2 * e ^ 2
/-- (the exact coefficient of `e⁴` is 423/64 = 6.609375) -/
def G300 (e : ℝ) : ℝ := 1 - 6 * e ^ 2 + 6.60937 * e ^ 4

/-- The coefficient `δ` of a one-day resonance term of degree `l`, order `m`: `m 3 n² / a^l` times the same three factors. -/
def δ (n a : ℝ) (l m : ℕ) (q F G : ℝ) : ℝ := m * 3 * n ^ 2 / a ^ l * q * F * G

end Sat.Spec.Res
