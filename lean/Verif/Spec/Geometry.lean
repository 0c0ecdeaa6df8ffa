import Verif.RealArith
import Verif.Model.Vec
/-!
# Elementary vector geometry over the reals (specification side)

Written without reference to the crate's functions.
-/

namespace Sat.Spec

/-- inner product -/
noncomputable def dot (a b : Vec3 ℝ) : ℝ := a.x * b.x + a.y * b.y + a.z * b.z

/-- Euclidean length -/
noncomputable def len (a : Vec3 ℝ) : ℝ := Real.sqrt (dot a a)

/-- difference vector -/
noncomputable def sub (a b : Vec3 ℝ) : Vec3 ℝ := ⟨a.x - b.x, a.y - b.y, a.z - b.z⟩

/-- `a + h * u` -/
noncomputable def along (a : Vec3 ℝ) (h : ℝ) (u : Vec3 ℝ) : Vec3 ℝ := ⟨a.x + h * u.x, a.y + h * u.y, a.z + h * u.z⟩

/-- cross product -/
noncomputable def cross (a b : Vec3 ℝ) : Vec3 ℝ :=
  ⟨a.y * b.z - a.z * b.y, a.z * b.x - a.x * b.z, a.x * b.y - a.y * b.x⟩

/-- scalar multiple -/
noncomputable def scale (c : ℝ) (a : Vec3 ℝ) : Vec3 ℝ := ⟨c * a.x, c * a.y, c * a.z⟩

/-- rotation about the z axis by the angle `θ`, counter-clockwise -/
noncomputable def rotZ (θ : ℝ) (v : Vec3 ℝ) : Vec3 ℝ :=
  ⟨v.x * Real.cos θ - v.y * Real.sin θ, v.x * Real.sin θ + v.y * Real.cos θ, v.z⟩

/-- Two angles that differ by a whole number of turns. -/
def SameAngle (a b : ℝ) : Prop := ∃ k : ℤ, a = b + k * (2 * Real.pi)

/-- WGS reference ellipsoid: equatorial and polar semi-axes, in km. -/
noncomputable def equatorial : ℝ := 6378.137
noncomputable def polar : ℝ := 6356.7523142

/-- The point lies on the reference ellipsoid. -/
def OnEllipsoid (p : Vec3 ℝ) : Prop :=
  (p.x ^ 2 + p.y ^ 2) / equatorial ^ 2 + p.z ^ 2 / polar ^ 2 = 1

/-- outward unit normal of geodetic latitude `φ` and longitude `l` (the direction of the zenith) -/
noncomputable def zenith (φ l : ℝ) : Vec3 ℝ := ⟨Real.cos φ * Real.cos l, Real.cos φ * Real.sin l, Real.sin φ⟩

/-- direction of the local east -/
noncomputable def east (l : ℝ) : Vec3 ℝ := ⟨-Real.sin l, Real.cos l, 0⟩

/-- direction of the local south -/
noncomputable def south (φ l : ℝ) : Vec3 ℝ := ⟨Real.sin φ * Real.cos l, Real.sin φ * Real.sin l, -Real.cos φ⟩

/-- The gradient of the ellipsoid's defining function at `p`. -/
noncomputable def ellipsoidGradient (p : Vec3 ℝ) : Vec3 ℝ :=
  ⟨2 * p.x / equatorial ^ 2, 2 * p.y / equatorial ^ 2, 2 * p.z / polar ^ 2⟩

end Sat.Spec
