import Verif.Model.Constants
/-! # `/repo/src/lib.rs` and `/repo/src/doppler_factor.rs` -/

namespace Sat
variable {F : Type} [Arith F]

/-- `lib.rs:12-16` -/
structure Vec3 (F : Type) where
  x : F
  y : F
  z : F

/-- `lib.rs:22-31` -/
structure TopoCentric (F : Type) where
  top_s : F
  top_e : F
  top_z : F

/-- `lib.rs:35-44` -/
structure Geodedic (F : Type) where
  longitude : F
  latitude : F
  height : F

/-- `lib.rs:48-57` -/
structure Bearing (F : Type) where
  azimuth : F
  elevation : F
  range : F

/-- `lib.rs:60-63` `Vec3::range` -/
def Vec3.range (a b : Vec3 F) : F :=
  Arith.sqrt ((Arith.powf (a.x - b.x) 2.0 + Arith.powf (a.y - b.y) 2.0) + Arith.powf (a.z - b.z) 2.0)

/-- `lib.rs:65-71` `Vec3::add` -/
def Vec3.add (a b : Vec3 F) : Vec3 F := { x := a.x + b.x, y := a.y + b.y, z := a.z + b.z }

/-- `lib.rs:73-79` `Vec3::subtract` -/
def Vec3.subtract (a b : Vec3 F) : Vec3 F := { x := a.x - b.x, y := a.y - b.y, z := a.z - b.z }

/-- `doppler_factor.rs:4-10` `sign` -/
def sign (val : F) : F := if val ≥. 0.0 then 1.0 else -1.0

/-- `doppler_factor.rs:12-25` `doppler_factor` -/
def doppler_factor (location position velocity : Vec3 F) : F :=
  let current_range := position.range location
  let next_pos := position.add velocity
  let next_range := next_pos.range location
  let range_rate := next_range - current_range
  let range_rate := range_rate * sign range_rate
  1.0 + (range_rate / LIGHT)

end Sat
